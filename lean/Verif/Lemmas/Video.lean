import Verif.Model.Video
import Verif.Spec.Video

/-!
# Lemmas about loading videos
-/

namespace Cddm
open Spec

theorem loadRow_ok {F : Type} {put : F → F → Py F} {j count : Nat} (hj : j < count) (outs : List (CamArray F))
    (fs : List F) (hlen : fs.length = outs.length) (hrows : ∀ o ∈ outs, o.2.length = count)
    (hput : ∀ (c : Nat) (o : CamArray F) (f : F), outs[c]? = some o → fs[c]? = some f → put o.1 f = .ok f) :
    ∃ outs', loadRow put j outs fs = .ok outs' ∧ outs'.length = outs.length ∧
      ∀ (c : Nat) (o : CamArray F) (f : F), outs[c]? = some o → fs[c]? = some f →
        outs'[c]? = some (o.1, o.2.set j (some f)) := by
  induction outs generalizing fs with
  | nil =>
    cases fs with
    | nil => exact ⟨[], rfl, rfl, by simp⟩
    | cons f fs => simp at hlen
  | cons o outs ih =>
    cases fs with
    | nil => simp at hlen
    | cons f fs =>
      obtain ⟨t, rows⟩ := o
      obtain ⟨outs', e, l, h⟩ := ih fs (by simpa using hlen) (fun o ho => hrows o (List.mem_cons_of_mem _ ho))
        (fun c o f ho hf => hput (c + 1) o f ho hf)
      have hp := hput 0 (t, rows) f rfl rfl
      have hr : rows.length = count := hrows (t, rows) List.mem_cons_self
      dsimp only at hp
      refine ⟨(t, rows.set j (some f)) :: outs', ?_, by simp [l], ?_⟩
      · unfold loadRow
        rw [if_pos (by omega), hp, e]
        rfl
      · intro c o f' ho hf
        cases c with
        | zero =>
          simp only [List.getElem?_cons_zero, Option.some.injEq] at ho hf ⊢
          subst ho
          subst hf
          rfl
        | succ c => exact h c o f' ho hf

theorem loadRow_over {F : Type} {put : F → F → Py F} {j count : Nat} (hj : count ≤ j) (outs : List (CamArray F))
    (fs : List F) (hfs : fs ≠ []) (hrows : ∀ o ∈ outs, o.2.length = count) :
    loadRow put j outs fs = .error .indexError := by
  cases fs with
  | nil => exact absurd rfl hfs
  | cons f fs =>
    cases outs with
    | nil => rfl
    | cons o outs =>
      obtain ⟨t, rows⟩ := o
      have hr : rows.length = count := hrows (t, rows) List.mem_cons_self
      unfold loadRow
      rw [if_neg (by omega)]

theorem loadLoop_ok {F : Type} {put : F → F → Py F} {count C : Nat} (rest : List (List F)) :
    ∀ (j : Nat) (outs : List (CamArray F)), outs.length = C → HasCameras rest C → j + rest.length ≤ count →
    (∀ o ∈ outs, o.2.length = count) →
    (∀ (c : Nat) (o : CamArray F), outs[c]? = some o → ∀ f ∈ camera rest c, put o.1 f = .ok f) →
    ∃ outs', loadLoop put j rest outs = .ok outs' ∧ outs'.length = C ∧
      ∀ (c : Nat) (o : CamArray F), outs[c]? = some o →
        outs'[c]? = some (o.1, o.2.take j ++ (camera rest c).map some ++ o.2.drop (j + rest.length)) := by
  induction rest with
  | nil =>
    intro j outs hl _ _ _ _
    refine ⟨outs, rfl, hl, fun c o ho => ?_⟩
    rw [ho]
    simp [camera]
  | cons fs rest ih =>
    intro j outs hl hc hj hrows hput
    have hfs := hc fs List.mem_cons_self
    simp only [List.length_cons] at hj
    have cam : ∀ (c : Nat) (f : F), fs[c]? = some f → camera (fs :: rest) c = f :: camera rest c := by
      intro c f hf
      unfold camera
      rw [List.filterMap_cons, hf]
    obtain ⟨outs1, e1, l1, h1⟩ := loadRow_ok (put := put) (j := j) (count := count) (by omega) outs fs (by omega) hrows
      (fun c o f ho hf => hput c o ho f (by rw [cam c f hf]; exact List.mem_cons_self))
    have inv : ∀ (c : Nat) (o1 : CamArray F), outs1[c]? = some o1 →
        ∃ o f, outs[c]? = some o ∧ fs[c]? = some f ∧ o1 = (o.1, o.2.set j (some f)) := by
      intro c o1 ho1
      have hc : c < outs1.length := (List.getElem?_eq_some_iff.mp ho1).1
      refine ⟨outs[c]'(by omega), fs[c]'(by omega), List.getElem?_eq_getElem _, List.getElem?_eq_getElem _, ?_⟩
      have := h1 c (outs[c]'(by omega)) (fs[c]'(by omega)) (List.getElem?_eq_getElem _) (List.getElem?_eq_getElem _)
      rw [ho1] at this
      exact Option.some.inj this
    obtain ⟨outs2, e2, l2, h2⟩ := ih (j + 1) outs1 (by omega) (fun fs h => hc fs (List.mem_cons_of_mem _ h)) (by omega)
      (by
        intro o1 ho1
        obtain ⟨c, hc, rfl⟩ := List.mem_iff_getElem.mp ho1
        obtain ⟨o, f, ho, hf, e⟩ := inv c _ (List.getElem?_eq_getElem hc)
        rw [e]
        simpa using hrows o (List.mem_of_getElem? ho))
      (by
        intro c o1 ho1 g hg
        obtain ⟨o, f, ho, hf, rfl⟩ := inv c o1 ho1
        exact hput c o ho g (by rw [cam c f hf]; exact List.mem_cons_of_mem _ hg))
    refine ⟨outs2, ?_, l2, ?_⟩
    · unfold loadLoop
      rw [e1]
      exact e2
    · intro c o ho
      have hcl : c < outs.length := (List.getElem?_eq_some_iff.mp ho).1
      have hf : fs[c]? = some (fs[c]'(by omega)) := List.getElem?_eq_getElem _
      generalize fs[c]'(by omega) = f at hf
      have := h2 c _ (h1 c o f ho hf)
      rw [this, cam c f hf]
      have hr := hrows o (List.mem_of_getElem? ho)
      dsimp only
      have e1 : (o.2.set j (some f)).take (j + 1) = o.2.take j ++ [some f] := by
        rw [List.take_add_one, List.take_set_of_le (le_refl _), List.getElem?_set_self (by omega)]
        rfl
      rw [e1, List.drop_set_of_lt (by omega), List.length_cons, List.map_cons,
        show j + 1 + rest.length = j + (rest.length + 1) by omega]
      simp [List.append_assoc]

theorem loadLoop_over {F : Type} {put : F → F → Py F} {count C : Nat} (hC : 0 < C) (rest : List (List F)) :
    ∀ (j : Nat) (outs : List (CamArray F)), outs.length = C → HasCameras rest C → count < j + rest.length →
    j ≤ count → (∀ o ∈ outs, o.2.length = count) →
    (∀ (c : Nat) (o : CamArray F), outs[c]? = some o → ∀ f ∈ camera rest c, put o.1 f = .ok f) →
    loadLoop put j rest outs = .error .indexError := by
  induction rest with
  | nil =>
    intro j outs _ _ h h'
    simp at h
    omega
  | cons fs rest ih =>
    intro j outs hl hc hj hj' hrows hput
    have hfs := hc fs List.mem_cons_self
    simp only [List.length_cons] at hj
    have cam : ∀ (c : Nat) (f : F), fs[c]? = some f → camera (fs :: rest) c = f :: camera rest c := by
      intro c f hf
      unfold camera
      rw [List.filterMap_cons, hf]
    unfold loadLoop
    by_cases c : j < count
    · obtain ⟨outs1, e1, l1, h1⟩ := loadRow_ok (put := put) c outs fs (by omega) hrows
        (fun c o f ho hf => hput c o ho f (by rw [cam c f hf]; exact List.mem_cons_self))
      have inv : ∀ (c : Nat) (o1 : CamArray F), outs1[c]? = some o1 →
          ∃ o f, outs[c]? = some o ∧ fs[c]? = some f ∧ o1 = (o.1, o.2.set j (some f)) := by
        intro c o1 ho1
        have hc : c < outs1.length := (List.getElem?_eq_some_iff.mp ho1).1
        refine ⟨outs[c]'(by omega), fs[c]'(by omega), List.getElem?_eq_getElem _, List.getElem?_eq_getElem _, ?_⟩
        have := h1 c (outs[c]'(by omega)) (fs[c]'(by omega)) (List.getElem?_eq_getElem _) (List.getElem?_eq_getElem _)
        rw [ho1] at this
        exact Option.some.inj this
      rw [e1]
      refine ih (j + 1) outs1 (by omega) (fun fs h => hc fs (List.mem_cons_of_mem _ h)) (by omega) (by omega) ?_ ?_
      · intro o1 ho1
        obtain ⟨c, hc, rfl⟩ := List.mem_iff_getElem.mp ho1
        obtain ⟨o, f, ho, hf, e⟩ := inv c _ (List.getElem?_eq_getElem hc)
        rw [e]
        simpa using hrows o (List.mem_of_getElem? ho)
      · intro c o1 ho1 g hg
        obtain ⟨o, f, ho, hf, rfl⟩ := inv c o1 ho1
        exact hput c o ho g (by rw [cam c f hf]; exact List.mem_cons_of_mem _ hg)
    · rw [loadRow_over (count := count) (by omega) outs fs (by intro h; rw [h] at hfs; simp at hfs; omega) hrows]
      rfl

theorem loadVideo_ok {F : Type} {put : F → F → Py F} (fill : F → Option F) (verbose : Int) {count C : Nat}
    (video : List (List F)) (hv : video ≠ []) (hC : HasCameras video C) (hcount : video.length ≤ count)
    (hfit : FramesFit put video) :
    ∃ arrays, loadVideo put fill verbose count video = .ok arrays ∧ arrays.length = C ∧
      ∀ c, c < C → ∃ t rest, camera video c = t :: rest ∧ arrays[c]? =
        some ((camera video c).map some ++ List.replicate (count - video.length) (fill t)) := by
  cases video with
  | nil => exact absurd rfl hv
  | cons f0 rest =>
    have hf0 := hC f0 List.mem_cons_self
    simp only [List.length_cons] at hcount
    have cam : ∀ (c : Nat) (f : F), f0[c]? = some f → camera (f0 :: rest) c = f :: camera rest c := by
      intro c f hf
      unfold camera
      rw [List.filterMap_cons, hf]
    have o0 : ∀ (c : Nat) (o : CamArray F),
        (f0.map fun f => (f, List.replicate count (fill f)))[c]? = some o →
        f0[c]? = some o.1 ∧ o.2 = List.replicate count (fill o.1) := by
      intro c o ho
      rw [List.getElem?_map, Option.map_eq_some_iff] at ho
      obtain ⟨f, hf, rfl⟩ := ho
      exact ⟨hf, rfl⟩
    obtain ⟨outs1, e1, l1, h1⟩ := loadRow_ok (put := put) (j := 0) (count := count) (by omega)
      (f0.map fun f => (f, List.replicate count (fill f))) f0 (by simp)
      (by
        intro o ho
        obtain ⟨f, _, rfl⟩ := List.mem_map.mp ho
        simp)
      (by
        intro c o f ho hf
        obtain ⟨h, _⟩ := o0 c o ho
        rw [h] at hf
        cases hf
        exact hfit c _ _ (by rw [cam c _ h]; exact List.mem_cons_self) (by rw [cam c _ h]; exact List.mem_cons_self))
    have l1' : outs1.length = C := by rw [l1, List.length_map, hf0]
    have inv : ∀ (c : Nat) (o1 : CamArray F), outs1[c]? = some o1 →
        ∃ f, f0[c]? = some f ∧ o1 = (f, (List.replicate count (fill f)).set 0 (some f)) := by
      intro c o1 ho1
      have hc : c < outs1.length := (List.getElem?_eq_some_iff.mp ho1).1
      have hf : f0[c]? = some (f0[c]'(by omega)) := List.getElem?_eq_getElem _
      generalize f0[c]'(by omega) = f at hf
      refine ⟨f, hf, ?_⟩
      have := h1 c (f, List.replicate count (fill f)) f (by rw [List.getElem?_map, hf]; rfl) hf
      rw [ho1] at this
      exact Option.some.inj this
    obtain ⟨outs2, e2, l2, h2⟩ := loadLoop_ok (put := put) (count := count) (C := C) rest 1 outs1 l1'
      (fun fs h => hC fs (List.mem_cons_of_mem _ h)) (by omega)
      (by
        intro o1 ho1
        obtain ⟨c, hc, rfl⟩ := List.mem_iff_getElem.mp ho1
        obtain ⟨f, hf, e⟩ := inv c _ (List.getElem?_eq_getElem hc)
        rw [e]
        simp)
      (by
        intro c o1 ho1 g hg
        obtain ⟨f, hf, rfl⟩ := inv c o1 ho1
        exact hfit c _ _ (by rw [cam c f hf]; exact List.mem_cons_self)
          (by rw [cam c f hf]; exact List.mem_cons_of_mem _ hg))
    refine ⟨outs2.map (·.2), ?_, by rw [List.length_map, l2], ?_⟩
    · unfold loadVideo
      rw [if_neg (by omega)]
      dsimp only
      rw [e1]
      simp only [bind, Except.bind, e2]
    · intro c hc
      have hf : f0[c]? = some (f0[c]'(by omega)) := List.getElem?_eq_getElem _
      generalize f0[c]'(by omega) = f at hf
      refine ⟨f, camera rest c, cam c f hf, ?_⟩
      have ho1 : outs1[c]? = some (outs1[c]'(by omega)) := List.getElem?_eq_getElem _
      obtain ⟨f', hf', e⟩ := inv c _ ho1
      rw [hf] at hf'
      cases hf'
      rw [List.getElem?_map, h2 c _ ho1, e, cam c f hf]
      obtain ⟨k, rfl⟩ : ∃ k, count = k + 1 := ⟨count - 1, by omega⟩
      simp only [Option.map_some, List.replicate_succ, List.set_cons_zero, List.take_succ_cons, List.take_zero,
        List.map_cons, List.length_cons, Nat.add_comm 1, List.drop_succ_cons, List.drop_replicate]
      simp

theorem loadVideo_over {F : Type} {put : F → F → Py F} (fill : F → Option F) (verbose : Int) {count C : Nat}
    (hcp : 0 < count) (hC0 : 0 < C) (video : List (List F)) (hC : HasCameras video C)
    (hcount : count < video.length) (hfit : FramesFit put video) :
    loadVideo put fill verbose count video = .error .indexError := by
  cases video with
  | nil => simp at hcount
  | cons f0 rest =>
    have hf0 := hC f0 List.mem_cons_self
    simp only [List.length_cons] at hcount
    have cam : ∀ (c : Nat) (f : F), f0[c]? = some f → camera (f0 :: rest) c = f :: camera rest c := by
      intro c f hf
      unfold camera
      rw [List.filterMap_cons, hf]
    obtain ⟨outs1, e1, l1, h1⟩ := loadRow_ok (put := put) (j := 0) (count := count) (by omega)
      (f0.map fun f => (f, List.replicate count (fill f))) f0 (by simp)
      (by
        intro o ho
        obtain ⟨f, _, rfl⟩ := List.mem_map.mp ho
        simp)
      (by
        intro c o f ho hf
        rw [List.getElem?_map, Option.map_eq_some_iff] at ho
        obtain ⟨g, h, rfl⟩ := ho
        rw [h] at hf
        cases hf
        exact hfit c _ _ (by rw [cam c _ h]; exact List.mem_cons_self) (by rw [cam c _ h]; exact List.mem_cons_self))
    have l1' : outs1.length = C := by rw [l1, List.length_map, hf0]
    have inv : ∀ (c : Nat) (o1 : CamArray F), outs1[c]? = some o1 →
        ∃ f, f0[c]? = some f ∧ o1 = (f, (List.replicate count (fill f)).set 0 (some f)) := by
      intro c o1 ho1
      have hc : c < outs1.length := (List.getElem?_eq_some_iff.mp ho1).1
      have hf : f0[c]? = some (f0[c]'(by omega)) := List.getElem?_eq_getElem _
      generalize f0[c]'(by omega) = f at hf
      refine ⟨f, hf, ?_⟩
      have := h1 c (f, List.replicate count (fill f)) f (by rw [List.getElem?_map, hf]; rfl) hf
      rw [ho1] at this
      exact Option.some.inj this
    unfold loadVideo
    rw [if_neg (by omega)]
    dsimp only
    rw [e1]
    simp only [bind, Except.bind]
    rw [loadLoop_over (count := count) hC0 rest 1 outs1 l1' (fun fs h => hC fs (List.mem_cons_of_mem _ h)) (by omega) (by omega)
      (by
        intro o1 ho1
        obtain ⟨c, hc, rfl⟩ := List.mem_iff_getElem.mp ho1
        obtain ⟨f, hf, e⟩ := inv c _ (List.getElem?_eq_getElem hc)
        rw [e]
        simp)
      (by
        intro c o1 ho1 g hg
        obtain ⟨f, hf, rfl⟩ := inv c o1 ho1
        exact hfit c _ _ (by rw [cam c f hf]; exact List.mem_cons_self)
          (by rw [cam c f hf]; exact List.mem_cons_of_mem _ hg))]

theorem foldl_min_eq {n : Nat} (l : List Nat) (h : ∀ x ∈ l, x = n) : l.foldl min n = n := by
  induction l with
  | nil => rfl
  | cons a l ih =>
    rw [List.foldl_cons, h a List.mem_cons_self, Nat.min_self]
    exact ih fun x hx => h x (List.mem_cons_of_mem _ hx)

theorem fromarrays_eq {F : Type} {n : Nat} (arrays : List (List F)) (hne : arrays ≠ [])
    (hlen : ∀ a ∈ arrays, a.length = n) :
    fromarrays arrays = (List.range n).map fun (k : Nat) => arrays.filterMap fun x => x[k]? := by
  cases arrays with
  | nil => exact absurd rfl hne
  | cons a as =>
    unfold fromarrays
    dsimp only
    rw [hlen a List.mem_cons_self, foldl_min_eq]
    intro x hx
    obtain ⟨b, hb, rfl⟩ := List.mem_map.mp hx
    exact hlen b (List.mem_cons_of_mem _ hb)

theorem row_getElem? {F : Type} {n k : Nat} (hk : k < n) (arrays : List (List F)) (hlen : ∀ a ∈ arrays, a.length = n)
    (c : Nat) : (arrays.filterMap fun x => x[k]?)[c]? = arrays[c]?.bind fun x => x[k]? := by
  induction arrays generalizing c with
  | nil => rfl
  | cons a as ih =>
    have ha : a[k]? = some (a[k]'(by rw [hlen a List.mem_cons_self]; exact hk)) := List.getElem?_eq_getElem _
    rw [List.filterMap_cons, ha]
    cases c with
    | zero => simp [ha]
    | succ c =>
      simp only [List.getElem?_cons_succ]
      exact ih (fun x hx => hlen x (List.mem_cons_of_mem _ hx)) c

theorem row_length {F : Type} {n k : Nat} (hk : k < n) (arrays : List (List F)) (hlen : ∀ a ∈ arrays, a.length = n) :
    (arrays.filterMap fun x => x[k]?).length = arrays.length := by
  induction arrays with
  | nil => rfl
  | cons a as ih =>
    have ha : a[k]? = some (a[k]'(by rw [hlen a List.mem_cons_self]; exact hk)) := List.getElem?_eq_getElem _
    rw [List.filterMap_cons, ha]
    simp only [List.length_cons]
    rw [ih fun x hx => hlen x (List.mem_cons_of_mem _ hx)]

theorem camera_fromarrays {F : Type} {n : Nat} (arrays : List (List F)) (hne : arrays ≠ [])
    (hlen : ∀ a ∈ arrays, a.length = n) (c : Nat) : camera (fromarrays arrays) c = (arrays[c]?).getD [] := by
  rw [fromarrays_eq arrays hne hlen]
  unfold camera
  rw [List.filterMap_map]
  have : ∀ k ∈ List.range n, ((fun fs : List F => fs[c]?) ∘ fun (k : Nat) => arrays.filterMap fun x => x[k]?) k =
      arrays[c]?.bind fun x => x[k]? := by
    intro k hk
    exact row_getElem? (List.mem_range.mp hk) arrays hlen c
  rw [List.filterMap_congr this]
  cases e : arrays[c]? with
  | none => simp
  | some a =>
    have ha : a.length = n := hlen a (List.mem_of_getElem? e)
    subst ha
    simp only [Option.bind_some, Option.getD_some]
    clear this e hlen
    induction a using List.reverseRecOn with
    | nil => rfl
    | append_singleton l x ih =>
      rw [List.length_append, List.length_singleton, List.range_succ, List.filterMap_append]
      congr 1
      · refine (List.filterMap_congr fun k hk => ?_).trans ih
        rw [List.getElem?_append_left (List.mem_range.mp hk)]
      · simp

end Cddm
