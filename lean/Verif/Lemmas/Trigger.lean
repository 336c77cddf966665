import Verif.Model.Sim
import Verif.Spec.Trigger
import Mathlib.Tactic.Linarith
import Mathlib.Tactic.Ring

/-!
# Lemmas about trigger times
-/

namespace Cddm
open Spec

theorem randomTimeLoop_spec {n dtMin : Int} {rand : Nat → Int → Int → Int}
    (hrand : ∀ (i : Nat) (low high : Int), low < high → low ≤ rand i low high ∧ rand i low high < high)
    (k i : Nat) (r1 : Int) (t : List Int) (h : randomTimeLoop n dtMin rand k i r1 = .ok t) :
    t.length = k ∧
      (∀ (j : Nat) (v : Int), t[j]? = some v → ((i + j : Nat) : Int) * n ≤ v ∧ v < ((i + j : Nat) : Int) * n + n) ∧
      (∀ v, t[0]? = some v → (i : Int) * n + (dtMin - n + r1) ≤ v) ∧
      ∀ (j : Nat) (v w : Int), t[j]? = some v → t[j + 1]? = some w → v < w ∧ v + dtMin ≤ w := by
  induction k generalizing i r1 t with
  | zero =>
    simp only [randomTimeLoop, Except.ok.injEq] at h
    subst h
    simp
  | succ k ih =>
    unfold randomTimeLoop randint at h
    dsimp only at h
    by_cases hl : max 0 (dtMin - n + r1) < n
    · rw [if_pos hl] at h
      simp only [bind, Except.bind] at h
      have hr := hrand i (max 0 (dtMin - n + r1)) n hl
      generalize rand i (max 0 (dtMin - n + r1)) n = r at h hr
      cases e : randomTimeLoop n dtMin rand k (i + 1) r with
      | error _ => rw [e] at h; simp at h
      | ok rest =>
        rw [e] at h
        simp only [Except.ok.injEq] at h
        subst h
        obtain ⟨h1, h2, h3, h4⟩ := ih (i + 1) r rest e
        have r0 : 0 ≤ r := le_trans (le_max_left _ _) hr.1
        have r2 : dtMin - n + r1 ≤ r := le_trans (le_max_right _ _) hr.1
        refine ⟨by simp [h1], ?_, ?_, ?_⟩
        · intro j v hv
          cases j with
          | zero =>
            simp only [List.getElem?_cons_zero, Option.some.injEq] at hv
            subst hv
            simp only [Nat.add_zero]
            omega
          | succ j =>
            simp only [List.getElem?_cons_succ] at hv
            have := h2 j v hv
            rw [show i + (j + 1) = i + 1 + j by omega]
            exact this
        · intro v hv
          simp only [List.getElem?_cons_zero, Option.some.injEq] at hv
          omega
        · intro j v w hv hw
          cases j with
          | zero =>
            simp only [List.getElem?_cons_zero, List.getElem?_cons_succ, Option.some.injEq] at hv hw
            subst hv
            have a := h3 w hw
            have b := (h2 0 w hw).1
            push_cast at a b
            constructor <;> nlinarith
          | succ j =>
            simp only [List.getElem?_cons_succ] at hv hw
            exact h4 j v w hv hw
    · rw [if_neg hl] at h
      simp [bind, Except.bind] at h

theorem randomTimeLoop_ok {n dtMin : Int} {rand : Nat → Int → Int → Int} (hd : dtMin ≤ n)
    (hrand : ∀ (i : Nat) (low high : Int), low < high → low ≤ rand i low high ∧ rand i low high < high)
    (k i : Nat) (r1 : Int) (h0 : 0 ≤ r1) (hr : r1 < n) :
    ∃ t, randomTimeLoop n dtMin rand k i r1 = .ok t := by
  induction k generalizing i r1 with
  | zero => exact ⟨[], rfl⟩
  | succ k ih =>
    have hl : max 0 (dtMin - n + r1) < n := by omega
    have h := hrand i _ n hl
    obtain ⟨t, ht⟩ := ih (i + 1) (rand i (max 0 (dtMin - n + r1)) n) (le_trans (le_max_left _ _) h.1) h.2
    refine ⟨((i : Int) * n + rand i (max 0 (dtMin - n + r1)) n) :: t, ?_⟩
    unfold randomTimeLoop randint
    dsimp only
    rw [if_pos hl]
    simp only [bind, Except.bind, ht]

theorem pairwise_of_next {α : Type} (R : α → α → Prop) (htr : ∀ a b c, R a b → R b c → R a c) (l : List α)
    (h : ∀ (k : Nat) (v w : α), l[k]? = some v → l[k + 1]? = some w → R v w) : l.Pairwise R := by
  induction l with
  | nil => exact .nil
  | cons a l ih =>
    have ih := ih fun k v w hv hw => h (k + 1) v w hv hw
    refine List.pairwise_cons.mpr ⟨?_, ih⟩
    cases l with
    | nil => simp
    | cons b l =>
      have hab : R a b := h 0 a b rfl rfl
      intro c hc
      rcases List.mem_cons.mp hc with rfl | hc
      · exact hab
      · exact htr _ _ _ hab ((List.pairwise_cons.mp ih).1 c hc)

theorem triggerLoop_spec {α : Type} (ds : List α) (i : Nat) (ii : Int) (t : List Int) (hi : (i : Int) ≤ ii)
    (hs : (ii :: t).Pairwise (· < ·)) :
    triggerLoop ds i ii t = ((ds.zipIdx i).filter fun p => (p.2 : Int) ∈ ii :: t).map (·.1) := by
  induction ds generalizing i ii t with
  | nil => rfl
  | cons d ds ih =>
    obtain ⟨h1, h2⟩ := List.pairwise_cons.mp hs
    unfold triggerLoop
    rw [List.zipIdx_cons]
    by_cases c : (i : Int) = ii
    · rw [if_pos c, List.filter_cons_of_pos (by simp [c]), List.map_cons]
      cases t with
      | nil =>
        have : (ds.zipIdx (i + 1)).filter (fun p => (p.2 : Int) ∈ [ii]) = [] := by
          rw [List.filter_eq_nil_iff]
          rintro ⟨x, m⟩ hm
          have := (List.mem_zipIdx hm).1
          simp only [List.mem_singleton, decide_eq_true_eq]
          omega
        rw [this]
        rfl
      | cons ii' t =>
        dsimp only
        rw [ih (i + 1) ii' t (by have := h1 ii' List.mem_cons_self; push_cast; omega) h2]
        congr 2
        refine List.filter_congr fun p hp => ?_
        have := (List.mem_zipIdx (x := p.1) (i := p.2) hp).1
        simp only [List.mem_cons (a := (p.2 : Int)) (b := ii), decide_eq_decide]
        constructor
        · exact fun h => Or.inr h
        · rintro (h | h)
          · omega
          · exact h
    · rw [if_neg c, List.filter_cons_of_neg, ih (i + 1) ii t (by push_cast; omega) hs]
      simp only [List.mem_cons, decide_eq_true_eq, not_or]
      refine ⟨c, fun h => ?_⟩
      have := h1 _ h
      omega

theorem triggerLoop_negative {α : Type} (ds : List α) (i : Nat) (ii : Int) (t : List Int) (h : ii < 0) :
    triggerLoop ds i ii t = [] := by
  induction ds generalizing i with
  | nil => rfl
  | cons d ds ih =>
    unfold triggerLoop
    rw [if_neg (by omega)]
    exact ih _

theorem isNext_iff (i : Nat) (a : Int) (t : List Int) : isNext i (a :: t) = true ↔ a = i := by
  simp [isNext]

theorem isNext_false {i : Nat} {t : List Int} (h : ∀ a ∈ t, (i : Int) < a) : isNext i t = false := by
  cases t with
  | nil => rfl
  | cons a t =>
    have := h a List.mem_cons_self
    simp only [isNext, beq_eq_false_iff_ne, ne_eq]
    omega

theorem itemAt_none {α : Type} {data : List α} {t : Int} (h : (data.length : Int) ≤ t) : itemAt data t = none := by
  unfold itemAt
  rw [if_pos (by omega), List.getElem?_eq_none (by omega)]

theorem itemAt_nat {α : Type} {data : List α} {i : Nat} {d : α} {ds : List α} (h : data.drop i = d :: ds) :
    itemAt data i = some d := by
  unfold itemAt
  rw [if_pos (by omega)]
  have := congrArg (·[0]?) h
  simpa using this

theorem drop_next {α : Type} {data : List α} {i : Nat} {d : α} {ds : List α} (h : data.drop i = d :: ds) :
    data.drop (i + 1) = ds := by
  rw [← List.drop_drop, h]
  rfl

theorem framesAt_past {D F : Type} (f1 f2 : D → F) (data : List D) (times : List (Int × Int))
    (h : ∀ p ∈ times, (data.length : Int) ≤ p.1) : framesAt f1 f2 data times = [] := by
  unfold framesAt
  rw [List.filterMap_eq_nil_iff]
  intro p hp
  rw [itemAt_none (h p hp)]

theorem framesAt_cons {D F : Type} (f1 f2 : D → F) (data : List D) (a b : Int) (times : List (Int × Int)) :
    framesAt f1 f2 data ((a, b) :: times) =
      (match itemAt data a, itemAt data b with
        | some x, some y => [(f1 x, f2 y)]
        | _, _ => []) ++ framesAt f1 f2 data times := by
  unfold framesAt
  rw [List.filterMap_cons]
  dsimp only
  cases itemAt data a <;> cases itemAt data b <;> rfl

theorem dualLoop_step {D F : Type} (f1 f2 : D → F) (d : D) (ds : List D) (i : Nat) (t1 t2 : List Int)
    (o1 o2 : Option F) :
    dualLoop f1 f2 (d :: ds) i t1 t2 o1 o2 =
      match (if isNext i t1 then some (f1 d) else o1), (if isNext i t2 then some (f2 d) else o2) with
      | some a, some b => (a, b) :: dualLoop f1 f2 ds (i + 1) (if isNext i t1 then t1.tail else t1)
          (if isNext i t2 then t2.tail else t2) none none
      | p, q => dualLoop f1 f2 ds (i + 1) (if isNext i t1 then t1.tail else t1)
          (if isNext i t2 then t2.tail else t2) p q := by
  rw [dualLoop.eq_def]
  dsimp only
  generalize (if isNext i t1 then some (f1 d) else o1) = p
  generalize (if isNext i t2 then some (f2 d) else o2) = q
  cases p <;> cases q <;> rfl

theorem dualLoop_spec {D F : Type} (f1 f2 : D → F) (data : List D) (ds : List D) :
    ∀ (i : Nat), data.drop i = ds →
    (∀ (times : List (Int × Int)), times.Pairwise (fun p q => max p.1 p.2 < min q.1 q.2) →
      (∀ p ∈ times, (i : Int) ≤ min p.1 p.2) →
      dualLoop f1 f2 ds i (times.map (·.1)) (times.map (·.2)) none none = framesAt f1 f2 data times) ∧
    (∀ (times : List (Int × Int)) (b : Int) (x : F), times.Pairwise (fun p q => max p.1 p.2 < min q.1 q.2) →
      (i : Int) ≤ b → (∀ p ∈ times, b < min p.1 p.2) →
      dualLoop f1 f2 ds i (times.map (·.1)) (b :: times.map (·.2)) (some x) none =
        (((itemAt data b).map fun d => (x, f2 d)).toList ++ framesAt f1 f2 data times)) ∧
    (∀ (times : List (Int × Int)) (a : Int) (y : F), times.Pairwise (fun p q => max p.1 p.2 < min q.1 q.2) →
      (i : Int) ≤ a → (∀ p ∈ times, a < min p.1 p.2) →
      dualLoop f1 f2 ds i (a :: times.map (·.1)) (times.map (·.2)) none (some y) =
        (((itemAt data a).map fun d => (f1 d, y)).toList ++ framesAt f1 f2 data times)) := by
  induction ds with
  | nil =>
    intro i hd
    have hl : data.length ≤ i := by simpa using hd
    refine ⟨fun times hp hi => ?_, fun times b x hp hb hi => ?_, fun times a y hp ha hi => ?_⟩
    · rw [framesAt_past]
      · rfl
      · intro p hp
        have := hi p hp
        omega
    · rw [framesAt_past, itemAt_none (by omega)]
      · rfl
      · intro p hp
        have := hi p hp
        omega
    · rw [framesAt_past, itemAt_none (by omega)]
      · rfl
      · intro p hp
        have := hi p hp
        omega
  | cons d ds ih =>
    intro i hd
    obtain ⟨A, B, C⟩ := ih (i + 1) (drop_next hd)
    have hdi := itemAt_nat hd
    have later1 : ∀ (times : List (Int × Int)) (b : Int), (i : Int) ≤ b → (∀ p ∈ times, b < min p.1 p.2) →
        isNext i (times.map (·.1)) = false := by
      intro times b hb hi
      refine isNext_false fun a ha => ?_
      obtain ⟨p, hp, rfl⟩ := List.mem_map.mp ha
      have := hi p hp
      omega
    have later2 : ∀ (times : List (Int × Int)) (b : Int), (i : Int) ≤ b → (∀ p ∈ times, b < min p.1 p.2) →
        isNext i (times.map (·.2)) = false := by
      intro times b hb hi
      refine isNext_false fun a ha => ?_
      obtain ⟨p, hp, rfl⟩ := List.mem_map.mp ha
      have := hi p hp
      omega
    refine ⟨fun times hp hi => ?_, fun times b x hp hb hi => ?_, fun times a y hp ha hi => ?_⟩
    · cases times with
      | nil =>
        rw [dualLoop_step]
        exact A [] .nil (by simp)
      | cons q times =>
        obtain ⟨a, b⟩ := q
        obtain ⟨h1, h2⟩ := List.pairwise_cons.mp hp
        have hab := hi (a, b) List.mem_cons_self
        dsimp only at h1 hab
        rw [dualLoop_step, framesAt_cons, List.map_cons, List.map_cons]
        dsimp only
        by_cases ca : a = i
        · rw [if_pos ((isNext_iff i a _).mpr ca), if_pos ((isNext_iff i a _).mpr ca), List.tail_cons]
          by_cases cb : b = i
          · rw [if_pos ((isNext_iff i b _).mpr cb), if_pos ((isNext_iff i b _).mpr cb), List.tail_cons, ca, cb, hdi]
            dsimp only
            rw [A times h2 fun p hp => by have := h1 p hp; push_cast; omega]
            rfl
          · rw [if_neg (fun h => cb ((isNext_iff i b _).mp h)), if_neg (fun h => cb ((isNext_iff i b _).mp h)), ca, hdi]
            dsimp only
            rw [B times b (f1 d) h2 (by push_cast; omega) fun p hp => by have := h1 p hp; omega]
            congr 1
            cases itemAt data b <;> rfl
        · rw [if_neg (fun h => ca ((isNext_iff i a _).mp h)), if_neg (fun h => ca ((isNext_iff i a _).mp h))]
          by_cases cb : b = i
          · rw [if_pos ((isNext_iff i b _).mpr cb), if_pos ((isNext_iff i b _).mpr cb), List.tail_cons, cb, hdi]
            dsimp only
            rw [C times a (f2 d) h2 (by push_cast; omega) fun p hp => by have := h1 p hp; omega]
            congr 1
            cases itemAt data a <;> rfl
          · rw [if_neg (fun h => cb ((isNext_iff i b _).mp h)), if_neg (fun h => cb ((isNext_iff i b _).mp h))]
            dsimp only
            rw [← framesAt_cons, ← A ((a, b) :: times) hp fun p hp => by
              rcases List.mem_cons.mp hp with rfl | hp
              · push_cast; omega
              · have := h1 p hp; push_cast; omega]
            rfl
    · rw [dualLoop_step, later1 times b hb hi]
      simp only [Bool.false_eq_true, if_false]
      by_cases cb : b = i
      · rw [if_pos ((isNext_iff i b _).mpr cb), if_pos ((isNext_iff i b _).mpr cb), List.tail_cons, cb, hdi]
        dsimp only
        rw [A times hp fun p hp => by have := hi p hp; push_cast; omega]
        rfl
      · rw [if_neg (fun h => cb ((isNext_iff i b _).mp h)), if_neg (fun h => cb ((isNext_iff i b _).mp h))]
        dsimp only
        exact B times b x hp (by push_cast; omega) hi
    · rw [dualLoop_step, later2 times a ha hi]
      simp only [Bool.false_eq_true, if_false]
      by_cases ca : a = i
      · rw [if_pos ((isNext_iff i a _).mpr ca), if_pos ((isNext_iff i a _).mpr ca), List.tail_cons, ca, hdi]
        dsimp only
        rw [A times hp fun p hp => by have := hi p hp; push_cast; omega]
        rfl
      · rw [if_neg (fun h => ca ((isNext_iff i a _).mp h)), if_neg (fun h => ca ((isNext_iff i a _).mp h))]
        dsimp only
        exact C times a y hp (by push_cast; omega) hi

theorem singleLoop_spec {D F : Type} (f1 : D → F) (data : List D) (ds : List D) (i : Nat)
    (hd : data.drop i = ds) (t : List Int) (ht : t.Pairwise (· < ·)) (hi : ∀ a ∈ t, (i : Int) ≤ a) :
    singleLoop f1 ds i t = t.filterMap fun a => (itemAt data a).map f1 := by
  induction ds generalizing i t with
  | nil =>
    have hl : data.length ≤ i := by simpa using hd
    symm
    unfold singleLoop
    rw [List.filterMap_eq_nil_iff]
    intro a ha
    rw [itemAt_none (by have := hi a ha; omega)]
    rfl
  | cons d ds ih =>
    have hdi := itemAt_nat hd
    unfold singleLoop
    cases t with
    | nil => exact ih (i + 1) (drop_next hd) [] .nil (by simp)
    | cons a t =>
      obtain ⟨h1, h2⟩ := List.pairwise_cons.mp ht
      have ha := hi a List.mem_cons_self
      by_cases ca : a = i
      · rw [if_pos ((isNext_iff i a _).mpr ca), List.tail_cons, List.filterMap_cons, ca, hdi,
          ih (i + 1) (drop_next hd) t h2 fun b hb => by have := h1 b hb; push_cast; omega]
        rfl
      · rw [if_neg (fun h => ca ((isNext_iff i a _).mp h)), ih (i + 1) (drop_next hd) (a :: t) ht fun b hb => by
          rcases List.mem_cons.mp hb with rfl | hb
          · push_cast; omega
          · have := h1 b hb; push_cast; omega]

end Cddm
