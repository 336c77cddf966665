import Verif.Lemmas.NormRound
import Verif.Lemmas.Ccorr

/-! # Lemmas: the sums that `ccorr` computes in rounded arithmetic -/

namespace Cddm
open Spec

section streams
variable {α β N : Type} [AddCommMonoid N]

theorem pairSum_subT (g : α → β → N) (f1 : List α) (f2 : List β) (t1 t2 : List Int) (c : Int) (k : Nat) :
    pairSum g (stream f1 (some (t1.map (· - c)))) (stream f2 (some (t2.map (· - c)))) k
      = pairSum g (stream f1 (some t1)) (stream f2 (some t2)) k := by
  have h1 := stream_subT f1 (some t1) c rfl
  have h2 := stream_subT f2 (some t2) c rfl
  simp only [subT, Option.map_some] at h1 h2
  rw [h1, h2, pairSum_shift]

theorem pairSum_otherFl (g : α → N) (f1 : List α) (f2 : List β) (t1 t2 : List Int) (c : Int) (h2 : t2.length = f2.length) (K k : Nat) :
    pairSum (fun a _ => g a) (stream f1 (some (t1.map (· - c)))) (otherStream K (some (t2.map (· - c)))) k
      = pairSum (fun a (_ : β) => g a) (stream f1 (some t1)) (stream f2 (some t2)) k := by
  have h : otherStream K (some (t2.map (· - c))) = mapStream (fun _ => ()) (stream f2 (some (t2.map (· - c)))) :=
    otherStream_eq' f2 (some (t2.map (· - c))) f2.length rfl (by rintro a ⟨⟩; simpa using h2)
  rw [h, ← pairSum_subT (c := c)]
  have e : stream f1 (some (t1.map (· - c))) = mapStream (fun a => a) (stream f1 (some (t1.map (· - c)))) := by simp [mapStream]
  conv_lhs => rw [e]
  exact pairSum_mapStream _ _ _ _ _ _

theorem pairSum_otherFl' (g : β → N) (f1 : List α) (f2 : List β) (t1 t2 : List Int) (c : Int) (h1 : t1.length = f1.length) (K k : Nat) :
    pairSum (fun a _ => g a) (stream f2 (some (t2.map (· - c)))) (otherStream K (some (t1.map (· - c)))) k
      = pairSum (fun (_ : α) b => g b) (stream f1 (some t1)) (stream f2 (some t2)) k := by
  rw [pairSum_otherFl g f2 f1 t2 t1 c h1, pairSum_swap]

theorem pairSum_exact {rnd : ℝ → ℝ} (G : Cx ℝ → Cx ℝ → N) (f1 f2 : List (Cx (Fl rnd))) (t1 t2 : Option (List Int)) (L k : Nat) :
    pairSum (fun a b => G (exact a) (exact b)) (stream f1 t1) (stream f2 t2) k
      = total G (pairsAt false (stream (f1.map exact) t1) (stream (f2.map exact) t2) L k) := by
  rw [← cellSum_total, cellSum, stream_map_fl, stream_map_fl]
  exact (pairSum_mapStream G exact exact _ _ k).symm

theorem stream_map_pairs {γ δ : Type} (e : γ → α) (e' : δ → β) (g : α → β → N) (f1 : List γ) (f2 : List δ) (t1 t2 : Option (List Int))
    (k : Nat) : pairSum g (stream (f1.map e) t1) (stream (f2.map e') t2) k
      = pairSum (fun a b => g (e a) (e' b)) (stream f1 t1) (stream f2 t2) k := by
  rw [stream_map_fl, stream_map_fl]
  exact pairSum_mapStream g e e' _ _ k

end streams

section run
variable {rnd : ℝ → ℝ} {u : ℝ}

/-- `abs2` of machine numbers, as a function of the numbers they stand for. -/
noncomputable def roundedSq (rnd : ℝ → ℝ) (x : Cx ℝ) : ℝ := rnd (rnd (x.re * x.re) + rnd (x.im * x.im))

theorem abs2Fl_val (x : Cx (Fl rnd)) : (abs2Fl x).val = roundedSq rnd (exact x) := rfl

theorem roundedSq_near (hr : Rounds rnd u) (x : Cx ℝ) : Near u 2 (roundedSq rnd x) x.abs2 x.abs2 := by
  refine Near.congr (Near.addTo hr (Near.mulTo hr (Near.refl x.re) (Near.refl x.re) (k := 1) (by omega))
    (Near.mulTo hr (Near.refl x.im) (Near.refl x.im) (k := 1) (by omega)) (by omega) (by omega)) rfl ?_
  rw [abs_mul_abs_self, abs_mul_abs_self]
  rfl

/-- `Near` for the triple of a value, the moduli and the number of terms. -/
def Tri (u : ℝ) (x : ℝ) (s : ℝ × ℝ × ℕ) : Prop := Near u s.2.2 x s.1 s.2.1

theorem flSum_steps (hr : Rounds rnd u) (b : Fl rnd) : Steps (fun (a : Fl rnd) s => Tri u a.val s) b (b.val, |b.val|, 1) := by
  intro a s h
  exact Near.addTo hr h (Near.refl b.val) (Nat.lt_succ_self _) (Nat.succ_pos _)

theorem flSumRe_steps (hr : Rounds rnd u) (b : Cx (Fl rnd)) :
    Steps (fun (a : Cx (Fl rnd)) (s : (ℝ × ℝ × ℕ) × (ℝ × ℝ × ℕ)) => Tri u a.re.val s.1 ∧ Tri u a.im.val s.2) b
      ((b.re.val, |b.re.val|, 1), (b.im.val, |b.im.val|, 1)) := by
  intro a s h
  exact ⟨Near.addTo hr h.1 (Near.refl b.re.val) (Nat.lt_succ_self _) (Nat.succ_pos _),
    Near.addTo hr h.2 (Near.refl b.im.val) (Nat.lt_succ_self _) (Nat.succ_pos _)⟩

theorem total_sq_le (hr : Rounds rnd u) (P : List (Cx ℝ × Cx ℝ)) :
    total (fun a b => |roundedSq rnd a| + |roundedSq rnd b|) P ≤ (1 + u) ^ 2 * total (fun a b => a.abs2 + b.abs2) P := by
  induction P with
  | nil => simp
  | cons p P ih =>
    simp only [total_cons]
    have h1 := (roundedSq_near hr p.1).abs_le
    have h2 := (roundedSq_near hr p.2).abs_le
    nlinarith

theorem total_one (P : List (Cx ℝ × Cx ℝ)) : total (fun _ _ => 1) P = P.length := total_count P

theorem total_add {α β : Type} (g g' : α → β → ℝ) (P : List (α × β)) : total (fun a b => g a b + g' a b) P = total g P + total g' P := by
  induction P with
  | nil => simp
  | cons p P ih => simp only [total_cons, ih]; ring

theorem fst_total {M N : Type} [AddCommMonoid N] (e : Cx (Fl rnd) → M) (g : M → N) (φ : Cx ℝ → N) (he : ∀ a, g (e a) = φ (exact a))
    (f1 f2 : List (Cx (Fl rnd))) (t1 t2 : List Int) (c : Int) (h2 : t2.length = f2.length) (K L k : Nat) :
    pairSum (fun a _ => g a) (stream (f1.map e) (some (t1.map (· - c)))) (otherStream K (some (t2.map (· - c)))) k
      = total (fun a _ => φ a) (pairsAt false (stream (f1.map exact) (some t1)) (stream (f2.map exact) (some t2)) L k) := by
  rw [pairSum_otherFl g (f1.map e) (f2.map e) t1 t2 c (by simpa using h2), stream_map_pairs, ← pairSum_exact]
  simp only [he]

theorem snd_total {M N : Type} [AddCommMonoid N] (e : Cx (Fl rnd) → M) (g : M → N) (φ : Cx ℝ → N) (he : ∀ a, g (e a) = φ (exact a))
    (f1 f2 : List (Cx (Fl rnd))) (t1 t2 : List Int) (c : Int) (h1 : t1.length = f1.length) (K L k : Nat) :
    pairSum (fun a _ => g a) (stream (f2.map e) (some (t2.map (· - c)))) (otherStream K (some (t1.map (· - c)))) k
      = total (fun _ b => φ b) (pairsAt false (stream (f1.map exact) (some t1)) (stream (f2.map exact) (some t2)) L k) := by
  rw [pairSum_otherFl' g (f1.map e) (f2.map e) t1 t2 c (by simpa using h1), stream_map_pairs, ← pairSum_exact]
  simp only [he]

/-- The sum of the moduli squared of both signals. -/
theorem sq_run (hr : Rounds rnd u) (f1 f2 : List (Cx (Fl rnd))) (t1 t2 : List Int) (c : Int) (n : Nat)
    (hv : ValidCross f1.length f2.length (some t1) (some t2)) :
    ∃ s1 s2, crossSumApi (f1.map abs2Fl) (some (t1.map (· - c))) (some (t2.map (· - c))) (some n) false false none = .ok s1
      ∧ crossSumApi (f2.map abs2Fl) (some (t2.map (· - c))) (some (t1.map (· - c))) (some n) false true (some s1) = .ok s2
      ∧ s2.length = n ∧ ∀ k < n,
        let P := pairsAt false (stream (f1.map exact) (some t1)) (stream (f2.map exact) (some t2)) n k
        Near u (2 * P.length + 2) (s2.getD k 0).val (total (fun a b => a.abs2 + b.abs2) P) (total (fun a b => a.abs2 + b.abs2) P) := by
  obtain ⟨hN, hl1, hl2, h0⟩ := hv
  have ht1 : t1 ≠ [] := by rintro rfl; simp at hl1; omega
  have ht2 : t2 ≠ [] := by rintro rfl; simp at hl2; omega
  obtain ⟨s1, e1, l1, n1⟩ := crossSumApi_tracks (Q := fun (a : Fl rnd) s => Tri u a.val s) (f1.map abs2Fl) (t1.map (· - c))
    (t2.map (· - c)) (some n) false none ⟨by simpa using hl1, by simpa using h0, by simpa using ht2⟩ (fun a => (a.val, |a.val|, 1))
    (fun a _ => flSum_steps hr a) (fun _ => (0, 0, 0)) (fun k => by simp [Tri, Near, start]; rfl)
  have l1' : s1.length = n := l1
  obtain ⟨s2, e2, l2, n2⟩ := crossSumApi_tracks (Q := fun (a : Fl rnd) s => Tri u a.val s) (f2.map abs2Fl) (t2.map (· - c))
    (t1.map (· - c)) (some n) true (some s1) ⟨by simpa using hl2, by rw [List.length_map]; omega, by simpa using ht1⟩
    (fun a => (a.val, |a.val|, 1)) (fun a _ => flSum_steps hr a)
    (fun k => if k < n then (0, 0, 0) + pairSum (fun (a : Fl rnd) _ => (a.val, |a.val|, 1)) (stream (f1.map abs2Fl) (some (t1.map (· - c))))
      (otherStream (f1.map abs2Fl).length (some (t2.map (· - c)))) k else (0, 0, 0)) (fun k => by
        by_cases hk : k < n
        · rw [if_pos hk]
          have := n1 k (by omega)
          simpa [start, List.getD_eq_getElem?_getD, List.getElem?_eq_getElem (show k < s1.length by omega)] using this
        · rw [if_neg hk]
          have : s1.getD k 0 = 0 := by
            rw [List.getD_eq_getElem?_getD, List.getElem?_eq_none (by omega)]; rfl
          simp only [start, this]
          simp [Tri, Near]; rfl)
  have l2' : s2.length = n := l2.trans l1'
  refine ⟨s1, s2, e1, e2, l2', fun k hk => ?_⟩
  intro P
  have h := n2 k (by omega)
  rw [if_pos hk, pairSum_prod, pairSum_prod, pairSum_prod, pairSum_prod] at h
  rw [fst_total abs2Fl (fun a => a.val) (roundedSq rnd) (fun _ => rfl) f1 f2 t1 t2 c hl2 _ n,
    fst_total abs2Fl (fun a => |a.val|) (fun x => |roundedSq rnd x|) (fun _ => rfl) f1 f2 t1 t2 c hl2 _ n,
    fst_total abs2Fl (fun _ => 1) (fun _ => 1) (fun _ => rfl) f1 f2 t1 t2 c hl2 _ n,
    snd_total abs2Fl (fun a => a.val) (roundedSq rnd) (fun _ => rfl) f1 f2 t1 t2 c hl1 _ n,
    snd_total abs2Fl (fun a => |a.val|) (fun x => |roundedSq rnd x|) (fun _ => rfl) f1 f2 t1 t2 c hl1 _ n,
    snd_total abs2Fl (fun _ => 1) (fun _ => 1) (fun _ => rfl) f1 f2 t1 t2 c hl1 _ n] at h
  rw [show s2.getD k 0 = s2[k] by rw [List.getD_eq_getElem?_getD, List.getElem?_eq_getElem (by omega)]; rfl]
  simp only [total_one, Prod.mk_add_mk, zero_add] at h
  have h' : Near u (2 * P.length) s2[k].val (total (fun a b => roundedSq rnd a + roundedSq rnd b) P)
      (total (fun a b => |roundedSq rnd a| + |roundedSq rnd b|) P) := by
    rw [total_add, total_add, two_mul]
    exact h
  exact Near.trans hr.1 h' (Near.sumTo P fun a b => (roundedSq_near hr a).add (roundedSq_near hr b)) (total_sq_le hr P)

/-- The sums of the first signal. -/
theorem fst_run (hr : Rounds rnd u) (f1 f2 : List (Cx (Fl rnd))) (t1 t2 : List Int) (c : Int) (n : Nat)
    (hv : ValidCross f1.length f2.length (some t1) (some t2)) :
    ∃ s, crossSumApi f1 (some (t1.map (· - c))) (some (t2.map (· - c))) (some n) false false none = .ok s ∧ ∀ k < n,
        let P := pairsAt false (stream (f1.map exact) (some t1)) (stream (f2.map exact) (some t2)) n k
        Near u P.length (s.getD k 0).re.val (total (fun a _ => a.re) P) (total (fun a _ => |a.re|) P)
          ∧ Near u P.length (s.getD k 0).im.val (total (fun a _ => a.im) P) (total (fun a _ => |a.im|) P) := by
  obtain ⟨hN, hl1, hl2, h0⟩ := hv
  have ht2 : t2 ≠ [] := by rintro rfl; simp at hl2; omega
  obtain ⟨s1, e1, l1, n1⟩ := crossSumApi_tracks
    (Q := fun (a : Cx (Fl rnd)) (s : (ℝ × ℝ × ℕ) × (ℝ × ℝ × ℕ)) => Tri u a.re.val s.1 ∧ Tri u a.im.val s.2)
    f1 (t1.map (· - c))
    (t2.map (· - c)) (some n) false none ⟨by simpa using hl1, by simpa using h0, by simpa using ht2⟩
    (fun b => ((b.re.val, |b.re.val|, 1), (b.im.val, |b.im.val|, 1)))
    (fun a _ => flSumRe_steps hr a) (fun _ => ((0, 0, 0), (0, 0, 0))) (fun k => by constructor <;> simp [Tri, Near, start] <;> rfl)
  refine ⟨s1, e1, fun k hk => ?_⟩
  intro P
  have l1' : s1.length = n := l1
  have h := n1 k (by omega)
  rw [pairSum_prod, pairSum_prod, pairSum_prod, pairSum_prod, pairSum_prod] at h
  have key := fun (g : Cx (Fl rnd) → ℝ) φ he => by
    have := fst_total id g φ he f1 f2 t1 t2 c hl2 f1.length n k
    rw [List.map_id] at this
    exact this
  have key1 := by
    have := fst_total (rnd := rnd) id (fun _ => 1) (fun _ => 1) (fun _ => rfl) f1 f2 t1 t2 c hl2 f1.length n k
    rw [List.map_id] at this
    exact this
  rw [key (fun a => a.re.val) (fun a => a.re) (fun _ => rfl), key (fun a => |a.re.val|) (fun a => |a.re|) (fun _ => rfl),
    key (fun a => a.im.val) (fun a => a.im) (fun _ => rfl), key (fun a => |a.im.val|) (fun a => |a.im|) (fun _ => rfl), key1] at h
  rw [show s1.getD k 0 = s1[k] by rw [List.getD_eq_getElem?_getD, List.getElem?_eq_getElem (by omega)]; rfl]
  simp only [total_one, Prod.mk_add_mk, zero_add] at h
  exact h

/-- The sums of the second signal. -/
theorem snd_run (hr : Rounds rnd u) (f1 f2 : List (Cx (Fl rnd))) (t1 t2 : List Int) (c : Int) (n : Nat)
    (hv : ValidCross f1.length f2.length (some t1) (some t2)) :
    ∃ s, crossSumApi f2 (some (t2.map (· - c))) (some (t1.map (· - c))) (some n) false true none = .ok s ∧ ∀ k < n,
        let P := pairsAt false (stream (f1.map exact) (some t1)) (stream (f2.map exact) (some t2)) n k
        Near u P.length (s.getD k 0).re.val (total (fun _ b => b.re) P) (total (fun _ b => |b.re|) P)
          ∧ Near u P.length (s.getD k 0).im.val (total (fun _ b => b.im) P) (total (fun _ b => |b.im|) P) := by
  obtain ⟨hN, hl1, hl2, h0⟩ := hv
  have ht1 : t1 ≠ [] := by rintro rfl; simp at hl1; omega
  obtain ⟨s1, e1, l1, n1⟩ := crossSumApi_tracks
    (Q := fun (a : Cx (Fl rnd)) (s : (ℝ × ℝ × ℕ) × (ℝ × ℝ × ℕ)) => Tri u a.re.val s.1 ∧ Tri u a.im.val s.2)
    f2 (t2.map (· - c))
    (t1.map (· - c)) (some n) true none ⟨by simpa using hl2, by omega, by simpa using ht1⟩
    (fun b => ((b.re.val, |b.re.val|, 1), (b.im.val, |b.im.val|, 1)))
    (fun a _ => flSumRe_steps hr a) (fun _ => ((0, 0, 0), (0, 0, 0))) (fun k => by constructor <;> simp [Tri, Near, start] <;> rfl)
  refine ⟨s1, e1, fun k hk => ?_⟩
  intro P
  have l1' : s1.length = n := l1
  have h := n1 k (by omega)
  rw [pairSum_prod, pairSum_prod, pairSum_prod, pairSum_prod, pairSum_prod] at h
  have key := fun (g : Cx (Fl rnd) → ℝ) φ he => by
    have := snd_total id g φ he f1 f2 t1 t2 c hl1 f2.length n k
    rw [List.map_id] at this
    exact this
  have key1 := by
    have := snd_total (rnd := rnd) id (fun _ => 1) (fun _ => 1) (fun _ => rfl) f1 f2 t1 t2 c hl1 f2.length n k
    rw [List.map_id] at this
    exact this
  rw [key (fun a => a.re.val) (fun a => a.re) (fun _ => rfl), key (fun a => |a.re.val|) (fun a => |a.re|) (fun _ => rfl),
    key (fun a => a.im.val) (fun a => a.im) (fun _ => rfl), key (fun a => |a.im.val|) (fun a => |a.im|) (fun _ => rfl), key1] at h
  rw [show s1.getD k 0 = s1[k] by rw [List.getD_eq_getElem?_getD, List.getElem?_eq_getElem (by omega)]; rfl]
  simp only [total_one, Prod.mk_add_mk, zero_add] at h
  exact h

/-- The products. -/
theorem cor_run (hr : Rounds rnd u) (f1 f2 : List (Cx (Fl rnd))) (t1 t2 : Option (List Int)) (c : Int) (n : Nat) (aligned : Bool)
    (hv : ValidCross f1.length f2.length t1 t2) (hfast : t1 = none → aligned = true → n ≤ f1.length + 1) :
    ∃ s, crossCorrelate f1 f2 (subT c t1) (subT c t2) (some n) aligned none = .ok s ∧ s.length = n ∧ ∀ k < n,
        let P := pairsAt false (stream (f1.map exact) t1) (stream (f2.map exact) t2) n k
        Near u (P.length + 2) (s.getD k 0).val (total reProd P) (total absProd P) := by
  obtain ⟨out, h1, h2, h3⟩ := crossCorrelate_tracks (Q := Cell u 2) f1 f2 (subT c t1) (subT c t2) (some n) aligned none (hv.subT c)
    (fun h => hfast (by cases t1 <;> simp_all [subT]))
    (fun a b => (reProd (exact a) (exact b), absProd (exact a) (exact b), one (exact a) (exact b)))
    (fun a _ b _ => Cell.steps hr (termRe_near hr a b))
    (fun a _ b _ => by
      rw [reProd_comm', absProd_comm]
      exact Cell.steps hr (termRe_near hr b a))
    (fun k => (0, 0, 0)) (fun k => by simp [Cell, Near, start]; rfl)
  have h2' : out.length = n := h2
  refine ⟨out, h1, h2', fun k hk => ?_⟩
  intro P
  have h := h3 k (by omega)
  have e : ∀ {N : Type} [AddCommMonoid N] (g : Cx (Fl rnd) → Cx (Fl rnd) → N),
      pairSum g (stream f1 (subT c t1)) (stream f2 (subT c t2)) k = pairSum g (stream f1 t1) (stream f2 t2) k := fun g =>
    cellSum_stream false g f1 f2 hv c n k
  rw [pairSum_prod, pairSum_prod, e, e, e, pairSum_exact _ _ _ _ _ n, pairSum_exact _ _ _ _ _ n, pairSum_exact _ _ _ _ _ n] at h
  rw [show out.getD k 0 = out[k] by rw [List.getD_eq_getElem?_getD, List.getElem?_eq_getElem (by omega)]; rfl]
  have e1 : total one P = P.length := total_one P
  simp only [Cell, Prod.mk_add_mk, zero_add] at h
  rw [← e1]
  exact h

end run

end Cddm
