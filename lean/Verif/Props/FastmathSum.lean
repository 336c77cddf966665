import Verif.Props.Fastmath
import Verif.Props.RoundingSum

/-!
# C127: `fastmath`, sums

The sums of samples with time stamps that `cross_sum` computes for normalization.
-/

namespace Cddm
open Spec

/-- Proof device: a part of a cell that is an expression. -/
structure ExprPart {M : Type} [Zero M] [Add M] (p : M → Expr) : Prop where
  zero : p 0 = .val 0
  add : ∀ a b, p (a + b) = .add (p a) (p b)

section
variable {M : Type} [Zero M] [Add M] [Sub M] {rnd : ℝ → ℝ} {u : ℝ} {p : M → Expr} {S : Type} {q : S → ℝ} {sym : S → M}

theorem exprPart_steps (hp : ExprPart p) (hq : ∀ x, p (sym x) = .val (q x)) (x : S) :
    Steps (fun (a : M) s => ExprCell (p a) s) (sym x) (q x, |q x|, 1) := by
  intro a s h
  have h' := ExprCell.steps (v := p (sym x)) (w := q x) (W := |q x|) (m := 1) (by rw [hq]; rfl) (by rw [hq]; rfl) (by rw [hq]; simp [adds])
    (by rw [hq]; simp [mults]) _ _ h
  show ExprCell (p (a + sym x)) _
  rw [hp.add]
  exact h'

theorem start_part (hp : ExprPart p) (hq : ∀ x, p (sym x) = .val (q x)) (aout : Option (List S)) (k : Nat) :
    p (start (aout.map (List.map sym)) k) = .val (start (aout.map (List.map q)) k) := by
  cases aout with
  | none => exact hp.zero
  | some o =>
    show p ((o.map sym).getD k 0) = .val ((o.map q).getD k 0)
    simp only [List.getD_eq_getElem?_getD, List.getElem?_map]
    cases o[k]? with
    | none => exact hp.zero
    | some x => exact hq x

theorem start_partCell (hp : ExprPart p) (hq : ∀ x, p (sym x) = .val (q x)) (aout : Option (List S)) (k : Nat) :
    ExprCell (p (start (aout.map (List.map sym)) k))
      (start (aout.map (List.map q)) k, |start (aout.map (List.map q)) k|, 0) := by
  rw [start_part hp hq]
  exact ⟨rfl, rfl, le_rfl, by simp [mults]⟩

theorem outLen_mapped {T : Type} (h : S → T) (n : Option Nat) (aout : Option (List S)) (D : Nat) :
    outLen n (aout.map (List.map h)) D = outLen n aout D := by
  cases aout with
  | none => cases n <;> rfl
  | some o => simp [outLen]

theorem part_stamped (hr : Rounds rnd u) (hp : ExprPart p) (hq : ∀ x, p (sym x) = .val (q x)) (f : List S) (t1 t2 : List Int) (n : Option Nat)
    (inv : Bool) (aout : Option (List S)) (hv : ValidSum f.length (some t1) (some t2)) :
    ∃ out, crossSumApi (f.map sym) (some t1) (some t2) n false inv (aout.map (List.map sym)) = .ok out
      ∧ out.length = outLen n aout (defaultN f.length (some t1) (some t2))
      ∧ ∀ k (hk : k < out.length) e, Fast (p out[k]) e →
        |e.run rnd - (start (aout.map (List.map q)) k
            + pairSum (fun a _ => a) (stream (f.map q) (some t1)) (otherStream f.length (some t2)) k)|
          ≤ ((1 + u) ^ (pairSum oneFst (stream (f.map q) (some t1)) (otherStream f.length (some t2)) k + 1) - 1)
            * (|start (aout.map (List.map q)) k| + pairSum absFst (stream (f.map q) (some t1)) (otherStream f.length (some t2)) k) := by
  obtain ⟨out, h1, h2, h3⟩ := crossSumApi_tracks (Q := fun (a : M) s => ExprCell (p a) s) (f.map sym) t1 t2 n inv
    (aout.map (List.map sym)) (by simpa using hv) (fun a => (Exact (p a), Modulus (p a), 1))
    (fun a ha => by
      obtain ⟨x, -, rfl⟩ := List.mem_map.1 ha
      have := exprPart_steps hp hq x
      rw [hq]
      exact this)
    (fun k => (start (aout.map (List.map q)) k, |start (aout.map (List.map q)) k|, 0)) (start_partCell hp hq aout)
  rw [outLen_mapped, List.length_map] at h2
  refine ⟨out, h1, h2, fun k hk e he => ?_⟩
  have h := ExprCell.bound hr (h3 k hk) he
  rw [pairSum_prod, pairSum_prod] at h
  rw [List.length_map, otherStream_map] at h
  rw [otherStream_map]
  simp only [stream_map_fl, pairSum_mapStream, hq] at h ⊢
  simpa [oneFst, absFst, Exact, Modulus] using h

theorem part_signed (hr : Rounds rnd u) (hp : ExprPart p) (hq : ∀ x, p (sym x) = .val (q x)) (f : List S) (t1 t2 : List Int) (n : Nat)
    (hn : 1 ≤ n) (inv : Bool) (aout : Option (List S)) (haout : ∀ o, aout = some o → o.length = 2 * n - 1)
    (hv : ValidSum f.length (some t1) (some t2)) :
    ∃ out, crossSumApi (f.map sym) (some t1) (some t2) (some n) true inv (aout.map (List.map sym)) = .ok out ∧ out.length = 2 * n - 1
      ∧ ∀ d : Int, |d| < n → ∃ k z, pyIdx out.length d = some k ∧ pyGet out d = some z ∧ ∀ e, Fast (p z) e →
        |e.run rnd - (start (aout.map (List.map q)) k
            + pairSumAt (fun a _ => a) (stream (f.map q) (some t1)) (otherStream f.length (some t2)) (if inv then -d else d))|
          ≤ ((1 + u) ^ (pairSumAt oneFst (stream (f.map q) (some t1)) (otherStream f.length (some t2)) (if inv then -d else d) + 1) - 1)
            * (|start (aout.map (List.map q)) k|
              + pairSumAt absFst (stream (f.map q) (some t1)) (otherStream f.length (some t2)) (if inv then -d else d)) := by
  have hL : ∀ D, outLenFull (some n) (aout.map (List.map sym)) D = 2 * n - 1 := by
    intro D
    rcases aout with _ | o
    · rfl
    · simpa [outLenFull] using haout o rfl
  obtain ⟨out, h1, h2, h3⟩ := crossSumApi_tracks_full (Q := fun (a : M) s => ExprCell (p a) s) (f.map sym) t1 t2 (some n) inv
    (aout.map (List.map sym)) (by simpa using hv) (fun a => (Exact (p a), Modulus (p a), 1))
    (fun a ha => by
      obtain ⟨x, -, rfl⟩ := List.mem_map.1 ha
      have := exprPart_steps hp hq x
      rw [hq]
      exact this)
    (fun k => (start (aout.map (List.map q)) k, |start (aout.map (List.map q)) k|, 0)) (start_partCell hp hq aout) (by rw [hL]; omega)
  rw [hL] at h2
  refine ⟨out, h1, h2, fun d hd => ?_⟩
  obtain ⟨k, z, g1, g2, g3⟩ := cells_delays (out := out) (fun z k d => ExprCell (p z)
      ((start (aout.map (List.map q)) k, |start (aout.map (List.map q)) k|, 0)
        + pairSumAt (fun a (_ : Unit) => (Exact (p a), Modulus (p a), 1)) (stream (f.map sym) (some t1))
          (otherStream (f.map sym).length (some t2)) (if inv then -d else d))) (by omega) h3 d
    (by rw [h2, show (2 * n - 1 + 1) / 2 = n by omega]; exact hd)
  refine ⟨k, z, g1, g2, fun e he => ?_⟩
  have h := ExprCell.bound hr g3 he
  rw [pairSumAt_prod, pairSumAt_prod] at h
  rw [List.length_map, otherStream_map] at h
  rw [otherStream_map]
  simp only [stream_map_fl, pairSumAt_mapStream, hq] at h ⊢
  simpa [oneFst, absFst, Exact, Modulus] using h

end

section
variable {rnd : ℝ → ℝ} {u : ℝ}

theorem val_part : ExprPart (fun a : Expr => a) := ⟨rfl, fun _ _ => rfl⟩
theorem re_part : ExprPart (fun z : Cx Expr => z.re) := ⟨rfl, fun _ _ => rfl⟩
theorem im_part : ExprPart (fun z : Cx Expr => z.im) := ⟨rfl, fun _ _ => rfl⟩

/-- **C127.** `cross_sum` with time stamps, of real numbers (the squares of moduli), compiled with `fastmath`: entry `k` differs from the exact
sum over the pairs at time distance `k` by at most `(1+u)^(pairs+1) - 1` times the sum of the moduli. -/
theorem C127_cross_sum (hr : Rounds rnd u) (f : List ℝ) (t1 t2 : List Int) (n : Option Nat) (inv : Bool) (aout : Option (List ℝ))
    (hv : ValidSum f.length (some t1) (some t2)) :
    ∃ out, crossSumApi (f.map Expr.val) (some t1) (some t2) n false inv (aout.map (List.map Expr.val)) = .ok out
      ∧ out.length = outLen n aout (defaultN f.length (some t1) (some t2))
      ∧ ∀ k (hk : k < out.length) e, Fast out[k] e →
        |e.run rnd - (start aout k + pairSum (fun a _ => a) (stream f (some t1)) (otherStream f.length (some t2)) k)|
          ≤ ((1 + u) ^ (pairSum oneFst (stream f (some t1)) (otherStream f.length (some t2)) k + 1) - 1)
            * (|start aout k| + pairSum absFst (stream f (some t1)) (otherStream f.length (some t2)) k) := by
  have h := part_stamped (sym := Expr.val) (q := fun x : ℝ => x) hr val_part (fun _ => rfl) f t1 t2 n inv aout hv
  simpa using h

/-- **C127.** ... of complex numbers: the same for the real and the imaginary part. -/
theorem C127_cross_sum_complex (hr : Rounds rnd u) (f : List (Cx ℝ)) (t1 t2 : List Int) (n : Option Nat) (inv : Bool)
    (aout : Option (List (Cx ℝ))) (hv : ValidSum f.length (some t1) (some t2)) :
    ∃ out, crossSumApi (f.map symbol) (some t1) (some t2) n false inv (aout.map (List.map symbol)) = .ok out
      ∧ out.length = outLen n aout (defaultN f.length (some t1) (some t2))
      ∧ ∀ k (hk : k < out.length) e e', Fast out[k].re e → Fast out[k].im e' →
        |e.run rnd - (start (aout.map (List.map Cx.re)) k
            + pairSum (fun a _ => a) (stream (f.map Cx.re) (some t1)) (otherStream f.length (some t2)) k)|
          ≤ ((1 + u) ^ (pairSum oneFst (stream (f.map Cx.re) (some t1)) (otherStream f.length (some t2)) k + 1) - 1)
            * (|start (aout.map (List.map Cx.re)) k|
              + pairSum absFst (stream (f.map Cx.re) (some t1)) (otherStream f.length (some t2)) k)
        ∧ |e'.run rnd - (start (aout.map (List.map Cx.im)) k
            + pairSum (fun a _ => a) (stream (f.map Cx.im) (some t1)) (otherStream f.length (some t2)) k)|
          ≤ ((1 + u) ^ (pairSum oneFst (stream (f.map Cx.im) (some t1)) (otherStream f.length (some t2)) k + 1) - 1)
            * (|start (aout.map (List.map Cx.im)) k|
              + pairSum absFst (stream (f.map Cx.im) (some t1)) (otherStream f.length (some t2)) k) := by
  obtain ⟨out, h1, h2, h3⟩ := part_stamped (sym := symbol) (q := Cx.re) hr re_part (fun _ => rfl) f t1 t2 n inv aout hv
  obtain ⟨out', g1, g2, g3⟩ := part_stamped (sym := symbol) (q := Cx.im) hr im_part (fun _ => rfl) f t1 t2 n inv aout hv
  obtain rfl : out = out' := Except.ok.inj (h1.symm.trans g1)
  exact ⟨out, h1, h2, fun k hk e e' he he' => ⟨h3 k hk e he, g3 k hk e' he'⟩⟩

/-- **C127.** ... with signed delays (`complex = True`), with or without inversion of time. -/
theorem C127_cross_sum_signed (hr : Rounds rnd u) (f : List ℝ) (t1 t2 : List Int) (n : Nat) (hn : 1 ≤ n) (inv : Bool)
    (aout : Option (List ℝ)) (haout : ∀ o, aout = some o → o.length = 2 * n - 1) (hv : ValidSum f.length (some t1) (some t2)) :
    ∃ out, crossSumApi (f.map Expr.val) (some t1) (some t2) (some n) true inv (aout.map (List.map Expr.val)) = .ok out
      ∧ out.length = 2 * n - 1
      ∧ ∀ d : Int, |d| < n → ∃ k z, pyIdx out.length d = some k ∧ pyGet out d = some z ∧ ∀ e, Fast z e →
        |e.run rnd - (start aout k
            + pairSumAt (fun a _ => a) (stream f (some t1)) (otherStream f.length (some t2)) (if inv then -d else d))|
          ≤ ((1 + u) ^ (pairSumAt oneFst (stream f (some t1)) (otherStream f.length (some t2)) (if inv then -d else d) + 1) - 1)
            * (|start aout k| + pairSumAt absFst (stream f (some t1)) (otherStream f.length (some t2)) (if inv then -d else d)) := by
  have h := part_signed (sym := Expr.val) (q := fun x : ℝ => x) hr val_part (fun _ => rfl) f t1 t2 n hn inv aout haout hv
  simpa using h

/-- **C127.** ... with signed delays, of complex numbers. -/
theorem C127_cross_sum_complex_signed (hr : Rounds rnd u) (f : List (Cx ℝ)) (t1 t2 : List Int) (n : Nat) (hn : 1 ≤ n) (inv : Bool)
    (aout : Option (List (Cx ℝ))) (haout : ∀ o, aout = some o → o.length = 2 * n - 1) (hv : ValidSum f.length (some t1) (some t2)) :
    ∃ out, crossSumApi (f.map symbol) (some t1) (some t2) (some n) true inv (aout.map (List.map symbol)) = .ok out
      ∧ out.length = 2 * n - 1
      ∧ ∀ d : Int, |d| < n → ∃ k z, pyIdx out.length d = some k ∧ pyGet out d = some z ∧ ∀ e e', Fast z.re e → Fast z.im e' →
        |e.run rnd - (start (aout.map (List.map Cx.re)) k
            + pairSumAt (fun a _ => a) (stream (f.map Cx.re) (some t1)) (otherStream f.length (some t2)) (if inv then -d else d))|
          ≤ ((1 + u) ^ (pairSumAt oneFst (stream (f.map Cx.re) (some t1)) (otherStream f.length (some t2)) (if inv then -d else d) + 1) - 1)
            * (|start (aout.map (List.map Cx.re)) k|
              + pairSumAt absFst (stream (f.map Cx.re) (some t1)) (otherStream f.length (some t2)) (if inv then -d else d))
        ∧ |e'.run rnd - (start (aout.map (List.map Cx.im)) k
            + pairSumAt (fun a _ => a) (stream (f.map Cx.im) (some t1)) (otherStream f.length (some t2)) (if inv then -d else d))|
          ≤ ((1 + u) ^ (pairSumAt oneFst (stream (f.map Cx.im) (some t1)) (otherStream f.length (some t2)) (if inv then -d else d) + 1) - 1)
            * (|start (aout.map (List.map Cx.im)) k|
              + pairSumAt absFst (stream (f.map Cx.im) (some t1)) (otherStream f.length (some t2)) (if inv then -d else d)) := by
  obtain ⟨out, h1, h2, h3⟩ := part_signed (sym := symbol) (q := Cx.re) hr re_part (fun _ => rfl) f t1 t2 n hn inv aout haout hv
  obtain ⟨out', g1, g2, g3⟩ := part_signed (sym := symbol) (q := Cx.im) hr im_part (fun _ => rfl) f t1 t2 n hn inv aout haout hv
  obtain rfl : out = out' := Except.ok.inj (h1.symm.trans g1)
  refine ⟨out, h1, h2, fun d hd => ?_⟩
  obtain ⟨k, z, i1, i2, i3⟩ := h3 d hd
  obtain ⟨k', z', j1, j2, j3⟩ := g3 d hd
  obtain rfl : k = k' := Option.some.inj (i1.symm.trans j1)
  obtain rfl : z = z' := Option.some.inj (i2.symm.trans j2)
  exact ⟨k, z, i1, i2, fun e e' he he' => ⟨i3 e he, j3 e' he'⟩⟩

/-- Three frames of the first camera at times 0, 2, 3 and three of the second at 1, 2, 5, double precision, output accumulated on top of a given
array: the hypotheses hold. -/
example : ValidSum ([1/10, 2/10, -3/10] : List ℝ).length (some [0, 2, 3]) (some [1, 2, 5])
    ∧ ∀ o, (some [1/7, 0, 0] : Option (List ℝ)) = some o → o.length = 2 * 2 - 1 :=
  ⟨⟨rfl, by decide, by decide⟩, by rintro o ⟨⟩; rfl⟩

end
end Cddm
