import Verif.Lemmas.RoundingApi
import Verif.Spec.Fastmath

/-! # Lemmas for C127 -/

namespace Cddm
open Spec

variable {rnd : ℝ → ℝ} {u : ℝ}

theorem Fast.keeps {e e' : Expr} (h : Fast e e') :
    Exact e' = Exact e ∧ Modulus e' = Modulus e ∧ adds e' ≤ adds e ∧ mults e' ≤ mults e := by
  induction h with
  | refl a => exact ⟨rfl, rfl, le_rfl, le_rfl⟩
  | trans _ _ h1 h2 => exact ⟨h2.1.trans h1.1, h2.2.1.trans h1.2.1, h2.2.2.1.trans h1.2.2.1, h2.2.2.2.trans h1.2.2.2⟩
  | congrAdd _ _ h1 h2 | congrSub _ _ h1 h2 | congrMul _ _ h1 h2 =>
    obtain ⟨a1, a2, a3, a4⟩ := h1
    obtain ⟨b1, b2, b3, b4⟩ := h2
    simp only [Exact, Modulus, adds, mults, a1, a2, b1, b2, true_and]
    omega
  | congrNeg _ h1 =>
    obtain ⟨a1, a2, a3, a4⟩ := h1
    simp only [Exact, Modulus, adds, mults, a1, a2, true_and]
    omega
  | congrFma _ _ _ h1 h2 h3 =>
    obtain ⟨a1, a2, a3, a4⟩ := h1
    obtain ⟨b1, b2, b3, b4⟩ := h2
    obtain ⟨c1, c2, c3, c4⟩ := h3
    simp only [Exact, Modulus, adds, mults, a1, a2, b1, b2, c1, c2, true_and]
    omega
  | zeroAdd a =>
    simp only [Exact, Modulus, adds, mults, abs_zero, zero_add, true_and]
    omega
  | _ =>
    simp only [Exact, Modulus, adds, mults]
    refine ⟨?_, ?_, ?_, ?_⟩ <;> first | trivial | omega | ring1

theorem run_near (hr : Rounds rnd u) (e : Expr) : Near u (adds e + mults e) (e.run rnd) (Exact e) (Modulus e) := by
  induction e with
  | val x => exact Near.refl x
  | add a b ha hb =>
    refine Near.mono hr.1 (Near.round hr (Near.add (Near.mono hr.1 ha (m' := max (adds a + mults a) (adds b + mults b)) (by omega))
      (Near.mono hr.1 hb (by omega)))) ?_
    simp only [adds, mults]
    omega
  | sub a b ha hb =>
    refine Near.mono hr.1 (Near.round hr (Near.sub (Near.mono hr.1 ha (m' := max (adds a + mults a) (adds b + mults b)) (by omega))
      (Near.mono hr.1 hb (by omega)))) ?_
    simp only [adds, mults]
    omega
  | mul a b ha hb =>
    refine Near.mono hr.1 (Near.round hr (Near.mul hr.1 ha hb)) ?_
    simp only [adds, mults]
    omega
  | neg a ha => exact ha.neg
  | fma a b c ha hb hc =>
    refine Near.mono hr.1 (Near.round hr (Near.add (Near.mono hr.1 (Near.mul hr.1 ha hb)
      (m' := max (adds a + mults a + (adds b + mults b)) (adds c + mults c)) (by omega)) (Near.mono hr.1 hc (by omega)))) ?_
    simp only [adds, mults]
    omega

/-- Proof device: exact value, moduli and additions of a cell. -/
def ExprCell (e : Expr) (s : ℝ × ℝ × ℕ) : Prop := Exact e = s.1 ∧ Modulus e = s.2.1 ∧ adds e ≤ s.2.2 ∧ mults e ≤ 1

theorem ExprCell.steps {v : Expr} {w W : ℝ} {m : Nat} (h1 : Exact v = w) (h2 : Modulus v = W) (h3 : adds v + 1 ≤ m) (h4 : mults v ≤ 1) :
    Steps ExprCell v (w, W, m) := by
  rintro a s ⟨a1, a2, a3, a4⟩
  refine ⟨?_, ?_, ?_, ?_⟩
  · show Exact a + Exact v = s.1 + w
    rw [a1, h1]
  · show Modulus a + Modulus v = s.2.1 + W
    rw [a2, h2]
  · show adds a + adds v + 1 ≤ s.2.2 + m
    omega
  · show max (mults a) (mults v) ≤ 1
    omega

theorem ExprCell.bound (hr : Rounds rnd u) {e e' : Expr} {s : ℝ × ℝ × ℕ} (h : ExprCell e s) (hf : Fast e e') :
    |e'.run rnd - s.1| ≤ ((1 + u) ^ (s.2.2 + 1) - 1) * s.2.1 := by
  obtain ⟨h1, h2, h3, h4⟩ := h
  obtain ⟨f1, f2, f3, f4⟩ := hf.keeps
  have := ((run_near hr e').mono hr.1 (m' := s.2.2 + 1) (by omega)).2
  rw [f1, f2, h1, h2] at this
  exact this

theorem start_vals (aout : Option (List ℝ)) (k : Nat) : start (aout.map (List.map Expr.val)) k = Expr.val (start aout k) := by
  cases aout with
  | none => rfl
  | some o =>
    show (o.map Expr.val).getD k (Expr.val 0) = Expr.val (o.getD k 0)
    simp only [List.getD_eq_getElem?_getD, List.getElem?_map]
    cases o[k]? <;> rfl

theorem outLen_vals (n : Option Nat) (aout : Option (List ℝ)) (D : Nat) : outLen n (aout.map (List.map Expr.val)) D = outLen n aout D := by
  cases aout with
  | none => cases n <;> rfl
  | some o => simp [outLen]

theorem termRe_symbol (a b : Cx ℝ) : Exact (termRe (symbol a) (symbol b)) = reProd a b ∧ Modulus (termRe (symbol a) (symbol b)) = absProd a b ∧
    adds (termRe (symbol a) (symbol b)) = 1 ∧ mults (termRe (symbol a) (symbol b)) = 1 := by
  refine ⟨?_, ?_, rfl, rfl⟩
  · show a.re * b.re + a.im * b.im = (a.conj * b).re
    simp [Cx.conj]
  · show |a.re| * |b.re| + |a.im| * |b.im| = absProd a b
    simp [absProd, abs_mul]

theorem termDiff_symbol (a b : Cx ℝ) : Exact (termDiff (symbol a) (symbol b)) = dist2 a b ∧
    Modulus (termDiff (symbol a) (symbol b)) = absDist a b ∧
    adds (termDiff (symbol a) (symbol b)) = 5 ∧ mults (termDiff (symbol a) (symbol b)) = 1 :=
  ⟨by
    show (b.re - a.re) * (b.re - a.re) + (b.im - a.im) * (b.im - a.im) = dist2 a b
    simp [dist2, Cx.abs2], rfl, rfl, rfl⟩

theorem conjMul_symbol (a b : Cx ℝ) :
    (Exact ((symbol a).conj * symbol b).re = (cxProd a b).re ∧ Modulus ((symbol a).conj * symbol b).re = absProd a b ∧
      adds ((symbol a).conj * symbol b).re = 1 ∧ mults ((symbol a).conj * symbol b).re = 1) ∧
    (Exact ((symbol a).conj * symbol b).im = (cxProd a b).im ∧ Modulus ((symbol a).conj * symbol b).im = absProdIm a b ∧
      adds ((symbol a).conj * symbol b).im = 1 ∧ mults ((symbol a).conj * symbol b).im = 1) := by
  refine ⟨⟨rfl, ?_, rfl, rfl⟩, ⟨rfl, ?_, rfl, rfl⟩⟩
  · show |a.re| * |b.re| + |a.im| * |b.im| = absProd a b
    simp [absProd, abs_mul]
  · show |a.re| * |b.im| + |a.im| * |b.re| = absProdIm a b
    simp [absProdIm, abs_mul]

theorem pairSum_times {α β : Type} (c : Nat) (s1 : Stream α) (s2 : Stream β) (k : Nat) (g : α → β → Nat) :
    pairSum (fun a b => c * g a b) s1 s2 k = c * pairSum g s1 s2 k := (pairSum_hom_fl (AddMonoidHom.mulLeft c) g s1 s2 k).symm

theorem pairSumAt_times {α β : Type} (c : Nat) (s1 : Stream α) (s2 : Stream β) (d : Int) (g : α → β → Nat) :
    pairSumAt (fun a b => c * g a b) s1 s2 d = c * pairSumAt g s1 s2 d := (pairSumAt_hom_fl (AddMonoidHom.mulLeft c) g s1 s2 d).symm

theorem selfSum_times {α : Type} (c : Nat) (s : Stream α) (k : Nat) (g : α → α → Nat) :
    selfSum (fun a b => c * g a b) s k = c * selfSum g s k := (selfSum_hom_fl (AddMonoidHom.mulLeft c) g s k).symm

theorem selfSumFwd_times {α : Type} (c : Nat) (s : Stream α) (k : Nat) (g : α → α → Nat) :
    selfSumFwd (fun a b => c * g a b) s k = c * selfSumFwd g s k := (selfSumFwd_hom_fl (AddMonoidHom.mulLeft c) g s k).symm

/-- Proof device: what a symbol stands for. -/
noncomputable def unsymbol (z : Cx Expr) : Cx ℝ := ⟨Exact z.re, Exact z.im⟩

theorem unsymbol_symbol (z : Cx ℝ) : unsymbol (symbol z) = z := rfl

theorem start_exprCell (aout : Option (List ℝ)) (k : Nat) :
    ExprCell (start (aout.map (List.map Expr.val)) k) (start aout k, |start aout k|, 0) := by
  rw [start_vals]
  exact ⟨rfl, rfl, le_rfl, by simp [mults]⟩

/-- Proof device: both parts of a cell. -/
def ExprCxCell (z : Cx Expr) (s : (ℝ × ℝ × ℕ) × (ℝ × ℝ × ℕ)) : Prop := ExprCell z.re s.1 ∧ ExprCell z.im s.2

theorem ExprCxCell.steps {v : Cx Expr} {w W w' W' : ℝ} {m m' : Nat} (h : Steps ExprCell v.re (w, W, m)) (h' : Steps ExprCell v.im (w', W', m')) :
    Steps ExprCxCell v ((w, W, m), (w', W', m')) := fun _ _ hs => ⟨h _ _ hs.1, h' _ _ hs.2⟩

theorem mulConj_symbol (a b : Cx ℝ) :
    (Exact (symbol b * (symbol a).conj).re = (cxProd a b).re ∧ Modulus (symbol b * (symbol a).conj).re = absProd a b ∧
      adds (symbol b * (symbol a).conj).re = 1 ∧ mults (symbol b * (symbol a).conj).re = 1) ∧
    (Exact (symbol b * (symbol a).conj).im = (cxProd a b).im ∧ Modulus (symbol b * (symbol a).conj).im = absProdIm a b ∧
      adds (symbol b * (symbol a).conj).im = 1 ∧ mults (symbol b * (symbol a).conj).im = 1) := by
  refine ⟨⟨?_, ?_, rfl, rfl⟩, ⟨?_, ?_, rfl, rfl⟩⟩
  · show b.re * a.re - b.im * -a.im = a.re * b.re - -a.im * b.im
    ring
  · show |b.re| * |a.re| + |b.im| * |a.im| = absProd a b
    simp [absProd, abs_mul, mul_comm]
  · show b.re * -a.im + b.im * a.re = a.re * b.im + -a.im * b.re
    ring
  · show |b.re| * |a.im| + |b.im| * |a.re| = absProdIm a b
    simp [absProdIm, abs_mul]
    ring

/-- The starting values of complex output: those of both parts, or zero. -/
theorem start_symbols (aout : Option (List (Cx ℝ))) (k : Nat) :
    start (aout.map (List.map symbol)) k = symbol (start aout k) := by
  cases aout with
  | none => rfl
  | some o =>
    show (o.map symbol).getD k (symbol 0) = symbol (o.getD k 0)
    simp only [List.getD_eq_getElem?_getD, List.getElem?_map]
    cases o[k]? <;> rfl

theorem outLen_symbols (n : Option Nat) (aout : Option (List (Cx ℝ))) (D : Nat) :
    outLen n (aout.map (List.map symbol)) D = outLen n aout D := by
  cases aout with
  | none => cases n <;> rfl
  | some o => simp [outLen]

theorem outLenFull_symbols (n : Option Nat) (aout : Option (List (Cx ℝ))) (D : Nat) :
    outLenFull n (aout.map (List.map symbol)) D = outLenFull n aout D := by
  cases aout with
  | none => cases n <;> rfl
  | some o => simp [outLenFull]

theorem start_exprCxCell (aout : Option (List (Cx ℝ))) (k : Nat) :
    ExprCxCell (start (aout.map (List.map symbol)) k) (((start aout k).re, |(start aout k).re|, 0), ((start aout k).im, |(start aout k).im|, 0)) := by
  rw [start_symbols]
  exact ⟨⟨rfl, rfl, le_rfl, by simp [mults, symbol]⟩, ⟨rfl, rfl, le_rfl, by simp [mults, symbol]⟩⟩

end Cddm
