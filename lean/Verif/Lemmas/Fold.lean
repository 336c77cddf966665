import Verif.Model.Fold
import Verif.Lemmas.Slice
import Mathlib.Tactic.LinearCombination
import Mathlib.Tactic.Linarith

/-!
# Lemmas for folding
-/

namespace Cddm

theorem Cx.modulus_nonneg (z : Cx ℝ) : 0 ≤ z.modulus := Real.sqrt_nonneg _

theorem Cx.modulus_mul_self (z : Cx ℝ) : z.modulus * z.modulus = z.re * z.re + z.im * z.im :=
  Real.mul_self_sqrt (by nlinarith [mul_self_nonneg z.re, mul_self_nonneg z.im])

theorem Cx.re_le_modulus (z : Cx ℝ) : z.re ≤ z.modulus ∧ -z.re ≤ z.modulus := by
  have h := z.modulus_mul_self
  have h0 := z.modulus_nonneg
  constructor <;> nlinarith [mul_self_nonneg z.im]

theorem Cx.sqrt_mul_self (z : Cx ℝ) : z.sqrt * z.sqrt = z := by
  obtain ⟨h1, h2⟩ := z.re_le_modulus
  have hm := z.modulus_mul_self
  have e1 : Real.sqrt ((z.modulus + z.re) / 2) * Real.sqrt ((z.modulus + z.re) / 2)
      = (z.modulus + z.re) / 2 := Real.mul_self_sqrt (by linarith)
  have e2 : Real.sqrt ((z.modulus - z.re) / 2) * Real.sqrt ((z.modulus - z.re) / 2)
      = (z.modulus - z.re) / 2 := Real.mul_self_sqrt (by linarith)
  have e3 : Real.sqrt ((z.modulus + z.re) / 2) * Real.sqrt ((z.modulus - z.re) / 2) = |z.im| / 2 := by
    rw [← Real.sqrt_mul (by linarith)]
    have : (z.modulus + z.re) / 2 * ((z.modulus - z.re) / 2) = (|z.im| / 2) ^ 2 := by
      rw [div_pow, sq_abs]; linear_combination (1 / 4) * hm
    rw [this, Real.sqrt_sq (by positivity)]
  apply Cx.ext
  · rw [Cx.mul_re]
    unfold Cx.sqrt
    dsimp only
    split <;> linear_combination e1 - e2
  · rw [Cx.mul_im]
    unfold Cx.sqrt
    dsimp only
    split
    · next h =>
      rw [abs_of_neg h] at e3
      linear_combination -2 * e3
    · next h =>
      rw [abs_of_nonneg (not_lt.mp h)] at e3
      linear_combination 2 * e3

/-- The two halves. -/
theorem halves {n : Nat} (hn : 1 ≤ n) (data : List (Cx ℝ)) (hd : data.length = 2 * n - 1) :
    (data.length + 1) / 2 = n ∧
    sliceUp data.length 1 ((n : Nat) : Int) = List.range' 1 (n - 1) ∧
    sliceDown data.length (-1) (-((n : Nat) : Int)) = (List.range (n - 1)).map fun i => data.length - 1 - i := by
  refine ⟨by omega, ?_, ?_⟩
  · have := sliceUp_nat data.length 1 n (by omega) (by omega)
    simpa using this
  · have := sliceDown_neg data.length 1 n (by omega) (by omega) (by omega)
    simpa using this

theorem pos_half {n : Nat} (data : List (Cx ℝ)) (hd : data.length = 2 * n - 1) :
    (takeIdx data (List.range' 1 (n - 1))).length = n - 1 ∧
      ∀ k, 1 ≤ k → k < n → (takeIdx data (List.range' 1 (n - 1)))[k - 1]? = data[k]? := by
  obtain ⟨h1, h2⟩ := takeIdx_eq data (List.range' 1 (n - 1)) (by
    intro i hi; rw [List.mem_range'_1] at hi; omega)
  refine ⟨by simpa using h1, fun k hk hk' => ?_⟩
  have := h2 (k - 1) (1 + (k - 1)) (getElem?_range' _ _ _ (by omega))
  rwa [show 1 + (k - 1) = k by omega] at this

theorem neg_half {n : Nat} (data : List (Cx ℝ)) (hd : data.length = 2 * n - 1) :
    (takeIdx data ((List.range (n - 1)).map fun i => data.length - 1 - i)).length = n - 1 ∧
      ∀ k, 1 ≤ k → k < n →
        (takeIdx data ((List.range (n - 1)).map fun i => data.length - 1 - i))[k - 1]?
          = data[2 * n - 1 - k]? := by
  obtain ⟨h1, h2⟩ := takeIdx_eq data ((List.range (n - 1)).map fun i => data.length - 1 - i) (by
    intro i hi
    obtain ⟨j, hj, rfl⟩ := List.mem_map.mp hi
    rw [List.mem_range] at hj; omega)
  refine ⟨by simpa using h1, fun k hk hk' => ?_⟩
  have := h2 (k - 1) (data.length - 1 - (k - 1)) (getElem?_down _ _ _ _ (by omega))
  rwa [show data.length - 1 - (k - 1) = 2 * n - 1 - k by omega] at this

/-- Writing both halves and the first cell. -/
theorem write_halves {n : Nat} (hn : 1 ≤ n) (data out P Q : List (Cx ℝ))
    (hd : data.length = 2 * n - 1) (ho : out.length = data.length) (hP : P.length = n - 1)
    (hQ : Q.length = n - 1) :
    ∃ r, ((do
        let out ← assignIdx out (List.range' 1 (n - 1)) P
        let out ← assignIdx out ((List.range (n - 1)).map fun i => data.length - 1 - i) Q
        setFirst out data) : Py (List (Cx ℝ))) = .ok r ∧ r.length = data.length ∧
      r[0]? = data[0]?.map (fun z => Cx.ofR z.modulus) ∧
      ∀ k, 1 ≤ k → k < n → r[k]? = P[k - 1]? ∧ r[2 * n - 1 - k]? = Q[k - 1]? := by
  obtain ⟨r1, e1, l1, f1, g1⟩ := assignIdx_eq out (List.range' 1 (n - 1)) P (by simp [hP])
    (List.nodup_range') (by intro i hi; rw [List.mem_range'_1] at hi; omega)
  obtain ⟨r2, e2, l2, f2, g2⟩ := assignIdx_eq r1
    ((List.range (n - 1)).map fun i => data.length - 1 - i) Q (by simp [hQ])
    (nodup_down _ _ _ (by omega)) (by
      intro i hi
      obtain ⟨j, hj, rfl⟩ := List.mem_map.mp hi
      rw [List.mem_range] at hj; omega)
  obtain ⟨d, l, rfl⟩ : ∃ d l, data = d :: l := by
    cases data with
    | nil => simp at hd; omega
    | cons d l => exact ⟨d, l, rfl⟩
  refine ⟨r2.set 0 (Cx.ofR d.modulus), ?_, by rw [List.length_set, l2, l1, ho], ?_, ?_⟩
  · simp only [e1, e2, bind, Except.bind, setFirst]
  · rw [List.getElem?_set_self (by omega)]; simp
  · intro k hk hk'
    rw [List.getElem?_set_ne (by omega), List.getElem?_set_ne (by omega)]
    constructor
    · rw [f2 k, g1 (k - 1) k]
      · rw [getElem?_range' _ _ _ (by omega)]; congr 1; omega
      · intro h
        obtain ⟨j, hj, hjk⟩ := List.mem_map.mp h
        rw [List.mem_range] at hj
        omega
    · apply g2 (k - 1)
      rw [getElem?_down _ _ _ _ (by omega)]
      congr 1
      omega

end Cddm
