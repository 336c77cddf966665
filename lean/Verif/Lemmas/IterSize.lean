import Verif.Model.MultitauIter
import Verif.Lemmas.Multitau

/-!
# The sizes the iterative algorithm computes
-/

namespace Cddm

/-- The relations between the sizes: `half * 2^k` frames are processed; the buffers hold the `k`
levels below the last complete pair of half-chunks, or, with an explicit number of levels, all of
them. -/
structure SizesOK (count half levelSize : Nat) (nlevel : Option Int) (nd nframes nl k : Nat) :
    Prop where
  frames : nframes = half * 2 ^ k
  le : nframes ≤ count
  lt : count < 2 * nframes
  enough : levelSize ≤ nframes / 2 ^ nl
  auto : nlevel = none → nd = k ∧ k ≤ nl ∧ nframes / 2 ^ (nl + 1) < levelSize
  explicit : ∀ l, nlevel = some l → nd = nl + 1 ∧ ∃ nl0 : Nat, levelSize ≤ nframes / 2 ^ nl0 ∧
    nframes / 2 ^ (nl0 + 1) < levelSize ∧ (nl : Int) = min l nl0

theorem div_pow_anti {n a b : Nat} (h : a ≤ b) : n / 2 ^ b ≤ n / 2 ^ a :=
  Nat.div_le_div_left (Nat.pow_le_pow_right (by norm_num) h) (Nat.two_pow_pos a)

/-- The loops that find the sizes. -/
theorem iterSizes_loops {count half levelSize : Nat} (hh : levelSize ≤ half) (hc : half ≤ count)
    (hl : 0 < levelSize) :
    ∃ k, whileUp (fun d => decide (count / (2 * half * 2 ^ d) > 0)) (count + 1) 0 = k ∧
      (if k = 0 then half else 2 ^ (k - 1) * (2 * half)) = half * 2 ^ k ∧
      half * 2 ^ k ≤ count ∧ count < 2 * (half * 2 ^ k) := by
  have key : ∀ d, half * 2 ^ (d + 1) = 2 * half * 2 ^ d := fun d => by ring
  obtain ⟨h1, h2⟩ := whileUp_spec (fun d => decide (count / (2 * half * 2 ^ d) > 0)) (count + 1)
    count (by omega) (by
      have h3 : count < 2 ^ count := Nat.lt_two_pow_self
      have h4 : 1 * 2 ^ count ≤ 2 * half * 2 ^ count := Nat.mul_le_mul_right _ (by omega)
      simp [Nat.div_eq_of_lt (show count < 2 * half * 2 ^ count by omega)])
  generalize whileUp (fun d => decide (count / (2 * half * 2 ^ d) > 0)) (count + 1) 0 = k at h1 h2
  refine ⟨k, rfl, ?_, ?_, ?_⟩
  · split
    · next h => subst h; simp
    · next h =>
      obtain ⟨p, rfl⟩ : ∃ p, k = p + 1 := ⟨k - 1, by omega⟩
      rw [Nat.add_sub_cancel]
      ring
  · by_cases h : k = 0
    · subst h; simpa using hc
    · obtain ⟨p, rfl⟩ : ∃ p, k = p + 1 := ⟨k - 1, by omega⟩
      have := h2 p (by omega)
      simp only [gt_iff_lt, decide_eq_true_eq, Nat.div_pos_iff] at this
      rw [key]
      exact this.2
  · simp only [gt_iff_lt, decide_eq_false_iff_not, not_lt, Nat.le_zero] at h1
    have hp : 0 < 2 * half * 2 ^ k := Nat.mul_pos (by omega) (Nat.two_pow_pos k)
    have := (Nat.div_eq_zero_iff_lt hp).mp h1
    rw [← mul_assoc]
    exact this

theorem iterSizes_max {nframes levelSize : Nat} (hl : 0 < levelSize) (hn : levelSize ≤ nframes) :
    ∃ nl, whileUp (fun d => decide (nframes / 2 ^ d ≥ levelSize)) (nframes + 1) 0 = nl + 1 ∧
      levelSize ≤ nframes / 2 ^ nl ∧ nframes / 2 ^ (nl + 1) < levelSize := by
  obtain ⟨h1, h2⟩ := whileUp_spec (fun d => decide (nframes / 2 ^ d ≥ levelSize)) (nframes + 1)
    nframes (by omega) (by
      rw [Nat.div_eq_of_lt Nat.lt_two_pow_self]
      simp; omega)
  generalize whileUp (fun d => decide (nframes / 2 ^ d ≥ levelSize)) (nframes + 1) 0 = w at h1 h2
  have hw0 : w ≠ 0 := by
    rintro rfl
    simp at h1; omega
  obtain ⟨nl, rfl⟩ : ∃ p, w = p + 1 := ⟨w - 1, by omega⟩
  refine ⟨nl, rfl, ?_, ?_⟩
  · simpa using h2 nl (by omega)
  · simpa using h1

theorem iterSizes_none {count half levelSize : Nat} (hh : levelSize ≤ half) (hc : half ≤ count)
    (hl : 0 < levelSize) :
    ∃ k nl, iterSizes count half levelSize none = .ok (k, half * 2 ^ k, nl) ∧
      SizesOK count half levelSize none k (half * 2 ^ k) nl k := by
  obtain ⟨k, e1, e2, e3, e4⟩ := iterSizes_loops hh hc hl
  have hfr : half ≤ half * 2 ^ k := Nat.le_mul_of_pos_right _ (Nat.two_pow_pos k)
  obtain ⟨nl, f1, f2, f3⟩ := iterSizes_max (nframes := half * 2 ^ k) hl (by omega)
  refine ⟨k, nl, ?_, ⟨rfl, e3, e4, f2, fun _ => ⟨rfl, ?_, f3⟩, by simp⟩⟩
  · unfold iterSizes
    rw [if_neg (by omega)]
    simp only [e1, e2, f1, Nat.add_sub_cancel]
  · by_contra hlt
    have := div_pow_anti (n := half * 2 ^ k) (show nl + 1 ≤ k by omega)
    rw [Nat.mul_div_cancel _ (Nat.two_pow_pos k)] at this
    omega

theorem iterSizes_some {count half levelSize : Nat} (hh : levelSize ≤ half) (hc : half ≤ count)
    (hl : 0 < levelSize) (l : Int) :
    (l < 0 ∧ iterSizes count half levelSize (some l) = .error .valueError) ∨
    (0 ≤ l ∧ ∃ k nl, iterSizes count half levelSize (some l) = .ok (nl + 1, half * 2 ^ k, nl) ∧
      SizesOK count half levelSize (some l) (nl + 1) (half * 2 ^ k) nl k) := by
  obtain ⟨k, e1, e2, e3, e4⟩ := iterSizes_loops hh hc hl
  have hfr : half ≤ half * 2 ^ k := Nat.le_mul_of_pos_right _ (Nat.two_pow_pos k)
  obtain ⟨nl0, f1, f2, f3⟩ := iterSizes_max (nframes := half * 2 ^ k) hl (by omega)
  have hu : iterSizes count half levelSize (some l) =
      if min (l + 1) ((nl0 + 1 : Nat) : Int) < 1 then .error .valueError
      else .ok ((min (l + 1) ((nl0 + 1 : Nat) : Int)).toNat, half * 2 ^ k,
        (min l (((nl0 + 1 : Nat) : Int) - 1)).toNat) := by
    unfold iterSizes
    rw [if_neg (by omega)]
    simp only [e1, e2, f1]
  rw [hu]
  by_cases h : l < 0
  · exact .inl ⟨h, by rw [if_pos (by omega)]⟩
  · refine .inr ⟨by omega, k, (min l nl0).toNat, ?_, ⟨rfl, e3, e4, ?_, by simp, ?_⟩⟩
    · rw [if_neg (by omega)]
      congr 2
      · omega
      · congr 1; omega
    · exact le_trans f2 (div_pow_anti (by omega))
    · intro l' e
      obtain rfl := Option.some.inj e
      exact ⟨rfl, nl0, f2, f3, by omega⟩

/-- All cases. -/
theorem iterSizes_ok {count half levelSize : Nat} {nlevel : Option Int} {nd nframes nl : Nat}
    (hh : levelSize ≤ half) (hc : half ≤ count)
    (h : iterSizes count half levelSize nlevel = .ok (nd, nframes, nl)) :
    0 < levelSize ∧ ∃ k, SizesOK count half levelSize nlevel nd nframes nl k := by
  have hl : 0 < levelSize := by
    by_contra h0
    obtain rfl : levelSize = 0 := by omega
    simp [iterSizes] at h
  refine ⟨hl, ?_⟩
  cases nlevel with
  | none =>
    obtain ⟨k, nl', e, hs⟩ := iterSizes_none hh hc hl
    rw [e] at h
    simp only [Except.ok.injEq, Prod.mk.injEq] at h
    obtain ⟨rfl, rfl, rfl⟩ := h
    exact ⟨_, hs⟩
  | some l =>
    rcases iterSizes_some hh hc hl l with ⟨_, e⟩ | ⟨_, k, nl', e, hs⟩
    · rw [e] at h; simp at h
    · rw [e] at h
      simp only [Except.ok.injEq, Prod.mk.injEq] at h
      obtain ⟨rfl, rfl, rfl⟩ := h
      exact ⟨_, hs⟩

/-! ### Default chunk size -/

theorem halveChunk_range (levelSize c : Nat) (h : levelSize ≤ c) :
    levelSize ≤ halveChunk levelSize c ∧ halveChunk levelSize c ≤ c := by
  induction c using Nat.strong_induction_on with
  | _ c ih =>
    unfold halveChunk
    split
    · next hc =>
      obtain ⟨h1, h2⟩ := ih (c / 2) (by omega) (by omega)
      exact ⟨h1, by omega⟩
    · exact ⟨h, le_refl _⟩

theorem defaultChunkSize_none {count levelSize : Nat} (h : levelSize ≤ count) :
    defaultChunkSize none count levelSize = .ok (halveChunk levelSize count) := by
  obtain ⟨h1, h2⟩ := halveChunk_range levelSize count h
  unfold defaultChunkSize
  rw [if_neg (by omega)]
  simp only [Option.getD_none]
  rw [if_neg (by omega), if_neg (by omega)]

theorem defaultChunkSize_some {count levelSize c : Nat} :
    defaultChunkSize (some c) count levelSize
      = if levelSize ≤ c ∧ c ≤ count then .ok c else .error .valueError := by
  unfold defaultChunkSize
  simp only [Option.getD_some]
  split_ifs <;> first | rfl | omega

theorem defaultChunkSize_ok {cs : Option Nat} {count levelSize half : Nat}
    (h : defaultChunkSize cs count levelSize = .ok half) : levelSize ≤ half ∧ half ≤ count := by
  unfold defaultChunkSize at h
  split at h
  · simp at h
  · dsimp only at h
    split at h
    · simp at h
    · split at h
      · simp at h
      · obtain rfl := Except.ok.inj h
        omega

end Cddm
