import Verif.Lemmas.IterBuf
import Verif.Lemmas.MultiRow

/-!
# The main loop of the iterative multiple tau algorithm

First the buffers are eliminated: every half-chunk read from them is the half-chunk of the binned
signal (`enumLoop_sim`).  Then, if each operation adds its contribution to the arrays, the arrays
hold the sums of the contributions of the complete half-chunks (`enumLoop_sum`).
-/

namespace Cddm

/-- One round of the main loop without the buffers. -/
noncomputable def idealStep {C D : Type} (cfg : IterCfg)
    (op : Nat → Nat → CorrAout C → Py (CorrAout C)) (i : Nat) (_ : D) (s : IterAcc C) :
    Py (IterAcc C) :=
  if i % cfg.half = cfg.half - 1 then do
    let fast ← op 0 (i / cfg.half) s.fast
    let slow ← slowLevels op cfg.half i (cfg.nDecades - 1) 1 s.slow
    .ok ⟨fast, slow⟩
  else .ok s

theorem slowLevels_congr {C : Type} {op op' : Nat → Nat → CorrAout C → Py (CorrAout C)}
    {half i : Nat} :
    ∀ (k j : Nat) (slow : List (CorrAout C)),
      (∀ l row, j ≤ l → l < j + k → i % (half * 2 ^ l) = half * 2 ^ l - 1 →
        op l (i / (half * 2 ^ l)) row = op' l (i / (half * 2 ^ l)) row) →
      slowLevels op half i k j slow = slowLevels op' half i k j slow
  | 0, _, _, _ => rfl
  | k + 1, j, slow, h => by
    unfold slowLevels
    split
    · next hd =>
      split
      · rfl
      · next row e =>
        rw [h j row le_rfl (by omega) hd]
        cases op' j (i / (half * 2 ^ j)) row with
        | error e => rfl
        | ok row' =>
          simp only [bind, Except.bind]
          exact slowLevels_congr k (j + 1) _ fun l row h1 h2 => h l row (by omega) (by omega)
    · rfl

/-- Elimination of the buffers. -/
theorem enumLoop_sim {C B D : Type} (cfg : IterCfg) (feed : Nat → D → B → Py B)
    (op : B → Nat → Nat → CorrAout C → Py (CorrAout C))
    (op' : Nat → Nat → CorrAout C → Py (CorrAout C)) (Inv : Nat → B → Prop) (data : List D)
    (hhalf : 0 < cfg.half)
    (hfeed : ∀ (i : Nat) x b, i < cfg.nframes → data[i]? = some x → Inv i b →
      ∃ b', feed i x b = .ok b' ∧ Inv (i + 1) b')
    (hop : ∀ (i : Nat) b, i < cfg.nframes → Inv (i + 1) b → ∀ j q row, j < max cfg.nDecades 1 →
      i + 1 = (q + 1) * (cfg.half * 2 ^ j) → op b j q row = op' j q row) :
    ∀ (ds : List D) (i : Nat) (b : B) (acc : IterAcc C), ds = data.drop i → i ≤ cfg.nframes →
      Inv i b →
      (∀ e, enumLoop cfg.nframes (idealStep cfg op') i ds acc = .error e →
        enumLoop cfg.nframes (iterStep cfg feed op) i ds (b, acc) = .error e) ∧
      (∀ taken acc', enumLoop cfg.nframes (idealStep cfg op') i ds acc = .ok (taken, acc') →
        ∃ b', enumLoop cfg.nframes (iterStep cfg feed op) i ds (b, acc) = .ok (taken, b', acc') ∧
          Inv (min taken cfg.nframes) b')
  | [], i, b, acc, _, hi, hinv => by
    refine ⟨fun e h => by simp [enumLoop] at h, fun taken acc' h => ?_⟩
    simp only [enumLoop, Except.ok.injEq, Prod.mk.injEq] at h
    obtain ⟨rfl, rfl⟩ := h
    exact ⟨b, rfl, by rwa [min_eq_left hi]⟩
  | d :: ds, i, b, acc, hds, hi, hinv => by
    unfold enumLoop
    by_cases hend : i = cfg.nframes
    · rw [if_pos hend, if_pos hend]
      refine ⟨fun e h => by simp at h, fun taken acc' h => ?_⟩
      simp only [Except.ok.injEq, Prod.mk.injEq] at h
      obtain ⟨rfl, rfl⟩ := h
      refine ⟨b, rfl, ?_⟩
      rw [min_eq_right (by omega), ← hend]
      exact hinv
    · rw [if_neg hend, if_neg hend]
      have hlt : i < cfg.nframes := by omega
      have hd : data[i]? = some d := by
        have := congrArg (·[0]?) hds
        simpa using this.symm
      have hds' : ds = data.drop (i + 1) := by
        have := congrArg List.tail hds
        simpa [List.tail_drop] using this
      obtain ⟨b', e1, hinv'⟩ := hfeed i d b hlt hd hinv
      have hstep : iterStep cfg feed op i d (b, acc)
          = (idealStep cfg op' i d acc).bind fun a => .ok (b', a) := by
        unfold iterStep idealStep
        simp only [e1, bind, Except.bind]
        by_cases he : i % cfg.half = cfg.half - 1
        · rw [if_pos he, if_pos he]
          obtain ⟨h1, -⟩ := div_of_end hhalf he
          rw [hop i b' hlt hinv' 0 (i / cfg.half) acc.fast (by omega) (by simpa using h1)]
          cases op' 0 (i / cfg.half) acc.fast with
          | error e => rfl
          | ok fast =>
            simp only
            rw [slowLevels_congr (op' := op') (cfg.nDecades - 1) 1 acc.slow fun l row h1 h2 h3 =>
              hop i b' hlt hinv' l _ row (by omega)
                (div_of_end (Nat.mul_pos hhalf (Nat.two_pow_pos l)) h3).1]
            cases slowLevels op' cfg.half i (cfg.nDecades - 1) 1 acc.slow <;> rfl
        · rw [if_neg he, if_neg he]
      rw [hstep]
      cases idealStep cfg op' i d acc with
      | error e =>
        simp only [bind, Except.bind]
        exact ⟨fun e' h => by rw [Except.error.inj h], fun taken acc' h => by simp at h⟩
      | ok a =>
        simp only [bind, Except.bind]
        exact enumLoop_sim cfg feed op op' Inv data hhalf hfeed hop ds (i + 1) b' a hds' (by omega)
          hinv'

theorem map_range_set {α : Type} (n k : Nat) (f : Nat → α) (v : α) :
    ((List.range n).map f).set k v = (List.range n).map fun l => if l = k then v else f l := by
  apply List.ext_getElem?
  intro l
  rw [List.getElem?_set, List.getElem?_map, List.getElem?_map]
  by_cases hl : l < n
  · rw [List.getElem?_range hl]
    by_cases hk : k = l
    · subst hk; simp [hl]
    · simp [hk, Ne.symm hk]
  · rw [List.getElem?_eq_none (by simpa using hl)]
    split
    · simp; omega
    · rfl

/-- Sum of the contributions of the complete half-chunks of level `j` among `m` frames. -/
def levelSum {M : Type} [AddCommMonoid M] (nd half : Nat) (K : Nat → Nat → M) (m j : Nat) : M :=
  if j < nd then ∑ q ∈ Finset.range (m / (half * 2 ^ j)), K j q else 0

theorem slowLevels_sum {C M : Type} [AddCommMonoid M]
    {op : Nat → Nat → CorrAout C → Py (CorrAout C)} {half i nd nlevel nframes : Nat}
    (hhalf : 0 < half) (hi : i < nframes)
    (row : M → CorrAout C) (K : Nat → Nat → M) (hnl : nd ≤ nlevel + 1)
    (hop : ∀ j q d, 1 ≤ j → j < nd → (q + 1) * (half * 2 ^ j) ≤ nframes →
      op j q (row d) = .ok (row (d + K j q))) :
    ∀ (k j : Nat), 1 ≤ j → j + k = max nd 1 →
      slowLevels op half i k j ((List.range nlevel).map fun l =>
        row (levelSum nd half K (if l + 1 < j then i + 1 else i) (l + 1)))
      = .ok ((List.range nlevel).map fun l => row (levelSum nd half K (i + 1) (l + 1)))
  | 0, j, hj, hk => by
    unfold slowLevels
    congr 1
    apply List.map_congr_left
    intro l _
    by_cases hl : l + 1 < j
    · rw [if_pos hl]
    · rw [if_neg hl]
      unfold levelSum
      rw [if_neg (by omega), if_neg (by omega)]
  | k + 1, j, hj, hk => by
    have hjnd : j < nd := by omega
    have hpos : 0 < half * 2 ^ j := Nat.mul_pos hhalf (Nat.two_pow_pos j)
    unfold slowLevels
    by_cases hd : i % (half * 2 ^ j) = half * 2 ^ j - 1
    · rw [if_pos hd]
      obtain ⟨h1, h2⟩ := div_of_end hpos hd
      rw [List.getElem?_map, List.getElem?_range (by omega)]
      simp only [Option.map_some]
      rw [show j - 1 + 1 = j by omega, if_neg (lt_irrefl j),
        hop j _ _ hj hjnd (by rw [← h1]; omega)]
      simp only [bind, Except.bind]
      rw [map_range_set, ← slowLevels_sum hhalf hi row K hnl hop k (j + 1) (by omega) (by omega)]
      congr 1
      apply List.map_congr_left
      intro l _
      by_cases hl : l = j - 1
      · subst hl
        rw [if_pos rfl, if_pos (by omega), show j - 1 + 1 = j by omega]
        unfold levelSum
        rw [if_pos hjnd, if_pos hjnd, h2, Finset.sum_range_succ]
      · rw [if_neg hl]
        by_cases hl2 : l + 1 < j
        · rw [if_pos hl2, if_pos (by omega)]
        · rw [if_neg hl2, if_neg (by omega)]
    · rw [if_neg hd]
      congr 1
      apply List.map_congr_left
      intro l _
      by_cases hl : l + 1 < j
      · rw [if_pos hl]
      · rw [if_neg hl]
        unfold levelSum
        split
        · have : (i + 1) / (half * 2 ^ (l + 1)) = i / (half * 2 ^ (l + 1)) := by
            rw [Nat.succ_div, if_neg]
            · rfl
            · intro hdv
              apply hd
              have hdj : half * 2 ^ j ∣ i + 1 :=
                (Nat.mul_dvd_mul_left _ (Nat.pow_dvd_pow 2 (by omega))).trans hdv
              by_contra hne
              have := div_of_not_end hpos hne
              rw [Nat.succ_div, if_pos hdj] at this
              omega
          rw [this]
        · rfl

/-- The arrays after the main loop. -/
theorem enumLoop_sum {C D M : Type} [AddCommMonoid M] (cfg : IterCfg)
    (op : Nat → Nat → CorrAout C → Py (CorrAout C)) (rowF rowS : M → CorrAout C)
    (K : Nat → Nat → M) (hhalf : 0 < cfg.half) (hnl : cfg.nDecades ≤ cfg.nlevel + 1)
    (hop0 : ∀ q d, (q + 1) * cfg.half ≤ cfg.nframes → op 0 q (rowF d) = .ok (rowF (d + K 0 q)))
    (hop : ∀ j q d, 1 ≤ j → j < cfg.nDecades → (q + 1) * (cfg.half * 2 ^ j) ≤ cfg.nframes →
      op j q (rowS d) = .ok (rowS (d + K j q))) :
    ∀ (ds : List D) (i : Nat), i ≤ cfg.nframes →
      enumLoop cfg.nframes (idealStep cfg op) i ds
        ⟨rowF (∑ q ∈ Finset.range (i / cfg.half), K 0 q),
          (List.range cfg.nlevel).map fun l =>
            rowS (levelSum cfg.nDecades cfg.half K i (l + 1))⟩
      = .ok (min (i + ds.length) (cfg.nframes + 1),
        ⟨rowF (∑ q ∈ Finset.range (min (i + ds.length) cfg.nframes / cfg.half), K 0 q),
          (List.range cfg.nlevel).map fun l =>
            rowS (levelSum cfg.nDecades cfg.half K (min (i + ds.length) cfg.nframes) (l + 1))⟩)
  | [], i, hi => by
    simp only [List.length_nil, Nat.add_zero]
    rw [min_eq_left (by omega), min_eq_left hi]
    rfl
  | d :: ds, i, hi => by
    unfold enumLoop
    by_cases hend : i = cfg.nframes
    · rw [if_pos hend, List.length_cons, min_eq_right (by omega), min_eq_right (by omega), hend]
    · rw [if_neg hend]
      have hstep : idealStep cfg op i d
          ⟨rowF (∑ q ∈ Finset.range (i / cfg.half), K 0 q),
          (List.range cfg.nlevel).map fun l =>
            rowS (levelSum cfg.nDecades cfg.half K i (l + 1))⟩
          = .ok ⟨rowF (∑ q ∈ Finset.range ((i + 1) / cfg.half), K 0 q),
          (List.range cfg.nlevel).map fun l =>
            rowS (levelSum cfg.nDecades cfg.half K (i + 1) (l + 1))⟩ := by
        unfold idealStep
        by_cases he : i % cfg.half = cfg.half - 1
        · rw [if_pos he]
          obtain ⟨h1, h2⟩ := div_of_end hhalf he
          simp only [bind, Except.bind]
          rw [hop0 _ _ (by omega), h2, Finset.sum_range_succ]
          simp only
          have key := slowLevels_sum (op := op) (i := i) (nlevel := cfg.nlevel) hhalf
            (show i < cfg.nframes by omega) rowS K hnl hop
            (cfg.nDecades - 1) 1 le_rfl (by omega)
          have e0 : (fun l => rowS (levelSum cfg.nDecades cfg.half K
              (if l + 1 < 1 then i + 1 else i) (l + 1)))
              = fun l => rowS (levelSum cfg.nDecades cfg.half K i (l + 1)) := by
            funext l
            rw [if_neg (by omega)]
          rw [e0] at key
          rw [key]
        · rw [if_neg he, div_of_not_end hhalf he]
          congr 3
          funext l
          unfold levelSum
          split
          · rw [div_of_not_end (Nat.mul_pos hhalf (Nat.two_pow_pos _))]
            intro h3
            apply he
            have hp : 0 < cfg.half * 2 ^ (l + 1) := Nat.mul_pos hhalf (Nat.two_pow_pos _)
            have hdv : cfg.half ∣ i + 1 := by
              rw [(div_of_end hp h3).1]
              exact (Nat.dvd_mul_right _ _).trans (Nat.dvd_mul_left _ _)
            by_contra hne
            have := div_of_not_end hhalf hne
            rw [Nat.succ_div, if_pos hdv] at this
            omega
          · rfl
      simp only [hstep, bind, Except.bind]
      rw [enumLoop_sum cfg op rowF rowS K hhalf hnl hop0 hop ds (i + 1) (by omega),
        List.length_cons, show i + (ds.length + 1) = i + 1 + ds.length by omega]

end Cddm
