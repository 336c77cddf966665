import Verif.Props.ViewerAvg
import Mathlib.Tactic.FinCases
import Mathlib.Data.Fintype.Prod

/-!
# The viewer shows the average over the selected wave vectors (C84): a case and a counterexample
-/

namespace Cddm
open Spec

/-- Wave vectors that point up lie in the sector of 180 degrees around 90 degrees. -/
theorem up_sector {ki kj q a : ℝ} (h : Polar ki kj q a) (hk : ki < 0) : InSector 360 90 180 a := by
  obtain ⟨h0, h1, h2, h3, h4⟩ := h
  refine Or.inl ⟨0, ?_, ?_⟩
  · unfold rad
    have : 0 < a := by
      by_contra hc
      have := Real.sin_nonpos_of_nonpos_of_neg_pi_le (not_lt.mp hc) h3
      nlinarith
    norm_num
    exact this
  · unfold rad
    norm_num
    linarith

theorem polar_norm {ki kj q a : ℝ} (h : Polar ki kj q a) : 0 ≤ q ∧ q ^ 2 = ki ^ 2 + kj ^ 2 := by
  obtain ⟨h0, h1, h2, _, _⟩ := h
  refine ⟨h0, ?_⟩
  have : ki ^ 2 + kj ^ 2 = (-ki) ^ 2 + kj ^ 2 := by ring
  rw [this, h1, h2]
  have := Real.sin_sq_add_cos_sq a
  nlinarith

theorem up_selected {h w i j k : Nat} {shape : Option (Nat × Nat)} {kstep : ℝ} (hi : i < h) (hj : j < w)
    (hne : ¬ (i = 0 ∧ j = 0)) (hk : fftfreqN h i * (freqStep shape).1 < 0)
    (hr : ∀ q : ℝ, 0 ≤ q → q ^ 2 = (fftfreqN h i * (freqStep shape).1) ^ 2 +
      (fftfreqN w j * (freqStep shape).2) ^ 2 → InRing kstep k q) :
    InSelection h w shape 90 180 kstep k i j := by
  have hp := kangle_polar (fftfreqN h i * (freqStep shape).1) (fftfreqN w j * (freqStep shape).2)
  obtain ⟨q1, q2⟩ := polar_norm hp
  exact Or.inr ⟨hne, _, _, _, _, fftfreqN_isFreq hi, fftfreqN_isFreq hj, hp, up_sector hp hk,
    hr _ q1 q2⟩

/-! ## A case: 3 x 3 data, the upper half plane, one value missing -/

/-- Values of the case. -/
noncomputable def caseF : Arr2 (Option ℝ) := ⟨3, 3, fun i j =>
  if (i = 0 ∧ j = 1) ∨ (i = 0 ∧ j = 2) then some 1
  else if (i = 1 ∧ j = 0) ∨ (i = 2 ∧ j = 0) then some 2
  else if (i = 2 ∧ j = 1) ∨ (i = 1 ∧ j = 2) then some 3
  else if (i = 2 ∧ j = 2) ∨ (i = 1 ∧ j = 1) then none
  else some 9⟩

/-- Selected wave vectors of the case. -/
def caseS : Finset (Nat × Nat) := {(0, 1), (2, 0), (2, 1), (2, 2)}

theorem caseF_hermitian : Hermitian (Option.map id) caseF := by
  intro i j hi hj
  have hi : i < 3 := hi
  have hj : j < 3 := hj
  show caseF.get (wrap 3 _) (wrap 3 _) = _
  interval_cases i <;> interval_cases j <;> simp [wrap, caseF]

theorem ring_one {q : ℝ} (h0 : 0 ≤ q) (h1 : q ^ 2 = 1 ∨ q ^ 2 = 2) : InRing 1 1 q := by
  unfold InRing
  rcases h1 with h | h <;> constructor <;> norm_num <;> nlinarith

theorem caseS_cells : ViewCells 3 3 none none 90 180 1 1 caseS := by
  have hpos : ∀ s : Nat × Nat, (none : Option (Nat × Nat)) = some s → 0 < s.1 ∧ 0 < s.2 := by
    intro s h; cases h
  have a1 : InSelection 3 3 none 90 180 1 1 2 0 :=
    up_selected (by norm_num) (by norm_num) (by norm_num) (by norm_num [fftfreqN, freqStep])
      (fun q h0 h => ring_one h0 (Or.inl (by rw [h]; norm_num [fftfreqN, freqStep])))
  have a2 : InSelection 3 3 none 90 180 1 1 2 1 :=
    up_selected (by norm_num) (by norm_num) (by norm_num) (by norm_num [fftfreqN, freqStep])
      (fun q h0 h => ring_one h0 (Or.inr (by rw [h]; norm_num [fftfreqN, freqStep])))
  have a3 : InSelection 3 3 none 90 180 1 1 2 2 :=
    up_selected (by norm_num) (by norm_num) (by norm_num) (by norm_num [fftfreqN, freqStep])
      (fun q h0 h => ring_one h0 (Or.inr (by rw [h]; norm_num [fftfreqN, freqStep])))
  have a4 : InSelection 3 3 none 90 180 1 1 0 1 := by
    refine Or.inr ⟨by norm_num, 0, 1, 1, 0, by norm_num [IsFreq], by norm_num [IsFreq], ?_, ?_, ?_⟩
    · refine ⟨by norm_num, by norm_num [freqStep], by norm_num, by linarith [Real.pi_pos],
        Real.pi_pos⟩
    · refine Or.inr (Or.inr ⟨?_, 0, ?_⟩)
      · unfold Crosses; norm_num
      · unfold rad; norm_num
    · exact ring_one (by norm_num) (Or.inl (by norm_num))
  have opp : ∀ i j : Nat, i < 3 → j < 3 → ¬ (i = 0 ∧ j = 0) → InSelection 3 3 none 90 180 1 1 i j →
      ¬ InSelection 3 3 none 90 180 1 1 (wrap 3 (-(i : Int))) (wrap 3 (-(j : Int))) :=
    fun i j hi hj h0 h1 h2 => selection_opposite hpos (by norm_num) (by norm_num) hi hj h0 (by omega)
      (by omega) h1 h2
  have n1 := opp 2 0 (by norm_num) (by norm_num) (by norm_num) a1
  have n2 := opp 2 1 (by norm_num) (by norm_num) (by norm_num) a2
  have n3 := opp 2 2 (by norm_num) (by norm_num) (by norm_num) a3
  have n4 := opp 0 1 (by norm_num) (by norm_num) (by norm_num) a4
  have n5 : ¬ InSelection 3 3 none 90 180 1 1 0 0 := by
    rintro (⟨_, _, h⟩ | ⟨h, _⟩)
    · cases h
    · exact h ⟨rfl, rfl⟩
  intro i j
  have hc : Computed 3 3 none i j := by intro c h; cases h
  constructor
  · intro h
    simp only [caseS, Finset.mem_insert, Finset.mem_singleton, Prod.mk.injEq] at h
    rcases h with ⟨rfl, rfl⟩ | ⟨rfl, rfl⟩ | ⟨rfl, rfl⟩ | ⟨rfl, rfl⟩
    · exact ⟨by norm_num, by norm_num, a4, hc⟩
    · exact ⟨by norm_num, by norm_num, a1, hc⟩
    · exact ⟨by norm_num, by norm_num, a2, hc⟩
    · exact ⟨by norm_num, by norm_num, a3, hc⟩
  · rintro ⟨hi, hj, h, -⟩
    interval_cases i <;> interval_cases j <;> first | decide | (exfalso; first | exact n1 h | exact n2 h | exact n3 h | exact n4 h | exact n5 h)

/-- The three values of four selected wave vectors that are numbers are averaged. -/
example : ∃ v : DataView ℝ,
    (DataView.new none none).run ([.data caseF, .select (fun _ _ => false) 0 0 5 1, .data caseF,
      .select (fun _ _ => true) 1 90 180 1].map (ViewReq.op none false)) = .ok v ∧
    v.getAvg id = .ok (some 2) := by
  have hmean : meanOver caseS caseF.get = some 2 := by
    have : caseS.filter (fun p => (caseF.get p.1 p.2).isSome) = {(0, 1), (2, 0), (2, 1)} := by
      ext ⟨i, j⟩
      simp only [caseS, Finset.mem_filter, Finset.mem_insert, Finset.mem_singleton, Prod.mk.injEq]
      constructor
      · rintro ⟨⟨rfl, rfl⟩ | ⟨rfl, rfl⟩ | ⟨rfl, rfl⟩ | ⟨rfl, rfl⟩, h⟩ <;> simp [caseF] at h ⊢
      · rintro (⟨rfl, rfl⟩ | ⟨rfl, rfl⟩ | ⟨rfl, rfl⟩) <;> simp [caseF]
    unfold meanOver
    rw [this]
    simp [caseF]
    norm_num
  obtain ⟨v, h1, h2⟩ := C84_average_partial (shape := none) (computed := none) (flat := false) (h := 3)
    (w := 3) (by norm_num) (by norm_num) (Or.inr ⟨rfl, fun s h => by cases h⟩)
    (fun c h => by cases h) (fun h => by cases h) caseF ⟨rfl, rfl⟩
    [.select (fun _ _ => false) 0 0 5 1, .data caseF, .select (fun _ _ => true) 1 90 180 1]
    (by
      intro r hr
      simp only [List.mem_cons, List.not_mem_nil, or_false] at hr
      rcases hr with rfl | rfl | rfl
      · norm_num [ViewReq.Valid]
      · exact ⟨rfl, rfl⟩
      · norm_num [ViewReq.Valid])
    1 90 180 1 rfl id caseF_hermitian caseS caseS_cells (C84_odd rfl rfl _ _ _ _)
  refine ⟨v, h1, ?_⟩
  rw [h2]
  exact congrArg _ hmean

/-- The ring number 2 of 8 x 8 data holds no Nyquist wave vector. -/
example : NoNyquist 8 8 (some (8, 8)) 30 40 1 2 :=
  C84_ring (by rintro s ⟨⟩; norm_num) _ _ _ _ (by norm_num [freqStep]) (by norm_num [freqStep])
    (by norm_num) (by norm_num)

/-- The wave vectors of the case are there, so `set_mask` returns True. -/
example : ∃ (v v' : DataView ℝ), (DataView.new none none).run
      ([.data caseF].map (ViewReq.op none false)) = .ok v ∧
    v.setMask (fun _ _ => false) 1 90 180 1 = .ok (v', true) := by
  obtain ⟨v, v', b, h1, h2, h3⟩ := C84_set_mask (shape := none) (computed := none) (flat := false)
    (h := 3) (w := 3) (by norm_num) (by norm_num) (Or.inr ⟨rfl, fun s h => by cases h⟩)
    (fun c h => by cases h) (fun h => by cases h) caseF ⟨rfl, rfl⟩ [] (by simp) (fun _ _ => false)
    1 90 180 1 (by norm_num) (by norm_num) (by norm_num) (by norm_num) (by norm_num) caseS caseS_cells
  refine ⟨v, v', h1, ?_⟩
  rw [← h3.mpr ⟨(0, 1), by decide⟩]
  exact h2

/-- Mean wave number of the case: two wave vectors of length 1 and two of length `sqrt 2`. -/
example : ∃ v : DataView ℝ, (DataView.new none none).run
      ([.data caseF, .select (fun _ _ => true) 1 90 180 1].map (ViewReq.op none false)) = .ok v ∧
    v.getK = .ok (some ((1 + (1 + (Real.sqrt 2 + Real.sqrt 2))) / 4)) := by
  obtain ⟨v, h1, h2⟩ := C84_wave_number_partial (shape := none) (computed := none) (h := 3) (w := 3)
    (by norm_num) (by norm_num) (Or.inr ⟨rfl, fun s h => by cases h⟩) (fun c h => by cases h)
    caseF ⟨rfl, rfl⟩ [.select (fun _ _ => true) 1 90 180 1]
    (by
      intro r hr
      simp only [List.mem_cons, List.not_mem_nil, or_false] at hr
      subst hr
      norm_num [ViewReq.Valid])
    1 90 180 1 rfl caseS caseS_cells
    (fun i j => Real.sqrt ((fftfreqN 3 j * 1) ^ 2 + (fftfreqN 3 i * 1) ^ 2))
    (fun i j di dj hi hj f1 f2 => by rw [IsFreq.eq hi f1, IsFreq.eq hj f2]; rfl)
  refine ⟨v, h1, ?_⟩
  rw [h2]
  have hc : caseS.card = 4 := by decide
  rw [hc]
  simp [caseS, fftfreqN]
  norm_num

/-- All cells computed, only the computed ones stored: the mean wave number is not available. -/
example : ∃ v : DataView ℝ, (DataView.new none (some ⟨3, 2, fun _ _ => true⟩)).run
      ([.data caseF, .select (fun _ _ => true) 1 90 180 1].map
        (ViewReq.op (some ⟨3, 2, fun _ _ => true⟩) true)) = .ok v ∧
    v.getK = .error .indexError := by
  exact C84_wave_number_masked_refuted (shape := none) (h := 3) (w := 3)
    (by norm_num) (by norm_num) (Or.inr ⟨rfl, fun s h => by cases h⟩) ⟨3, 2, fun _ _ => true⟩ ⟨rfl, rfl⟩
    caseF ⟨rfl, rfl⟩ [.select (fun _ _ => true) 1 90 180 1]
    (by
      intro r hr
      simp only [List.mem_cons, List.not_mem_nil, or_false] at hr
      subst hr
      norm_num [ViewReq.Valid])
    1 90 180 1 rfl (by decide)

/-- Data of another size in the same viewer. -/
example : ∃ v : DataView ℝ, (DataView.new none none).run
      ([.data caseF, .select (fun _ _ => true) 1 90 180 1, .data ⟨5, 5, fun _ _ => some 1⟩,
        .select (fun _ _ => true) 1 90 180 1].map (ViewReq.op none false)) = .ok v ∧
    v.getAvg id = .error .indexError :=
  C84_other_size_refuted (shape := none) (h := 3) (w := 3)
    (by norm_num) (by norm_num) (Or.inr ⟨rfl, fun s h => by cases h⟩) caseF
    ⟨5, 5, fun _ _ => some 1⟩ ⟨rfl, rfl⟩ (Or.inl (by norm_num)) _ _ _ _ _ _ _ _ _ _ _ _ rfl rfl
    (by norm_num [ViewReq.Valid]) (by norm_num [ViewReq.Valid]) id

/-! ## Nyquist wave vectors -/

/-- Values of the counterexample. -/
noncomputable def nyquistF : Arr2 (Option ℝ) := ⟨2, 3, fun i j =>
  if i = 1 ∧ j = 0 then some 0 else if i = 1 then some 3 else some 7⟩

/-- Selected wave vectors of the counterexample. -/
def nyquistS : Finset (Nat × Nat) := {(1, 0), (1, 1), (1, 2)}

theorem nyquistS_cells : ViewCells 2 3 (some (2, 3)) none 90 180 2 1 nyquistS := by
  have ring_two : ∀ q : ℝ, 0 ≤ q → (q ^ 2 = 9 / 4 ∨ q ^ 2 = 13 / 4) → InRing 2 1 q := by
    intro q h0 h1
    unfold InRing
    rcases h1 with h | h <;> constructor <;> norm_num <;> nlinarith
  have a1 : InSelection 2 3 (some (2, 3)) 90 180 2 1 1 0 :=
    up_selected (by norm_num) (by norm_num) (by norm_num) (by norm_num [fftfreqN, freqStep])
      (fun q h0 h => ring_two q h0 (Or.inl (by rw [h]; norm_num [fftfreqN, freqStep])))
  have a2 : InSelection 2 3 (some (2, 3)) 90 180 2 1 1 1 :=
    up_selected (by norm_num) (by norm_num) (by norm_num) (by norm_num [fftfreqN, freqStep])
      (fun q h0 h => ring_two q h0 (Or.inr (by rw [h]; norm_num [fftfreqN, freqStep])))
  have a3 : InSelection 2 3 (some (2, 3)) 90 180 2 1 1 2 :=
    up_selected (by norm_num) (by norm_num) (by norm_num) (by norm_num [fftfreqN, freqStep])
      (fun q h0 h => ring_two q h0 (Or.inr (by rw [h]; norm_num [fftfreqN, freqStep])))
  have no : ∀ j : Nat, j < 3 → ¬ InSelection 2 3 (some (2, 3)) 90 180 2 1 0 j := by
    rintro j hj (⟨_, _, h⟩ | ⟨_, di, dj, q, a, f1, f2, hp, _, ⟨hr, _⟩⟩)
    · cases h
    · obtain ⟨q0, q2⟩ := polar_norm hp
      have e1 := IsFreq.eq (by norm_num) f1
      have e2 := IsFreq.eq hj f2
      have : q ^ 2 ≤ 1 := by
        rw [q2, e1, e2]
        interval_cases j <;> norm_num [fftfreqN, freqStep]
      norm_num at hr
      nlinarith
  intro i j
  have hc : Computed 2 3 none i j := by intro c h; cases h
  constructor
  · intro h
    simp only [nyquistS, Finset.mem_insert, Finset.mem_singleton, Prod.mk.injEq] at h
    rcases h with ⟨rfl, rfl⟩ | ⟨rfl, rfl⟩ | ⟨rfl, rfl⟩
    · exact ⟨by norm_num, by norm_num, a1, hc⟩
    · exact ⟨by norm_num, by norm_num, a2, hc⟩
    · exact ⟨by norm_num, by norm_num, a3, hc⟩
  · rintro ⟨hi, hj, h, -⟩
    interval_cases i
    · exact absurd h (no j hj)
    · interval_cases j <;> decide

/-- C84 is false of selections with Nyquist wave vectors.  Of a 2 x 3 image, the wave vectors that point
up are selected: the two outer ones are in the sector, but their opposite ones share one cell of the half
space, so one value counts once instead of twice and 3/2 is shown instead of 2. -/
theorem C84_nyquist_refuted :
    ViewCells 2 3 (some (2, 3)) none 90 180 2 1 nyquistS ∧ Hermitian (Option.map id) nyquistF ∧
    meanOver nyquistS nyquistF.get = some 2 ∧
    ∃ v : DataView ℝ,
      (DataView.new (some (2, 3)) none).run
        ([.data nyquistF, .select (fun _ _ => false) 1 90 180 2].map (ViewReq.op none false)) = .ok v ∧
      v.getAvg id = .ok (some (3 / 2)) := by
  refine ⟨nyquistS_cells, ?_, ?_, ?_⟩
  · intro i j hi hj
    have hi : i < 2 := hi
    have hj : j < 3 := hj
    show nyquistF.get (wrap 2 _) (wrap 3 _) = _
    interval_cases i <;> interval_cases j <;> simp [wrap, nyquistF]
  · have : nyquistS.filter (fun p => (nyquistF.get p.1 p.2).isSome) = nyquistS := by
      ext ⟨i, j⟩
      simp only [nyquistS, Finset.mem_filter, Finset.mem_insert, Finset.mem_singleton, Prod.mk.injEq]
      constructor
      · exact fun h => h.1
      · rintro (⟨rfl, rfl⟩ | ⟨rfl, rfl⟩ | ⟨rfl, rfl⟩) <;> simp [nyquistF]
    unfold meanOver
    rw [this]
    simp [nyquistF, nyquistS]
    norm_num
  · have hs : ShapeFits (some (2, 3)) 2 3 := Or.inl rfl
    have hcomp : ∀ c, (none : Option (Arr2 Bool)) = some c → c.h = 2 ∧ c.w = 3 / 2 + 1 := by
      intro c h; cases h
    have hflat : false = true → (none : Option (Arr2 Bool)) ≠ none := fun h => by cases h
    obtain ⟨v0, e0, i0⟩ := view_new (shape := some (2, 3)) hcomp hflat nyquistF ⟨rfl, rfl⟩
    obtain ⟨v, e, i⟩ := view_step (by norm_num) (by norm_num) hs hcomp hflat i0
      (.select (fun _ _ => false) 1 90 180 2) (by norm_num [ViewReq.Valid])
    refine ⟨v, ?_, ?_⟩
    · simp only [List.map_cons, List.map_nil, DataView.run, bind, Except.bind]
      rw [show (DataView.new (some (2, 3)) none : DataView ℝ).step
        (ViewReq.op none false (.data nyquistF)) = .ok v0 from e0]
      simp only [e]
    · obtain ⟨-, -, u, junk, M, ms, F0, u1, u2, u3, u4, f1, f2, M1, M2, M3, m1, m2⟩ :=
        i.masks_eq _ _ _ _ rfl
      obtain ⟨ms', e', H, C, H1, H2, H3, H4, C1, C2, D1, D2, -⟩ :=
        viewMasks_ok u junk M false F0 2 3 (by norm_num) (by norm_num) M1 M2
        (by rw [u1]; exact hs) (by rw [u2]; exact hcomp) (by rw [u2]; exact hflat) f1 f2
        (by rw [u2]; exact u4) u3
      rw [m1] at e'
      cases e'
      rw [u2] at D1 H3 H4
      have D1' := D1 nyquistF rfl rfl
      have sel : ∀ i j : Nat, i < 2 → j < 3 → (M.get i j = true ↔ (i, j) ∈ nyquistS) := by
        intro i j hi hj
        rw [M3 i j hi hj, nyquistS_cells i j]
        have hc : Computed 2 3 none i j := by intro c h; cases h
        exact ⟨fun h => ⟨hi, hj, h, hc⟩, fun h => h.2.2.1⟩
      have g00 : H.get 0 0 = false := by
        rw [← Bool.not_eq_true, H4 0 (by norm_num), sel 0 0 (by norm_num) (by norm_num)]
        simp [nyquistS]
      have g10 : H.get 1 0 = true := by
        rw [H4 1 (by norm_num), sel 1 0 (by norm_num) (by norm_num)]
        simp [nyquistS]
      have w0 : wrap 2 (-((0 : Nat) : Int)) = 0 := rfl
      have w1 : wrap 2 (-((1 : Nat) : Int)) = 1 := rfl
      have w2 : wrap 3 (-((1 : Nat) : Int)) = 2 := rfl
      have g01 : H.get 0 1 = false := by
        rw [← Bool.not_eq_true, H3 0 1 (by norm_num) (by norm_num) (by norm_num), w0, w2,
          sel 0 1 (by norm_num) (by norm_num), sel 0 2 (by norm_num) (by norm_num)]
        simp [nyquistS]
      have g11 : H.get 1 1 = true := by
        rw [H3 1 1 (by norm_num) (by norm_num) (by norm_num), sel 1 1 (by norm_num) (by norm_num)]
        simp [nyquistS]
      have hwt : whereTrue H = [(1, 0), (1, 1)] := by
        unfold whereTrue
        rw [H1, H2]
        have : (List.range 2 ×ˢ List.range (3 / 2 + 1)) = [(0, 0), (0, 1), (1, 0), (1, 1)] := rfl
        rw [this]
        simp [g00, g01, g10, g11]
      unfold DataView.getAvg
      have hd := i.data_eq
      simp only [lastData] at hd
      simp only [hd, m2, D1', D2, bind, Except.bind]
      rw [zip_map_map, hwt]
      simp [nyquistF, nanMean]
      norm_num

end Cddm
