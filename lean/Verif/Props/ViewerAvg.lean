import Verif.Lemmas.ViewerAvg
import Verif.Props.NormString
import Mathlib.Tactic.NormNum
import Mathlib.Tactic.IntervalCases

/-!
# The viewer shows the average over the selected wave vectors (C84)
-/

namespace Cddm
open Spec

variable {V : Type}

/-- What a user asks of the viewer: show other data, given by their full-space values; select the ring
`k` in a sector. -/
inductive ViewReq (V : Type)
  | data (F : Arr2 (Option V))
  | select (junk : Nat → Nat → Bool) (k : Nat) (angle sector kstep : ℝ)

/-- The call for a request. -/
def ViewReq.op (computed : Option (Arr2 Bool)) (flat : Bool) : ViewReq V → ViewOp V
  | .data F => .data (storedData computed flat F)
  | .select junk k angle sector kstep => .mask junk k angle sector kstep

/-- Valid requests: data of the same size, parameters in range. -/
def ViewReq.Valid (h w : Nat) : ViewReq V → Prop
  | .data F => F.h = h ∧ F.w = w
  | .select _ _ angle sector kstep =>
    -180 ≤ angle ∧ angle ≤ 180 ∧ 0 < sector ∧ sector ≤ 180 ∧ 0 < kstep

/-- The data after a sequence of requests. -/
def lastData (F : Arr2 (Option V)) : List (ViewReq V) → Arr2 (Option V)
  | [] => F
  | .data F' :: l => lastData F' l
  | .select .. :: l => lastData F l

/-- The selection after a sequence of requests. -/
def lastSelect (p : Option (Nat × ℝ × ℝ × ℝ)) : List (ViewReq V) → Option (Nat × ℝ × ℝ × ℝ)
  | [] => p
  | .data _ :: l => lastSelect p l
  | .select _ k angle sector kstep :: l => lastSelect (some (k, angle, sector, kstep)) l

/-- Invariant of the viewer. -/
structure ViewInv (shape : Option (Nat × Nat)) (computed : Option (Arr2 Bool)) (flat : Bool) (h w : Nat)
    (F : Arr2 (Option V)) (sel : Option (Nat × ℝ × ℝ × ℝ)) (v : DataView V) : Prop where
  shape_eq : v.shape = shape
  computed_eq : v.computed = computed
  size_eq : v.size = some (h, w / 2 + 1)
  data_eq : v.data = some (storedData computed flat F)
  size_F : F.h = h ∧ F.w = w
  maps_eq : ∀ m, v.maps = some m → fft2Kangle h (w : Int) shape = .ok m
  none_eq : sel = none → v.masks = none
  masks_eq : ∀ k angle sector kstep, sel = some (k, angle, sector, kstep) →
    (0 < sector ∧ sector ≤ 180) ∧
    (∃ m, v.maps = some m) ∧ ∃ (u : DataView V) (junk : Nat → Nat → Bool) (M : Arr2 Bool) (ms : ViewMasks)
      (F0 : Arr2 (Option V)),
      u.shape = shape ∧ u.computed = computed ∧ u.size = some (h, w / 2 + 1) ∧
      u.data = some (storedData computed flat F0) ∧ F0.h = h ∧ F0.w = w ∧
      M.h = h ∧ M.w = w ∧
      (∀ i j : Nat, i < h → j < w →
        (M.get i j = true ↔ InSelection h w shape angle sector kstep k i j)) ∧
      u.viewMasks junk M = .ok ms ∧ v.masks = some ms

section
variable {shape : Option (Nat × Nat)} {computed : Option (Arr2 Bool)} {flat : Bool} {h w : Nat}

theorem view_new (hcomp : ∀ c, computed = some c → c.h = h ∧ c.w = w / 2 + 1)
    (hflat : flat = true → computed ≠ none) (F : Arr2 (Option V)) (hF : F.h = h ∧ F.w = w) :
    ∃ v, (DataView.new shape computed : DataView V).setData (storedData computed flat F) = .ok v ∧
      ViewInv shape computed flat h w F none v := by
  cases computed with
  | none =>
    have hfl : flat = false := by
      cases flat
      · rfl
      · exact absurd rfl (hflat rfl)
    subst hfl
    refine ⟨_, rfl, rfl, rfl, ?_, rfl, hF, ?_, fun _ => rfl, ?_⟩
    · simp [hF.1, hF.2]
    · intro m hm; cases hm
    · intro _ _ _ _ hm; cases hm
  | some c =>
    refine ⟨_, rfl, rfl, rfl, ?_, rfl, hF, ?_, fun _ => rfl, ?_⟩
    · obtain ⟨a, b⟩ := hcomp c rfl
      simp [DataView.new, a, b]
    · intro m hm; cases hm
    · intro _ _ _ _ hm; cases hm

theorem view_step (hh : 1 ≤ h) (hw : 1 ≤ w) (hs : ShapeFits shape h w)
    (hcomp : ∀ c, computed = some c → c.h = h ∧ c.w = w / 2 + 1)
    (hflat : flat = true → computed ≠ none) {F : Arr2 (Option V)} {sel : Option (Nat × ℝ × ℝ × ℝ)}
    {v : DataView V} (hv : ViewInv shape computed flat h w F sel v) (r : ViewReq V)
    (hr : r.Valid h w) :
    ∃ v', v.step (r.op computed flat) = .ok v' ∧
      ViewInv shape computed flat h w (lastData F [r]) (lastSelect sel [r]) v' := by
  cases r with
  | data F' =>
    refine ⟨{ v with data := some (storedData computed flat F') }, ?_, hv.shape_eq, hv.computed_eq,
      hv.size_eq, rfl, hr, hv.maps_eq, hv.none_eq, hv.masks_eq⟩
    simp only [ViewReq.op, DataView.step, DataView.setData, hv.computed_eq]
    cases computed with
    | none =>
      have hfl : flat = false := by
        cases flat
        · rfl
        · exact absurd rfl (hflat rfl)
      subst hfl
      simp only [storedData]
      rw [← hr.1, ← hr.2] at hv
      rw [← hv.size_eq]
    | some c => rfl
  | select junk k angle sector kstep =>
    obtain ⟨r1, r2, r3, r4, r5⟩ := hr
    have hpos := hs.pos hh hw
    have hk := fft2Kangle_eq h w shape hpos hh hw
    obtain ⟨maps, hmaps⟩ : ∃ m, fft2Kangle h (w : Int) shape = .ok m := ⟨_, hk⟩
    have hget : v.getMaps = .ok maps := by
      unfold DataView.getMaps
      cases hm : v.maps with
      | none =>
        simp only [DataView.initMap, hv.size_eq, hv.shape_eq, Option.map_some, hs.full, bind,
          Except.bind, hmaps]
      | some m =>
        have := hv.maps_eq m hm
        rw [hmaps] at this
        exact this.symm
    obtain ⟨imap, i1, i2, i3, i4⟩ := viewIndexmap hh hw hpos hmaps r1 r2 r3 r4 r5
    set M : Arr2 Bool := ⟨imap.h, imap.w, fun i j => imap.get i j == (k : Int)⟩ with hM
    obtain ⟨ms, m1, -⟩ := viewMasks_ok v junk M flat F h w hh hw i2 i3
      (by rw [hv.shape_eq]; exact hs) (by rw [hv.computed_eq]; exact hcomp)
      (by rw [hv.computed_eq]; exact hflat) hv.size_F.1 hv.size_F.2
      (by rw [hv.computed_eq]; exact hv.data_eq) hv.size_eq
    refine ⟨{ v with maps := some maps, masks := some ms }, ?_, hv.shape_eq, hv.computed_eq,
      hv.size_eq, hv.data_eq, hv.size_F, ?_, ?_, ?_⟩
    · simp only [ViewReq.op, DataView.step, DataView.setMask, hget, i1, ← hM, m1, bind, Except.bind]
    · intro m hm
      cases hm
      exact hmaps
    · intro hm; cases hm
    · intro k' angle' sector' kstep' he
      simp only [lastSelect, Option.some.injEq, Prod.mk.injEq] at he
      obtain ⟨rfl, rfl, rfl, rfl⟩ := he
      refine ⟨⟨r3, r4⟩, ⟨maps, rfl⟩, v, junk, M, ms, F, hv.shape_eq, hv.computed_eq, hv.size_eq,
        hv.data_eq, hv.size_F.1, hv.size_F.2, i2, i3, ?_, m1, rfl⟩
      intro i j hi hj
      rw [← i4 k i j hi hj]
      simp [hM]

theorem view_run (hh : 1 ≤ h) (hw : 1 ≤ w) (hs : ShapeFits shape h w)
    (hcomp : ∀ c, computed = some c → c.h = h ∧ c.w = w / 2 + 1)
    (hflat : flat = true → computed ≠ none) (rs : List (ViewReq V)) {F : Arr2 (Option V)}
    {sel : Option (Nat × ℝ × ℝ × ℝ)} {v : DataView V} (hv : ViewInv shape computed flat h w F sel v)
    (hr : ∀ r ∈ rs, r.Valid h w) :
    ∃ v', v.run (rs.map (ViewReq.op computed flat)) = .ok v' ∧
      ViewInv shape computed flat h w (lastData F rs) (lastSelect sel rs) v' := by
  induction rs generalizing F sel v with
  | nil => exact ⟨v, rfl, hv⟩
  | cons r rs ih =>
    obtain ⟨v1, h1, h2⟩ := view_step hh hw hs hcomp hflat hv r (hr r (by simp))
    obtain ⟨v2, h3, h4⟩ := ih h2 (fun r' hr' => hr r' (by simp [hr']))
    refine ⟨v2, ?_, ?_⟩
    · simp only [List.map_cons, DataView.run, h1, bind, Except.bind]
      exact h3
    · cases r <;> exact h4

/-- The cells that a viewer in a reachable state reads, and the mean of any values over them. -/
theorem view_selected (hh : 1 ≤ h) (hw : 1 ≤ w) (hs : ShapeFits shape h w)
    (hcomp : ∀ c, computed = some c → c.h = h ∧ c.w = w / 2 + 1)
    (hflat : flat = true → computed ≠ none) {F : Arr2 (Option V)} {k : Nat} {angle sector kstep : ℝ}
    {v : DataView V} (hv : ViewInv shape computed flat h w F (some (k, angle, sector, kstep)) v)
    (S : Finset (Nat × Nat)) (hS : ViewCells h w shape computed angle sector kstep k S)
    (hny : NoNyquist h w shape angle sector kstep k) :
    ∃ (ms : ViewMasks) (H C : Arr2 Bool), v.masks = some ms ∧
      selectData (storedData computed flat F) ms.half = .ok ((whereTrue H).map fun p => F.get p.1 p.2) ∧
      indexMask ms.conj ms.half = .ok ((whereTrue H).map fun p => C.get p.1 p.2) ∧
      (∀ i j : Nat, (i, j) ∈ whereTrue H ↔ ∃ p ∈ S, (i, j) = halfPlace h w p.1 p.2) ∧
      ∀ (W : Type) [AddCommGroup W] [Module ℝ W] (conj : W → W) (G : Arr2 (Option W)), G.h = h → G.w = w →
        (∀ i j : Nat, i < h → 1 ≤ j → 2 * j < w →
          G.get (wrap h (-(i : Int))) (wrap w (-(j : Int))) = (G.get i j).map conj) →
        nanMean ((whereTrue H).map fun p =>
          if C.get p.1 p.2 then (G.get p.1 p.2).map conj else G.get p.1 p.2) = meanOver S G.get := by
  obtain ⟨⟨s1, s2⟩, -, u, junk, M, ms, F0, u1, u2, u3, u4, f1, f2, M1, M2, M3, m1, m2⟩ :=
    hv.masks_eq _ _ _ _ rfl
  obtain ⟨ms', e, H, C, H1, H2, H3, H4, C1, C2, D1, D2, -⟩ := viewMasks_ok u junk M flat F0 h w hh hw M1 M2
    (by rw [u1]; exact hs) (by rw [u2]; exact hcomp) (by rw [u2]; exact hflat) f1 f2
    (by rw [u2]; exact u4) u3
  rw [m1] at e
  cases e
  obtain ⟨F1, F2⟩ := hv.size_F
  have hpos := hs.pos hh hw
  rw [u2] at D1
  have D1' := D1 F F1 F2
  rw [u2] at H3 H4
  have hwl := fun i => wrap_lt (n := h) hh (-(i : Int))
  have hwl' := fun j => wrap_lt (n := w) hw (-(j : Int))
  obtain ⟨T, hT⟩ : ∃ T : Nat → Nat → Prop, ∀ i j, T i j ↔ i < h ∧ j < w ∧
    InSelection h w shape angle sector kstep k i j ∧ Computed h w computed i j := ⟨_, fun _ _ => Iff.rfl⟩
  have t1 : ∀ i j : Nat, (i, j) ∈ S ↔ i < h ∧ j < w ∧ T i j := by
    intro i j
    rw [hS i j, hT]
    exact ⟨fun ⟨a, b, c⟩ => ⟨a, b, a, b, c⟩, fun ⟨_, _, q⟩ => q⟩
  have t2 : ∀ i j : Nat, i < h → 1 ≤ j → j ≤ w / 2 → (H.get i j = true ↔
      T i j ∨ T (wrap h (-(i : Int))) (wrap w (-(j : Int)))) := by
    intro i j hi h1 h2
    rw [H3 i j hi h1 h2, M3 i j hi (by omega), M3 _ _ (hwl i) (hwl' j), hT, hT]
    by_cases hN : 2 * j = w
    · constructor
      · rintro ⟨h | h, _⟩
        · exact absurd hN (hny i j hi (by omega) h).2
        · refine absurd ?_ (hny _ _ (hwl i) (hwl' j) h).2
          rw [wrap_neg (by omega) (by omega)]; omega
      · rintro (⟨_, _, h, _⟩ | ⟨_, _, h, _⟩)
        · exact absurd hN (hny i j hi (by omega) h).2
        · refine absurd ?_ (hny _ _ (hwl i) (hwl' j) h).2
          rw [wrap_neg (by omega) (by omega)]; omega
    · have e1 : Computed h w computed i j ↔ ∀ c, computed = some c → c.get i j = true := by
        unfold Computed halfPlace
        rw [if_pos (by omega)]
      have e2 : Computed h w computed (wrap h (-(i : Int))) (wrap w (-(j : Int))) ↔
          ∀ c, computed = some c → c.get i j = true := by
        unfold Computed halfPlace
        have : ¬ 2 * wrap w (-(j : Int)) < w := by
          rw [wrap_neg (by omega) (by omega)]; omega
        rw [if_neg this, wrap_wrap hi, wrap_wrap (by omega)]
      rw [e1, e2]
      have hj : j < w := by omega
      exact ⟨fun ⟨a, c⟩ => a.imp (fun a => ⟨hi, hj, a, c⟩) (fun a => ⟨hwl i, hwl' j, a, c⟩),
        fun q => q.elim (fun ⟨_, _, a, c⟩ => ⟨.inl a, c⟩) (fun ⟨_, _, a, c⟩ => ⟨.inr a, c⟩)⟩
  have t3 : ∀ i : Nat, i < h → (H.get i 0 = true ↔ T i 0) := by
    intro i hi
    rw [H4 i hi, M3 i 0 hi (by omega), hT]
    have e1 : Computed h w computed i 0 ↔ ∀ c, computed = some c → c.get i 0 = true := by
      unfold Computed halfPlace
      rw [if_pos (by omega)]
    rw [e1]
    exact ⟨fun ⟨a, c⟩ => ⟨hi, by omega, a, c⟩, fun ⟨_, _, a, c⟩ => ⟨a, c⟩⟩
  have t4 : ∀ i j : Nat, i < h → 1 ≤ j → j ≤ w / 2 → H.get i j = true → (C.get i j = true ↔
      T (wrap h (-(i : Int))) (wrap w (-(j : Int)))) := by
    intro i j hi h1 h2 hHt
    rw [C1 i j hi h1 h2 hHt, M3 _ _ (hwl i) (hwl' j), hT]
    constructor
    · intro h'
      refine ⟨hwl i, hwl' j, h', ?_⟩
      have hN := (hny _ _ (hwl i) (hwl' j) h').2
      have hw' : wrap w (-(j : Int)) = w - j := wrap_neg (by omega) (by omega)
      unfold Computed halfPlace
      rw [if_neg (by omega), wrap_wrap hi, wrap_wrap (by omega)]
      exact ((H3 i j hi h1 h2).mp hHt).2
    · exact fun h => h.2.2.1
  have t5 : ∀ i j : Nat, i < h → 1 ≤ j → 2 * j < w → T i j →
      T (wrap h (-(i : Int))) (wrap w (-(j : Int))) → False := by
    intro i j hi h1 h2 ht ht'
    obtain ⟨_, hj, q, _⟩ := (hT _ _).mp ht
    obtain ⟨_, _, q', _⟩ := (hT _ _).mp ht'
    obtain ⟨n1, n2⟩ := hny i j hi hj q
    exact selection_opposite hpos s1 s2 hi hj (by omega) n1 n2 q q'
  have t6 : ∀ i j : Nat, i < h → j < w → T i j → 2 * j ≠ w := by
    intro i j hi hj ht
    exact (hny i j hi hj ((hT _ _).mp ht).2.2.1).2
  refine ⟨ms, H, C, m2, D1', D2, ?_, ?_⟩
  · intro i j
    rw [mem_whereTrue]
    simp only [H1, H2]
    constructor
    · rintro ⟨hi, hj, hHt⟩
      rcases Nat.eq_zero_or_pos j with rfl | h0
      · have ht := (t3 i hi).mp hHt
        refine ⟨(i, 0), (t1 i 0).mpr ⟨hi, by omega, ht⟩, ?_⟩
        unfold halfPlace
        rw [if_pos (by omega)]
      · rcases (t2 i j hi h0 (by omega)).mp hHt with ht | ht
        · have hjw : 2 * j ≠ w := t6 i j hi ((hT _ _).mp ht).2.1 ht
          refine ⟨(i, j), (t1 i j).mpr ⟨hi, ((hT _ _).mp ht).2.1, ht⟩, ?_⟩
          unfold halfPlace
          rw [if_pos (by simp only; omega)]
        · have hN := t6 _ _ (hwl i) (hwl' j) ht
          have hw' : wrap w (-(j : Int)) = w - j := wrap_neg (by omega) (by omega)
          refine ⟨(wrap h (-(i : Int)), wrap w (-(j : Int))), (t1 _ _).mpr ⟨hwl i, hwl' j, ht⟩, ?_⟩
          unfold halfPlace
          rw [if_neg (by simp only; omega), wrap_wrap hi, wrap_wrap (by omega)]
    · rintro ⟨⟨a, b⟩, hp, he⟩
      obtain ⟨ha, hb, ht⟩ := (t1 a b).mp hp
      have hN := t6 a b ha hb ht
      unfold halfPlace at he
      by_cases hb2 : 2 * b < w
      · rw [if_pos hb2] at he
        cases he
        refine ⟨ha, by omega, ?_⟩
        rcases Nat.eq_zero_or_pos b with rfl | h0
        · exact (t3 a ha).mpr ht
        · exact (t2 a b ha h0 (by omega)).mpr (Or.inl ht)
      · rw [if_neg hb2] at he
        cases he
        have hw' : wrap w (-(b : Int)) = w - b := wrap_neg (by omega) (by omega)
        refine ⟨hwl a, by simp only; omega, ?_⟩
        rw [t2 _ _ (hwl a) (by simp only; omega) (by simp only; omega), wrap_wrap ha, wrap_wrap hb]
        exact Or.inr ht
  · intro W _ _ conj G G1 G2 hG
    subst G1 G2
    exact half_mean conj G T H C S hG hh hw H1 H2 t1 t2 t3 t4 C2 t5 t6

/-- What a viewer in a reachable state shows. -/
theorem view_shown [AddCommGroup V] [Module ℝ V] (hh : 1 ≤ h) (hw : 1 ≤ w) (hs : ShapeFits shape h w)
    (hcomp : ∀ c, computed = some c → c.h = h ∧ c.w = w / 2 + 1)
    (hflat : flat = true → computed ≠ none) {F : Arr2 (Option V)} {k : Nat} {angle sector kstep : ℝ}
    {v : DataView V} (hv : ViewInv shape computed flat h w F (some (k, angle, sector, kstep)) v)
    (conj : V → V) (hF : Hermitian (Option.map conj) F) (S : Finset (Nat × Nat))
    (hS : ViewCells h w shape computed angle sector kstep k S)
    (hny : NoNyquist h w shape angle sector kstep k) :
    v.getAvg conj = .ok (meanOver S F.get) := by
  obtain ⟨ms, H, C, m2, D1, D2, -, hm⟩ := view_selected hh hw hs hcomp hflat hv S hS hny
  obtain ⟨F1, F2⟩ := hv.size_F
  unfold DataView.getAvg
  simp only [hv.data_eq, m2, D1, D2, bind, Except.bind]
  rw [zip_map_map]
  congr 1
  refine hm V conj F F1 F2 fun i j hi h1 h2 => ?_
  have := hF i j (by omega) (by omega)
  rw [F1, F2] at this
  exact this

/-- C84: after any sequence of calls, the first of which sets data, `get_data` returns the mean of the
values of the current data over the wave vectors of the last selection that were computed and have a
value.  The data are the half space of the spectrum (opposite wave vectors carry conjugate values), or
only the computed cells of it.

Missing, because false of the code: selections with Nyquist wave vectors (`C84_nyquist_refuted`). -/
theorem C84_average_partial [AddCommGroup V] [Module ℝ V] (hh : 1 ≤ h) (hw : 1 ≤ w)
    (hs : ShapeFits shape h w) (hcomp : ∀ c, computed = some c → c.h = h ∧ c.w = w / 2 + 1)
    (hflat : flat = true → computed ≠ none) (F0 : Arr2 (Option V)) (hF0 : F0.h = h ∧ F0.w = w)
    (rs : List (ViewReq V)) (hrs : ∀ r ∈ rs, r.Valid h w) (k : Nat) (angle sector kstep : ℝ)
    (hsel : lastSelect none rs = some (k, angle, sector, kstep)) (conj : V → V)
    (hF : Hermitian (Option.map conj) (lastData F0 rs)) (S : Finset (Nat × Nat))
    (hS : ViewCells h w shape computed angle sector kstep k S)
    (hny : NoNyquist h w shape angle sector kstep k) :
    ∃ v : DataView V,
      (DataView.new shape computed).run
        (.data (storedData computed flat F0) :: rs.map (ViewReq.op computed flat)) = .ok v ∧
      v.getAvg conj = .ok (meanOver S (lastData F0 rs).get) := by
  obtain ⟨v0, e0, i0⟩ := view_new (shape := shape) hcomp hflat F0 hF0
  obtain ⟨v, e, i⟩ := view_run hh hw hs hcomp hflat rs i0 hrs
  rw [hsel] at i
  refine ⟨v, ?_, view_shown hh hw hs hcomp hflat i conj hF S hS hny⟩
  simp only [DataView.run, DataView.step, e0, bind, Except.bind, e]

/-- C84: there are no Nyquist wave vectors in data of odd size. -/
theorem C84_odd (hh : h % 2 = 1) (hw : w % 2 = 1) (angle sector kstep : ℝ) (k : Nat) :
    NoNyquist h w shape angle sector kstep k := fun _ _ _ _ _ => by omega

/-- C84: a ring inside the smaller of the two Nyquist wave numbers holds no Nyquist wave vector. -/
theorem C84_ring (hpos : ∀ s, shape = some s → 0 < s.1 ∧ 0 < s.2) (angle sector kstep : ℝ) (k : Nat)
    (h1 : (k + 1 / 2) * kstep < h / 2 * (freqStep shape).1)
    (h2 : (k + 1 / 2) * kstep < w / 2 * (freqStep shape).2) (hh : 1 ≤ h) (hw : 1 ≤ w) :
    NoNyquist h w shape angle sector kstep k := by
  obtain ⟨p1, p2⟩ := freqStep_pos hpos
  intro i j hi hj hsel
  rcases hsel with ⟨rfl, rfl, _⟩ | ⟨_, di, dj, q, a, f1, f2, ⟨q0, q1, q2, _, _⟩, _, ⟨_, hr⟩⟩
  · omega
  have hq : ∀ x c : ℝ, |c| ≤ 1 → x = q * c → |x| ≤ q := by
    rintro x c hc rfl
    rw [abs_mul, abs_of_nonneg q0]
    nlinarith
  have b1 := hq _ _ (Real.abs_sin_le_one a) q2
  have b2 := hq _ _ (Real.abs_cos_le_one a) q1
  rw [abs_neg] at b1
  rw [abs_mul, abs_of_pos p1] at b1
  rw [abs_mul, abs_of_pos p2] at b2
  constructor
  · intro hN
    have e : di = -(i : Int) := by
      rw [IsFreq.eq hi f1]; unfold fftfreqN; split <;> omega
    rw [e] at b1
    push_cast at b1
    rw [abs_neg, abs_of_nonneg (Nat.cast_nonneg _)] at b1
    have : (h : ℝ) / 2 = i := by
      have : (h : ℝ) = 2 * i := by exact_mod_cast hN.symm
      rw [this]; ring
    rw [this] at h1
    linarith
  · intro hN
    have e : dj = -(j : Int) := by
      rw [IsFreq.eq hj f2]; unfold fftfreqN; split <;> omega
    rw [e] at b2
    push_cast at b2
    rw [abs_neg, abs_of_nonneg (Nat.cast_nonneg _)] at b2
    have : (w : ℝ) / 2 = j := by
      have : (w : ℝ) = 2 * j := by exact_mod_cast hN.symm
      rw [this]; ring
    rw [this] at h2
    linarith

theorem view_graph {F : Arr2 (Option V)} {k : Nat} {angle sector kstep : ℝ} {v : DataView V}
    (hh : 1 ≤ h) (hw : 1 ≤ w) (hs : ShapeFits shape h w)
    (hcomp : ∀ c, computed = some c → c.h = h ∧ c.w = w / 2 + 1)
    (hflat : flat = true → computed ≠ none)
    (hv : ViewInv shape computed flat h w F (some (k, angle, sector, kstep)) v)
    (S : Finset (Nat × Nat)) (hS : ViewCells h w shape computed angle sector kstep k S) :
    ∃ ms, v.masks = some ms ∧ (whereTrue ms.graph).toFinset = S ∧ ms.graph.h = h ∧ ms.graph.w = w ∧
      (ms.mask.any = true ↔ S.Nonempty) ∧ (flat = false → ms.mask = .grid ms.graph) ∧
      (flat = true → ∃ l : List Bool, ms.mask = .flat l ∧
        l.length = ((Finset.range h ×ˢ Finset.range w).filter fun p =>
          computed.all fun c => c.get (halfPlace h w p.1 p.2).1 (halfPlace h w p.1 p.2).2).card) := by
  obtain ⟨-, -, u, junk, M, ms, F0, u1, u2, u3, u4, f1, f2, M1, M2, M3, m1, m2⟩ :=
    hv.masks_eq _ _ _ _ rfl
  obtain ⟨ms', e, -, -, -, -, -, -, -, -, -, -, G1, G2, G3, A1, A2, A3⟩ :=
    viewMasks_ok u junk M flat F0 h w hh hw M1 M2
    (by rw [u1]; exact hs) (by rw [u2]; exact hcomp) (by rw [u2]; exact hflat) f1 f2
    (by rw [u2]; exact u4) u3
  rw [m1] at e
  cases e
  rw [u2] at G3 A3
  have hset : (whereTrue ms.graph).toFinset = S := by
    ext ⟨i, j⟩
    rw [List.mem_toFinset, mem_whereTrue, hS i j]
    constructor
    · rintro ⟨a, b, d⟩
      have := (G3 i j (by omega) (by omega)).mp d
      rw [M3 i j (by omega) (by omega)] at this
      exact ⟨by omega, by omega, this⟩
    · rintro ⟨a, b, d⟩
      refine ⟨by omega, by omega, (G3 i j a b).mpr ?_⟩
      rw [M3 i j a b]
      exact d
  refine ⟨ms, m2, hset, G1, G2, ?_, A2, A3⟩
  rw [A1, ← hset]
  constructor
  · rintro ⟨p, hp⟩; exact ⟨p, by simpa using hp⟩
  · rintro ⟨p, hp⟩; exact ⟨p, by simpa using hp⟩

/-- C84: `set_mask` tells whether any computed wave vector was selected. -/
theorem C84_set_mask (hh : 1 ≤ h) (hw : 1 ≤ w)
    (hs : ShapeFits shape h w) (hcomp : ∀ c, computed = some c → c.h = h ∧ c.w = w / 2 + 1)
    (hflat : flat = true → computed ≠ none) (F0 : Arr2 (Option V)) (hF0 : F0.h = h ∧ F0.w = w)
    (rs : List (ViewReq V)) (hrs : ∀ r ∈ rs, r.Valid h w) (junk : Nat → Nat → Bool) (k : Nat)
    (angle sector kstep : ℝ) (h1 : -180 ≤ angle) (h2 : angle ≤ 180) (h3 : 0 < sector) (h4 : sector ≤ 180)
    (h5 : 0 < kstep) (S : Finset (Nat × Nat))
    (hS : ViewCells h w shape computed angle sector kstep k S) :
    ∃ (v v' : DataView V) (b : Bool),
      (DataView.new shape computed).run
        (.data (storedData computed flat F0) :: rs.map (ViewReq.op computed flat)) = .ok v ∧
      v.setMask junk k angle sector kstep = .ok (v', b) ∧ (b = true ↔ S.Nonempty) := by
  obtain ⟨v0, e0, i0⟩ := view_new (shape := shape) hcomp hflat F0 hF0
  obtain ⟨v, e, i⟩ := view_run hh hw hs hcomp hflat rs i0 hrs
  obtain ⟨v', e', i'⟩ := view_step hh hw hs hcomp hflat i (.select junk k angle sector kstep)
    ⟨h1, h2, h3, h4, h5⟩
  obtain ⟨ms, m1, -, -, -, m2, -⟩ := view_graph hh hw hs hcomp hflat i' S hS
  simp only [ViewReq.op, DataView.step, bind, Except.bind] at e'
  cases hm : v.setMask junk k angle sector kstep with
  | error x => rw [hm] at e'; cases e'
  | ok r =>
    obtain ⟨v'', b⟩ := r
    rw [hm] at e'
    cases e'
    refine ⟨v, v'', b, ?_, hm, ?_⟩
    · simp only [DataView.run, DataView.step, e0, bind, Except.bind, e]
    · rw [← m2]
      unfold DataView.setMask at hm
      simp only [bind, Except.bind] at hm
      repeat' split at hm
      all_goals first | cases hm | skip
      simp only [Option.some.injEq] at m1
      rw [m1]

/-- C84: for data of all cells of the half space, `get_k` is the mean wave number of the selected
computed wave vectors, NaN without any.

Missing, because false of the code: data of the computed cells only (`C84_wave_number_masked_refuted`). -/
theorem C84_wave_number_partial (hh : 1 ≤ h) (hw : 1 ≤ w)
    (hs : ShapeFits shape h w) (hcomp : ∀ c, computed = some c → c.h = h ∧ c.w = w / 2 + 1)
    (F0 : Arr2 (Option V)) (hF0 : F0.h = h ∧ F0.w = w)
    (rs : List (ViewReq V)) (hrs : ∀ r ∈ rs, r.Valid h w) (k : Nat) (angle sector kstep : ℝ)
    (hsel : lastSelect none rs = some (k, angle, sector, kstep)) (S : Finset (Nat × Nat))
    (hS : ViewCells h w shape computed angle sector kstep k S) (kval : Nat → Nat → ℝ)
    (hk : ∀ (i j : Nat) (di dj : Int), i < h → j < w → IsFreq h i di → IsFreq w j dj →
      kval i j = Real.sqrt ((dj * (freqStep shape).2) ^ 2 + (di * (freqStep shape).1) ^ 2)) :
    ∃ v : DataView V,
      (DataView.new shape computed).run
        (.data (storedData computed false F0) :: rs.map (ViewReq.op computed false)) = .ok v ∧
      v.getK = .ok (if S.card = 0 then none else some ((∑ p ∈ S, kval p.1 p.2) / S.card)) := by
  have hflat : false = true → computed ≠ none := fun h => by cases h
  obtain ⟨v0, e0, i0⟩ := view_new (shape := shape) hcomp hflat F0 hF0
  obtain ⟨v, e, i⟩ := view_run hh hw hs hcomp hflat rs i0 hrs
  rw [hsel] at i
  refine ⟨v, ?_, ?_⟩
  · simp only [DataView.run, DataView.step, e0, bind, Except.bind, e]
  obtain ⟨ms, m1, m2, m3, m4, -, m5, -⟩ := view_graph hh hw hs hcomp hflat i S hS
  obtain ⟨-, ⟨maps, hm⟩, -⟩ := i.masks_eq _ _ _ _ rfl
  have hmaps := i.maps_eq maps hm
  rw [fft2Kangle_eq h w shape (hs.pos hh hw) hh hw] at hmaps
  cases hmaps
  unfold DataView.getK
  simp only [m1, hm, m5 rfl, indexByMask, bind, Except.bind]
  rw [boolIndex_same (by simp only; omega) (by simp only; omega)]
  simp only [List.length_map]
  rw [← List.toFinset_card_of_nodup (whereTrue_nodup ms.graph), m2, nodup_sum _ (whereTrue_nodup ms.graph), m2]
  congr 4
  apply Finset.sum_congr rfl
  rintro ⟨a, b⟩ hp
  obtain ⟨ha, hb, -⟩ := (hS a b).mp hp
  rw [hk a b _ _ ha hb (fftfreqN_isFreq ha) (fftfreqN_isFreq hb)]
  rfl

/-- C84 is false of `get_k` for data of the computed cells only: IndexError, unless the number of
computed wave vectors happens to be the height. -/
theorem C84_wave_number_masked_refuted (hh : 1 ≤ h) (hw : 1 ≤ w)
    (hs : ShapeFits shape h w) (c : Arr2 Bool) (hcomp : c.h = h ∧ c.w = w / 2 + 1)
    (F0 : Arr2 (Option V)) (hF0 : F0.h = h ∧ F0.w = w)
    (rs : List (ViewReq V)) (hrs : ∀ r ∈ rs, r.Valid h w) (k : Nat) (angle sector kstep : ℝ)
    (hsel : lastSelect none rs = some (k, angle, sector, kstep))
    (hcard : ((Finset.range h ×ˢ Finset.range w).filter fun p =>
      c.get (halfPlace h w p.1 p.2).1 (halfPlace h w p.1 p.2).2).card ≠ h) :
    ∃ v : DataView V,
      (DataView.new shape (some c)).run
        (.data (storedData (some c) true F0) :: rs.map (ViewReq.op (some c) true)) = .ok v ∧
      v.getK = .error .indexError := by
  have hflat : true = true → some c ≠ none := fun _ h => by cases h
  have hcomp' : ∀ c', some c = some c' → c'.h = h ∧ c'.w = w / 2 + 1 := by rintro _ ⟨⟩; exact hcomp
  obtain ⟨v0, e0, i0⟩ := view_new (shape := shape) hcomp' hflat F0 hF0
  obtain ⟨v, e, i⟩ := view_run hh hw hs hcomp' hflat rs i0 hrs
  rw [hsel] at i
  refine ⟨v, ?_, ?_⟩
  · simp only [DataView.run, DataView.step, e0, bind, Except.bind, e]
  classical
  obtain ⟨ms, m1, -, -, -, -, -, m5⟩ := view_graph hh hw hs hcomp' hflat i
    ((Finset.range h ×ˢ Finset.range w).filter fun p =>
      InSelection h w shape angle sector kstep k p.1 p.2 ∧ Computed h w (some c) p.1 p.2)
    (by intro i j; simp [and_assoc])
  obtain ⟨l, l1, l2⟩ := m5 rfl
  obtain ⟨-, ⟨maps, hm⟩, -⟩ := i.masks_eq _ _ _ _ rfl
  have hmaps := i.maps_eq maps hm
  rw [fft2Kangle_eq h w shape (hs.pos hh hw) hh hw] at hmaps
  cases hmaps
  unfold DataView.getK
  simp only [m1, hm, l1, indexByMask, boolIndex1, bind, Except.bind, List.length_range]
  rw [if_neg]
  rw [l2]
  simp only [Option.all_some]
  exact fun h => hcard h.symm

/-- C84: a viewer cannot be used again for data of another size.  The maps of the first selection are
kept, and the next `get_data` is an IndexError. -/
theorem C84_other_size_refuted [AddCommGroup V] [Module ℝ V] (hh : 1 ≤ h) (hw : 1 ≤ w)
    (hs : ShapeFits shape h w) (F1 F2 : Arr2 (Option V)) (hF1 : F1.h = h ∧ F1.w = w)
    (hF2 : F2.h ≠ h ∨ F2.w / 2 + 1 ≠ w / 2 + 1) (r1 r2 : ViewReq V) (junk1 junk2 : Nat → Nat → Bool)
    (k1 k2 : Nat) (a1 a2 s1 s2 d1 d2 : ℝ) (e1 : r1 = .select junk1 k1 a1 s1 d1)
    (e2 : r2 = .select junk2 k2 a2 s2 d2) (hr1 : r1.Valid h w) (hr2 : r2.Valid h w) (conj : V → V) :
    ∃ v : DataView V,
      (DataView.new shape none).run
        ([.data F1, r1, .data F2, r2].map (ViewReq.op none false)) = .ok v ∧
      v.getAvg conj = .error .indexError := by
  have hcomp : ∀ c, (none : Option (Arr2 Bool)) = some c → c.h = h ∧ c.w = w / 2 + 1 := by
    intro c h; cases h
  have hflat : false = true → (none : Option (Arr2 Bool)) ≠ none := fun h => by cases h
  subst e1 e2
  obtain ⟨v0, q0, i0⟩ := view_new (shape := shape) hcomp hflat F1 hF1
  obtain ⟨v1, q1, i1⟩ := view_step hh hw hs hcomp hflat i0 _ hr1
  obtain ⟨-, ⟨maps, hm⟩, -⟩ := i1.masks_eq _ _ _ _ rfl
  have hmaps := i1.maps_eq maps hm
  obtain ⟨t1, t2, t3, t4, t5⟩ := hr2
  obtain ⟨imap, j1, j2, j3, -⟩ := viewIndexmap hh hw (hs.pos hh hw) hmaps t1 t2 t3 t4 t5
  set M : Arr2 Bool := ⟨imap.h, imap.w, fun i j => imap.get i j == (k2 : Int)⟩ with hM
  obtain ⟨half, c1, c2, c3, -⟩ := C49_as_rfft2_mask M (by simp only [hM]; omega) (by simp only [hM]; omega)
  obtain ⟨cj, c4, -⟩ := C49_as_rfft2_conj false M (by simp only [hM]; omega) (by simp only [hM]; omega)
  have hhalf : half.h = h ∧ half.w = w / 2 + 1 := ⟨by rw [c2]; exact j2, by rw [c3]; simp only [hM, j3]⟩
  refine ⟨{ v1 with size := some (F2.h, F2.w / 2 + 1)
                    data := some (.grid ⟨F2.h, F2.w / 2 + 1, F2.get⟩)
                    masks := some ⟨.grid M, M, .grid half, .grid cj⟩ }, ?_, ?_⟩
  · have q2 : v1.step (ViewReq.op none false (.data F2)) = .ok
        { v1 with size := some (F2.h, F2.w / 2 + 1)
                  data := some (.grid ⟨F2.h, F2.w / 2 + 1, F2.get⟩) } := by
      simp only [ViewReq.op, DataView.step, DataView.setData, i1.computed_eq, storedData]
    simp only [List.map_cons, List.map_nil, DataView.run, bind, Except.bind]
    rw [show (DataView.new shape none : DataView V).step (ViewReq.op none false (.data F1)) = .ok v0 from q0]
    simp only [q1, q2]
    simp only [ViewReq.op, DataView.step, DataView.setMask, DataView.getMaps, hm, j1, ← hM,
      DataView.viewMasks, c1, c4, i1.computed_eq, bind, Except.bind]
  · unfold DataView.getAvg
    simp only [selectData, boolIndex, bind, Except.bind]
    rw [if_neg]
    rw [hhalf.1, hhalf.2]
    tauto

/-- C84: `get_data` without data or without a selection is a ValueError; selecting before data are set
is an AttributeError if there is a mask of the computed elements. -/
theorem C84_order [AddCommGroup V] [Module ℝ V] (shape : Option (Nat × Nat)) (c : Arr2 Bool)
    (conj : V → V) :
    (∀ computed : Option (Arr2 Bool), (DataView.new shape computed : DataView V).getAvg conj =
      .error .valueError) ∧
    (∀ (computed : Option (Arr2 Bool)) (d : KData V) (v : DataView V),
      (DataView.new shape computed).setData d = .ok v → v.getAvg conj = .error .valueError) ∧
    (∀ (h w : Nat), 1 ≤ h → 1 ≤ w → ShapeFits shape h w → c.h = h → c.w = w / 2 + 1 →
      ∀ (r : ViewReq V) (junk : Nat → Nat → Bool) (k : Nat) (angle sector kstep : ℝ),
      r = .select junk k angle sector kstep → r.Valid h w →
      (DataView.new shape (some c) : DataView V).step (r.op (some c) false) = .error .attributeError) := by
  refine ⟨fun _ => rfl, ?_, ?_⟩
  · intro computed d v hv
    cases computed with
    | none =>
      cases d with
      | grid a => cases hv; rfl
      | flat l => cases hv
    | some c => cases hv; rfl
  · rintro h w hh hw hs ch cw r junk k angle sector kstep rfl ⟨t1, t2, t3, t4, t5⟩
    obtain ⟨maps, hmaps⟩ : ∃ m, fft2Kangle h (w : Int) shape = .ok m :=
      ⟨_, fft2Kangle_eq h w shape (hs.pos hh hw) hh hw⟩
    obtain ⟨imap, j1, j2, j3, -⟩ := viewIndexmap hh hw (hs.pos hh hw) hmaps t1 t2 t3 t4 t5
    set M : Arr2 Bool := ⟨imap.h, imap.w, fun i j => imap.get i j == (k : Int)⟩ with hM
    obtain ⟨half, c1, -⟩ := C49_as_rfft2_mask M (by simp only [hM]; omega) (by simp only [hM]; omega)
    obtain ⟨cj, c4, -⟩ := C49_as_rfft2_conj false M (by simp only [hM]; omega) (by simp only [hM]; omega)
    simp only [ViewReq.op, DataView.step, DataView.setMask, DataView.getMaps, DataView.initMap,
      DataView.new, Option.map_some, ch, cw, hs.full, hmaps, j1, ← hM, DataView.viewMasks, c1, c4,
      bind, Except.bind]

end

/-- Names of the representations. -/
def modeName : ReprMode → String
  | .real => "real"
  | .imag => "imag"
  | .abs => "abs"
  | .phase => "phase"

theorem modeName_chars (m : ReprMode) : (modeName m).toList ≠ [] ∧
    ∀ c ∈ (modeName m).toList, isSpaceChar c = false := by
  cases m <;> decide

theorem toLower_space {c : Char} (h : isSpaceChar c = true) : c.toLower = c := by
  unfold Char.toLower
  rw [dif_neg]
  unfold isSpaceChar at h
  simp only [Bool.decide_or, Bool.or_eq_true, decide_eq_true_eq] at h
  rintro ⟨a, b⟩
  have a' : 65 ≤ c.toNat := a
  have b' : c.toNat ≤ 90 := b
  omega

/-- C84: the mode of representation is one of four names, in any case, with blanks around it; anything
else is a ValueError. -/
theorem C84_mode (mode : List Char) (m : ReprMode) :
    (reprMode mode = .ok m ↔ ∃ pre word post : List Char, mode = pre ++ word ++ post ∧
      (∀ c ∈ pre, isSpaceChar c = true) ∧ (∀ c ∈ post, isSpaceChar c = true) ∧
      word.map Char.toLower = (modeName m).toList) ∧
    ((∀ m, reprMode mode ≠ .ok m) → reprMode mode = .error .valueError) := by
  have hiff : ∀ m, reprMode mode = .ok m ↔ (stripChars mode).map Char.toLower = (modeName m).toList := by
    intro m
    unfold reprMode
    dsimp only
    split_ifs with h1 h2 h3 h4
    · rw [h1]; cases m <;> simp [modeName]
    · rw [h2]; cases m <;> simp [modeName]
    · rw [h3]; cases m <;> simp [modeName]
    · rw [h4]; cases m <;> simp [modeName]
    · cases m <;> simp only [modeName, reduceCtorEq, false_iff] <;> assumption
  constructor
  · rw [hiff]
    constructor
    · intro h
      obtain ⟨pre, post, e, h1, h2⟩ := strip_decomp mode
      exact ⟨pre, stripChars mode, post, e, h1, h2, h⟩
    · rintro ⟨pre, word, post, rfl, h1, h2, h3⟩
      obtain ⟨n1, n2⟩ := modeName_chars m
      rw [strip_eq pre word post h1 h2 (by rintro rfl; exact n1 h3.symm), h3]
      intro c hc
      by_contra hsp
      have hsp : isSpaceChar c = true := by simpa using hsp
      have : c.toLower ∈ (modeName m).toList := by rw [← h3]; exact List.mem_map_of_mem hc
      rw [toLower_space hsp] at this
      rw [n2 c this] at hsp
      cases hsp
  · intro h
    unfold reprMode at h ⊢
    dsimp only at h ⊢
    split_ifs at h ⊢
    · exact absurd rfl (h .real)
    · exact absurd rfl (h .imag)
    · exact absurd rfl (h .abs)
    · exact absurd rfl (h .phase)
    · rfl

example : reprMode " Phase ".toList = .ok .phase ∧ reprMode "angle".toList = .error .valueError := by
  decide

/-- C84: the representations "abs" and "phase" are polar coordinates of the number, "real" and "imag"
its Cartesian ones. -/
theorem C84_repr (z : Cx ℝ) : ∃ r φ : ℝ,
    dataRepr z "abs".toList = .ok r ∧ dataRepr z "phase".toList = .ok φ ∧
    dataRepr z "real".toList = .ok z.re ∧ dataRepr z "imag".toList = .ok z.im ∧
    z.re = r * Real.cos φ ∧ z.im = r * Real.sin φ ∧ 0 ≤ r ∧ -Real.pi < φ ∧ φ ≤ Real.pi := by
  have e : ∀ (m : ReprMode), reprMode (modeName m).toList = .ok m := by intro m; cases m <;> decide
  have hn : Real.sqrt (z.re ^ 2 + z.im ^ 2) = ‖(⟨z.re, z.im⟩ : ℂ)‖ := by
    rw [Complex.norm_def, Complex.normSq_mk]
    congr 1
    ring
  refine ⟨Real.sqrt (z.re ^ 2 + z.im ^ 2), Complex.arg ⟨z.re, z.im⟩, ?_, ?_, ?_, ?_, ?_, ?_,
    Real.sqrt_nonneg _, Complex.neg_pi_lt_arg _, Complex.arg_le_pi _⟩
  · have := e .abs
    simp only [modeName] at this
    simp only [dataRepr, this, bind, Except.bind]
  · have := e .phase
    simp only [modeName] at this
    simp only [dataRepr, this, bind, Except.bind]
  · have := e .real
    simp only [modeName] at this
    simp only [dataRepr, this, bind, Except.bind]
  · have := e .imag
    simp only [modeName] at this
    simp only [dataRepr, this, bind, Except.bind]
  · rw [hn, Complex.norm_mul_cos_arg]
  · rw [hn, Complex.norm_mul_sin_arg]

end Cddm
