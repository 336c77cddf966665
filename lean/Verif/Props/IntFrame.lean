import Verif.Lemmas.IntFrame

/-!
# C130: frames of signed and unsigned integers of any shapes
-/

namespace Cddm
open Spec

/-- C130: the result is of the narrowest integer type which holds the numbers of both operands. -/
theorem C130_type (a b t : IntPix) (ha : StdInt a) (hb : StdInt b) (h : commonInt a b = some t) :
    StdInt t ∧ (∀ v, HoldsInt a v ∨ HoldsInt b v → HoldsInt t v) ∧
      ∀ t', StdInt t' → (∀ v, HoldsInt a v ∨ HoldsInt b v → HoldsInt t' v) → t.bits ≤ t'.bits := by
  have pa := std_pos ha
  have pb := std_pos hb
  have key : StdInt t ∧ ((a.signed = t.signed ∧ a.bits ≤ t.bits) ∨ (a.signed = false ∧ t.signed = true ∧ a.bits < t.bits)) ∧
      ((b.signed = t.signed ∧ b.bits ≤ t.bits) ∨ (b.signed = false ∧ t.signed = true ∧ b.bits < t.bits)) ∧
      ∀ t', StdInt t' →
        ((a.signed = t'.signed ∧ a.bits ≤ t'.bits) ∨ (a.signed = false ∧ t'.signed = true ∧ a.bits < t'.bits)) →
        ((b.signed = t'.signed ∧ b.bits ≤ t'.bits) ∨ (b.signed = false ∧ t'.signed = true ∧ b.bits < t'.bits)) →
        t.bits ≤ t'.bits := by
    obtain ⟨as, an⟩ := a
    obtain ⟨bs, bn⟩ := b
    unfold StdInt at *
    unfold commonInt at h
    cases as <;> cases bs <;> simp at h ha hb
    · subst h
      refine ⟨by dsimp only; omega, by simp, by simp, ?_⟩
      rintro ⟨ts, tn⟩ ht h1 h2
      dsimp only at *
      omega
    · split at h
      · cases h
        refine ⟨by dsimp only; omega, by simp; omega, by simp, ?_⟩
        rintro ⟨ts, tn⟩ ht h1 h2
        dsimp only at *
        cases ts <;> simp at h1 h2 <;> omega
      · split at h
        · cases h
          refine ⟨by dsimp only; omega, by simp; omega, by simp; omega, ?_⟩
          rintro ⟨ts, tn⟩ ht h1 h2
          dsimp only at *
          cases ts <;> simp at h1 h2 <;> omega
        · cases h
    · split at h
      · cases h
        refine ⟨by dsimp only; omega, by simp, by simp; omega, ?_⟩
        rintro ⟨ts, tn⟩ ht h1 h2
        dsimp only at *
        cases ts <;> simp at h1 h2 <;> omega
      · split at h
        · cases h
          refine ⟨by dsimp only; omega, by simp; omega, by simp; omega, ?_⟩
          rintro ⟨ts, tn⟩ ht h1 h2
          dsimp only at *
          cases ts <;> simp at h1 h2 <;> omega
        · cases h
    · subst h
      refine ⟨by dsimp only; omega, by simp, by simp, ?_⟩
      rintro ⟨ts, tn⟩ ht h1 h2
      dsimp only at *
      omega
  obtain ⟨k1, k2, k3, k4⟩ := key
  have pt := std_pos k1
  refine ⟨k1, ?_, ?_⟩
  · rintro v (hv | hv)
    · exact (covers_iff a t pa pt).mpr k2 v hv
    · exact (covers_iff b t pb pt).mpr k3 v hv
  · intro t' ht' hc
    have pt' := std_pos ht'
    exact k4 t' ht' ((covers_iff a t' pa pt').mp fun v hv => hc v (Or.inl hv))
      ((covers_iff b t' pb pt').mp fun v hv => hc v (Or.inr hv))

/-- C130: floating-point numbers come out exactly when no integer type holds the numbers of both. -/
theorem C130_float_iff (a b : IntPix) (ha : StdInt a) (hb : StdInt b) :
    commonInt a b = none ↔ ¬ ∃ t, StdInt t ∧ ∀ v, HoldsInt a v ∨ HoldsInt b v → HoldsInt t v := by
  constructor
  · rintro h ⟨t, ht, hc⟩
    have h1 := (covers_iff a t (std_pos ha) (std_pos ht)).mp fun v hv => hc v (Or.inl hv)
    have h2 := (covers_iff b t (std_pos hb) (std_pos ht)).mp fun v hv => hc v (Or.inr hv)
    obtain ⟨as, an⟩ := a
    obtain ⟨bs, bn⟩ := b
    obtain ⟨ts, tn⟩ := t
    unfold StdInt at *
    unfold commonInt at h
    dsimp only at *
    cases as <;> cases bs <;> simp at h <;> split at h
    · cases h
    · split at h
      · cases h
      · cases ts <;> simp at h1 h2 <;> omega
    · cases h
    · split at h
      · cases h
      · cases ts <;> simp at h1 h2 <;> omega
  · intro h
    cases hc : commonInt a b with
    | none => rfl
    | some t => exact absurd ⟨t, (C130_type a b t ha hb hc).1, (C130_type a b t ha hb hc).2.1⟩ h

/-- What one operation gives, before any conversion. -/
theorem intArith_value (op : FrameOp) (a b t : IntPix) (ha : StdInt a) (hb : StdInt b) (hc : commonInt a b = some t)
    (x y : Arr2 Int) (hx : PixOf a x) (hy : PixOf b y) (h w : Nat) (hh : Fits x.h y.h h) (hw : Fits x.w y.w w) :
    ∃ px, intArith op a b x y = .ok (.ints t px) ∧ px.h = h ∧ px.w = w ∧
      ∀ i j, i < h → j < w → px.get i j = toIntPix t (wantedInt op (seenAt x i j) (seenAt y i j)) := by
  obtain ⟨ht, hcov, -⟩ := C130_type a b t ha hb hc
  unfold intArith
  rw [broadcastLen_fits hh, broadcastLen_fits hw, hc]
  refine ⟨_, rfl, rfl, rfl, fun i j hi hj => ?_⟩
  have h1 : HoldsInt a (seenAt x i j) := seenAt_of hh hw hi hj hx
  have h2 : HoldsInt b (seenAt y i j) := seenAt_of (fits_comm hh) (fits_comm hw) hi hj hy
  have e1 := (toIntPix_eq_iff t (std_pos ht) _).mpr (hcov _ (Or.inl h1))
  have e2 := (toIntPix_eq_iff t (std_pos ht) _).mpr (hcov _ (Or.inr h2))
  unfold seenAt at e1 e2 ⊢
  dsimp only
  rw [e1, e2]
  cases op <;> rfl

/-- C130: without `inplace` and `dtype` every pixel is the difference, sum or product modulo the size of that type, and
right exactly if it is a number of the type.  A single row or column is repeated. -/
theorem C130_arith (op : FrameOp) (a b t : IntPix) (ha : StdInt a) (hb : StdInt b) (hc : commonInt a b = some t)
    (x y : Arr2 Int) (hx : PixOf a x) (hy : PixOf b y) (h w : Nat) (hh : Fits x.h y.h h) (hw : Fits x.w y.w w) :
    ∃ px, intFrameArith op false none a b x y = .ok (.ints t px) ∧ px.h = h ∧ px.w = w ∧ PixOf t px ∧
      ∀ i j, i < h → j < w →
        (∃ k : Int, px.get i j = wantedInt op (seenAt x i j) (seenAt y i j) + k * 2 ^ t.bits) ∧
        (px.get i j = wantedInt op (seenAt x i j) (seenAt y i j) ↔
          HoldsInt t (wantedInt op (seenAt x i j) (seenAt y i j))) := by
  obtain ⟨px, e, e1, e2, hv⟩ := intArith_value op a b t ha hb hc x y hx hy h w hh hw
  have pt := std_pos (C130_type a b t ha hb hc).1
  refine ⟨px, ?_, e1, e2, ?_, ?_⟩
  · unfold intFrameArith
    rw [e]
    rfl
  · intro i j hi hj
    rw [hv i j (by omega) (by omega)]
    exact toIntPix_range t pt _
  · intro i j hi hj
    rw [hv i j hi hj]
    exact ⟨toIntPix_shift t _, toIntPix_eq_iff t pt _⟩

/-- C130: with an integer `dtype` the low bits of that result are kept; nothing is lost if the type holds it. -/
theorem C130_dtype (op : FrameOp) (a b t d : IntPix) (ha : StdInt a) (hb : StdInt b) (hd : StdInt d)
    (hc : commonInt a b = some t) (x y : Arr2 Int) (hx : PixOf a x) (hy : PixOf b y) (h w : Nat)
    (hh : Fits x.h y.h h) (hw : Fits x.w y.w w) :
    ∃ px0 px, intFrameArith op false none a b x y = .ok (.ints t px0) ∧
      intFrameArith op false (some d) a b x y = .ok (.ints d px) ∧ px.h = h ∧ px.w = w ∧ PixOf d px ∧
      ∀ i j, i < h → j < w → (∃ k : Int, px.get i j = px0.get i j + k * 2 ^ d.bits) ∧
        (px.get i j = px0.get i j ↔ HoldsInt d (px0.get i j)) := by
  obtain ⟨px, e, e1, e2, hv⟩ := intArith_value op a b t ha hb hc x y hx hy h w hh hw
  have pd := std_pos hd
  refine ⟨px, ⟨px.h, px.w, fun i j => toIntPix d (px.get i j)⟩, ?_, ?_, e1, e2, ?_, ?_⟩
  · unfold intFrameArith
    rw [e]
    rfl
  · unfold intFrameArith
    rw [e]
    rfl
  · intro i j _ _
    exact toIntPix_range d pd _
  · intro i j _ _
    exact ⟨toIntPix_shift d _, toIntPix_eq_iff d pd _⟩

/-- C130: unsigned integers of 64 bits with signed ones give the exact values as floating-point numbers. -/
theorem C130_wide (op : FrameOp) (a b : IntPix) (hc : commonInt a b = none)
    (x y : Arr2 Int) (h w : Nat) (hh : Fits x.h y.h h) (hw : Fits x.w y.w w) :
    ∃ px, intFrameArith op false none a b x y = .ok (.floats px) ∧ px.h = h ∧ px.w = w ∧
      ∀ i j, i < h → j < w → px.get i j = ((wantedInt op (seenAt x i j) (seenAt y i j) : Int) : ℝ) := by
  unfold intFrameArith intArith
  rw [broadcastLen_fits hh, broadcastLen_fits hw, hc]
  refine ⟨_, rfl, rfl, rfl, fun i j _ _ => ?_⟩
  unfold seenAt
  cases op <;> simp [FrameOp.onReal, wantedInt]

/-- C130: frames whose shapes do not fit raise ValueError. -/
theorem C130_shapes (op : FrameOp) (dtype : Option IntPix) (a b : IntPix) (x y : Arr2 Int)
    (hn : (∀ h, ¬ Fits x.h y.h h) ∨ ∀ w, ¬ Fits x.w y.w w) :
    intFrameArith op false dtype a b x y = .error .valueError := by
  unfold intFrameArith intArith
  cases e1 : broadcastLen x.h y.h with
  | none => rfl
  | some h =>
    cases e2 : broadcastLen x.w y.w with
    | none => rfl
    | some w =>
      rcases hn with hn | hn
      · exact absurd (fits_of_broadcastLen e1) (hn h)
      · exact absurd (fits_of_broadcastLen e2) (hn w)

/-- C130: the frames of a camera minus a background of a signed type which holds camera values are right, for all
cameras of up to 32 bits; with an unsigned background (C111) every pixel darker than the background is wrong. -/
theorem C130_signed_background (n m : Nat) (hn : n = 8 ∨ n = 16 ∨ n = 32) (hm : StdInt ⟨true, m⟩) (x y : Arr2 Int)
    (hx : PixOf ⟨false, n⟩ x) (hy : PixOf ⟨true, m⟩ y) (hy' : PixOf ⟨false, n⟩ y) (h w : Nat)
    (hh : Fits x.h y.h h) (hw : Fits x.w y.w w) :
    ∃ t px, intFrameArith .sub false none ⟨false, n⟩ ⟨true, m⟩ x y = .ok (.ints t px) ∧ px.h = h ∧ px.w = w ∧
      ∀ i j, i < h → j < w → px.get i j = seenAt x i j - seenAt y i j := by
  obtain ⟨t, hc, hs, hb⟩ : ∃ t, commonInt ⟨false, n⟩ ⟨true, m⟩ = some t ∧ t.signed = true ∧ n < t.bits := by
    unfold commonInt
    by_cases h1 : n < m
    · exact ⟨⟨true, m⟩, by simp [h1], rfl, h1⟩
    · exact ⟨⟨true, 2 * n⟩, by simp [h1]; omega, rfl, by dsimp only; omega⟩
  have ha : StdInt ⟨false, n⟩ := by
    rcases hn with h | h | h <;> simp [StdInt, h]
  obtain ⟨px, e, e1, e2, -, hv⟩ := C130_arith .sub ⟨false, n⟩ ⟨true, m⟩ t ha hm hc x y hx hy h w hh hw
  refine ⟨t, px, e, e1, e2, fun i j hi hj => ?_⟩
  apply (hv i j hi hj).2.mpr
  have h1 : HoldsInt ⟨false, n⟩ (seenAt x i j) := seenAt_of hh hw hi hj hx
  have h2 : HoldsInt ⟨false, n⟩ (seenAt y i j) := seenAt_of (fits_comm hh) (fits_comm hw) hi hj hy'
  have hp : (2 : Int) ^ n ≤ 2 ^ (t.bits - 1) := (pow_le_pow_iff_right₀ (by norm_num)).mpr (by omega)
  unfold HoldsInt at *
  rw [hs]
  simp at h1 h2 ⊢
  unfold wantedInt
  dsimp only
  omega

/-- C130: in place, TypeError is raised for an unsigned frame and a signed background, and for a signed frame and
unsigned integers of 64 bits, whatever the shapes. -/
theorem C130_inplace_type (op : FrameOp) (dtype : Option IntPix) (a b : IntPix) (x y : Arr2 Int)
    (h : (a.signed = false ∧ b.signed = true) ∨ commonInt a b = none) :
    intFrameArith op true dtype a b x y = .error .typeError := by
  unfold intFrameArith intArithInplace
  rw [if_pos rfl]
  cases hc : commonInt a b with
  | none => rfl
  | some t =>
    rcases h with h | h
    · have hs : t.signed = true := by
        unfold commonInt at hc
        rw [h.1, h.2] at hc
        simp at hc
        split at hc
        · cases hc; rfl
        · split at hc
          · cases hc; rfl
          · cases hc
      dsimp only
      rw [if_pos ⟨hs, h.1⟩]
    · rw [h] at hc; cases hc

/-- C130: in place otherwise, if the background fits the frame, the frame keeps its type and gets the difference, sum
or product modulo its size; pixels are right exactly if their value is a number of its type.  If the background does
not fit, or the frame would have to grow, ValueError is raised. -/
theorem C130_inplace (op : FrameOp) (dtype : Option IntPix) (a b t : IntPix) (ha : StdInt a) (hb : StdInt b)
    (hc : commonInt a b = some t) (hk : a.signed = true ∨ b.signed = false) (x y : Arr2 Int) (hx : PixOf a x)
    (hy : PixOf b y) :
    (Fits x.h y.h x.h → Fits x.w y.w x.w →
      ∃ px, intFrameArith op true dtype a b x y = .ok (.ints a px) ∧ px.h = x.h ∧ px.w = x.w ∧ PixOf a px ∧
        ∀ i j, i < x.h → j < x.w →
          (∃ k : Int, px.get i j = wantedInt op (x.get i j) (seenAt y i j) + k * 2 ^ a.bits) ∧
          (px.get i j = wantedInt op (x.get i j) (seenAt y i j) ↔ HoldsInt a (wantedInt op (x.get i j) (seenAt y i j)))) ∧
    (¬ Fits x.h y.h x.h ∨ ¬ Fits x.w y.w x.w → intFrameArith op true dtype a b x y = .error .valueError) := by
  obtain ⟨ht, hcov, -⟩ := C130_type a b t ha hb hc
  have pt := std_pos ht
  have pa := std_pos ha
  have hs : ¬ (t.signed = true ∧ a.signed = false) := by
    rintro ⟨h1, h2⟩
    rcases hk with hk | hk
    · rw [hk] at h2; cases h2
    · unfold commonInt at hc
      rw [h2, hk] at hc
      simp at hc
      rw [← hc] at h1
      cases h1
  have hle : a.bits ≤ t.bits := by
    rcases (covers_iff a t pa pt).mp (fun v hv => hcov v (Or.inl hv)) with h | h <;> omega
  constructor
  · intro hh hw
    obtain ⟨px, e, e1, e2, hv⟩ := intArith_value op a b t ha hb hc x y hx hy x.h x.w hh hw
    refine ⟨⟨px.h, px.w, fun i j => toIntPix a (px.get i j)⟩, ?_, e1, e2, ?_, ?_⟩
    · unfold intFrameArith intArithInplace
      rw [if_pos rfl, hc]
      dsimp only
      rw [if_neg hs, e]
      simp only [bind, Except.bind]
      rw [if_neg (by omega)]
    · intro i j _ _
      exact toIntPix_range a pa _
    · intro i j hi hj
      dsimp only
      have hx0 : seenAt x i j = x.get i j := by
        unfold seenAt
        congr 1 <;> split <;> omega
      rw [hv i j hi hj, hx0]
      generalize wantedInt op (x.get i j) (seenAt y i j) = v
      obtain ⟨k1, h1⟩ := toIntPix_shift t v
      obtain ⟨k2, h2⟩ := toIntPix_shift a (toIntPix t v)
      have hex : ∃ k : Int, toIntPix a (toIntPix t v) = v + k * 2 ^ a.bits := by
        refine ⟨k2 + k1 * 2 ^ (t.bits - a.bits), ?_⟩
        have e3 : (2 : Int) ^ t.bits = 2 ^ (t.bits - a.bits) * 2 ^ a.bits := by
          rw [← pow_add, Nat.sub_add_cancel hle]
        rw [h2, h1, e3]
        ring
      refine ⟨hex, fun h => ?_, fun h => ?_⟩
      · rw [← h]
        exact toIntPix_range a pa _
      · obtain ⟨k, hk⟩ := hex
        exact holds_unique pa (toIntPix_range a pa _) h k hk
  · intro hn
    unfold intFrameArith intArithInplace
    rw [if_pos rfl, hc]
    dsimp only
    rw [if_neg hs]
    unfold intArith
    cases e1 : broadcastLen x.h y.h with
    | none => rfl
    | some h =>
      cases e2 : broadcastLen x.w y.w with
      | none => rfl
      | some w =>
        rw [hc]
        simp only [bind, Except.bind]
        rw [if_pos]
        have f1 := fits_of_broadcastLen e1
        have f2 := fits_of_broadcastLen e2
        by_contra hne
        push Not at hne
        rw [hne.1] at f1
        rw [hne.2] at f2
        rcases hn with hn | hn
        · exact hn f1
        · exact hn f2

/-- C130: adding the background again restores the frame, in spite of wrap-around, for all integer types. -/
theorem C130_restores (a b t : IntPix) (ha : StdInt a) (hb : StdInt b) (hc : commonInt a b = some t)
    (x y : Arr2 Int) (hx : PixOf a x) (hy : PixOf b y) (h w : Nat) (hh : Fits x.h y.h h) (hw : Fits x.w y.w w) :
    ∃ d r, intFrameArith .sub false none a b x y = .ok (.ints t d) ∧
      intFrameArith .add false none t b d y = .ok (.ints t r) ∧ r.h = h ∧ r.w = w ∧
      ∀ i j, i < h → j < w → r.get i j = seenAt x i j := by
  obtain ⟨ht, hcov, -⟩ := C130_type a b t ha hb hc
  have pt := std_pos ht
  obtain ⟨d, e, e1, e2, hd, hv⟩ := C130_arith .sub a b t ha hb hc x y hx hy h w hh hw
  have hc2 : commonInt t b = some t := by
    have hcb := (covers_iff b t (std_pos hb) pt).mp fun v hv => hcov v (Or.inr hv)
    obtain ⟨ts, tn⟩ := t
    obtain ⟨bs, bn⟩ := b
    unfold commonInt
    cases ts <;> cases bs <;> simp at hcb ⊢ <;> omega
  have hh' : Fits d.h y.h h := by unfold Fits at *; omega
  have hw' : Fits d.w y.w w := by unfold Fits at *; omega
  obtain ⟨r, f, f1, f2, hr, hv2⟩ := C130_arith .add t b t ht hb hc2 d y hd hy h w hh' hw'
  refine ⟨d, r, e, f, f1, f2, fun i j hi hj => ?_⟩
  obtain ⟨k1, hk1⟩ := (hv i j hi hj).1
  obtain ⟨k2, hk2⟩ := (hv2 i j hi hj).1
  have hd0 : seenAt d i j = d.get i j := by
    unfold seenAt
    congr 1 <;> split <;> omega
  have h1 : HoldsInt a (seenAt x i j) := seenAt_of hh hw hi hj hx
  apply holds_unique pt (hr i j (by omega) (by omega)) (hcov _ (Or.inl h1)) (k1 + k2)
  rw [hk2, hd0]
  unfold wantedInt at *
  dsimp only at *
  rw [hk1]
  ring

/-- C130: frames of signed integers wrap around too, and in place a wide background is cut silently. -/
theorem C130_wraps : (∃ px, intFrameArith .sub false none ⟨true, 8⟩ ⟨true, 8⟩ ⟨1, 1, fun _ _ => 100⟩ ⟨1, 1, fun _ _ => -100⟩
      = .ok (.ints ⟨true, 8⟩ px) ∧ px.get 0 0 = -56) ∧
    ∃ px, intFrameArith .add true none ⟨true, 8⟩ ⟨true, 16⟩ ⟨1, 1, fun _ _ => 1⟩ ⟨1, 1, fun _ _ => 256⟩
      = .ok (.ints ⟨true, 8⟩ px) ∧ px.get 0 0 = 1 :=
  ⟨⟨_, rfl, by decide⟩, ⟨_, rfl, by decide⟩⟩

/-- A frame of two rows of a camera of 8 bits minus one row of signed background. -/
example : ∃ t px, intFrameArith .sub false none ⟨false, 8⟩ ⟨true, 16⟩ ⟨2, 3, fun i j => 100 * i + j⟩ ⟨1, 3, fun _ j => 50 + j⟩
      = .ok (.ints t px) ∧ px.get 0 2 = -50 ∧ px.get 1 2 = 50 := by
  obtain ⟨t, px, e, -, -, hv⟩ := C130_signed_background 8 16 (by simp) (by simp [StdInt])
    ⟨2, 3, fun i j => 100 * i + j⟩ ⟨1, 3, fun _ j => 50 + j⟩
    (by intro i j hi hj; simp [HoldsInt] at *; omega) (by intro i j hi hj; simp [HoldsInt] at *; omega)
    (by intro i j hi hj; simp [HoldsInt] at *; omega) 2 3 (by simp [Fits]) (by simp [Fits])
  refine ⟨t, px, e, ?_, ?_⟩
  · rw [hv 0 2 (by omega) (by omega)]; simp [seenAt]
  · rw [hv 1 2 (by omega) (by omega)]; simp [seenAt]

/-- In place the same raises TypeError. -/
example : intFrameArith .sub true none ⟨false, 8⟩ ⟨true, 16⟩ ⟨2, 3, fun i j => 100 * i + j⟩ ⟨1, 3, fun _ j => 50 + j⟩
      = .error .typeError := C130_inplace_type _ _ _ _ _ _ (by simp)

/-- A frame of one row cannot grow to two in place. -/
example : intFrameArith .sub true none ⟨true, 8⟩ ⟨true, 8⟩ ⟨1, 2, fun _ _ => 1⟩ ⟨2, 2, fun _ _ => 2⟩ = .error .valueError :=
  (C130_inplace .sub none ⟨true, 8⟩ ⟨true, 8⟩ ⟨true, 8⟩ (by simp [StdInt]) (by simp [StdInt]) rfl (by simp)
    ⟨1, 2, fun _ _ => 1⟩ ⟨2, 2, fun _ _ => 2⟩ (by intro i j _ _; simp [HoldsInt]) (by intro i j _ _; simp [HoldsInt])).2
    (by simp [Fits])

end Cddm
