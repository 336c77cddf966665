import Verif.Lemmas.Fold
import Mathlib.Tactic.FinCases

/-!
# C29, C71: folding, equalising, shifting and selecting correlation data

Complex correlation data of length `2 n - 1`: delay `k` is in cell `k`, delay `-k` in cell
`2 n - 1 - k`.
-/

namespace Cddm

section
variable (n : Nat) (hn : 1 ≤ n) (data : List (Cx ℝ)) (hd : data.length = 2 * n - 1)
include hn hd

/-- `fold_data(mode=0)`: the mean of the value and the conjugated mirror value. -/
theorem C29_fold_mean :
    ∃ r, foldData (.cplx data) 0 = .ok r ∧ r.length = n ∧ r[0]? = data[0]? ∧
      ∀ k (_ : 1 ≤ k) (_ : k < n), ∃ x y, data[k]? = some x ∧ data[2 * n - 1 - k]? = some y ∧
        r[k]? = some ((1 / 2 : ℝ) • (x + y.conj)) := by
  obtain ⟨h1, h2, h3⟩ := halves hn data hd
  obtain ⟨n1, n2⟩ := neg_half data hd
  have hs : sliceUp data.length 0 ((n : Nat) : Int) = List.range' 0 n := by
    have := sliceUp_nat data.length 0 n (by omega) (by omega)
    simpa using this
  obtain ⟨o1, o2⟩ := takeIdx_eq data (List.range' 0 n) (by
    intro i hi; rw [List.mem_range'_1] at hi; omega)
  have o2' : ∀ k, k < n → (takeIdx data (List.range' 0 n))[k]? = data[k]? := by
    intro k hk
    exact o2 k k (by rw [getElem?_range' _ _ _ hk]; simp)
  have o1' : (takeIdx data (List.range' 0 n)).length = n := by simpa using o1
  unfold foldData
  simp only [h1, h3, hs]
  rw [if_neg (by simp)]
  simp only [ge_iff_le, le_refl, if_true]
  generalize takeIdx data (List.range' 0 n) = out at o1' o2'
  generalize takeIdx data ((List.range (n - 1)).map fun i => data.length - 1 - i) = neg at n1 n2
  have hi : sliceUp out.length 1 (out.length : Int) = List.range' 1 (n - 1) := by
    have := sliceUp_nat out.length 1 out.length (by omega) (by omega)
    rw [o1'] at this ⊢
    simpa using this
  have key : ∀ o : List (Cx ℝ), o.length = n → (takeIdx o (List.range' 1 (n - 1))).length = n - 1 ∧
      ∀ k, 1 ≤ k → k < n → (takeIdx o (List.range' 1 (n - 1)))[k - 1]? = o[k]? := by
    intro o ho
    obtain ⟨p1, p2⟩ := takeIdx_eq o (List.range' 1 (n - 1)) (by
      intro i hi; rw [List.mem_range'_1] at hi; omega)
    refine ⟨by simpa using p1, fun k hk hk' => ?_⟩
    have := p2 (k - 1) (1 + (k - 1)) (getElem?_range' _ _ _ (by omega))
    rwa [show 1 + (k - 1) = k by omega] at this
  obtain ⟨t1, t2⟩ := key out o1'
  rw [hi, if_pos (by rw [t1, List.length_map, n1])]
  obtain ⟨r1, e1, l1, f1, g1⟩ := assignIdx_eq out (List.range' 1 (n - 1))
    (List.zipWith (· + ·) (takeIdx out (List.range' 1 (n - 1))) (neg.map Cx.conj))
    (by simp [t1, n1]) (List.nodup_range') (by intro i hi; rw [List.mem_range'_1] at hi; omega)
  simp only [e1, bind, Except.bind]
  obtain ⟨u1, u2⟩ := key r1 (by omega)
  obtain ⟨r2, e2, l2, f2, g2⟩ := assignIdx_eq r1 (List.range' 1 (n - 1))
    ((takeIdx r1 (List.range' 1 (n - 1))).map fun x => (1 / 2 : ℝ) • x)
    (by simp [u1]) (List.nodup_range') (by intro i hi; rw [List.mem_range'_1] at hi; omega)
  refine ⟨r2, e2, by omega, ?_, ?_⟩
  · rw [f2 0 (by simp), f1 0 (by simp), o2' 0 (by omega)]
  · intro k hk hk'
    have hidx : (List.range' 1 (n - 1))[k - 1]? = some k := by
      rw [getElem?_range' _ _ _ (by omega)]; congr 1; omega
    have hx := List.getElem?_eq_getElem (l := data) (i := k) (by omega)
    have hy := List.getElem?_eq_getElem (l := data) (i := 2 * n - 1 - k) (by omega)
    refine ⟨_, _, hx, hy, ?_⟩
    rw [g2 _ _ hidx, List.getElem?_map, u2 k hk hk', g1 _ _ hidx, List.getElem?_zipWith,
      t2 k hk hk', o2' k hk', hx, List.getElem?_map, n2 k hk hk', hy]
    rfl

/-- `fold_data(mode=1)`: the branch of the positive delays. -/
theorem C29_fold_positive :
    ∃ r, foldData (.cplx data) 1 = .ok r ∧ r.length = n ∧ ∀ k < n, r[k]? = data[k]? := by
  obtain ⟨h1, h2, h3⟩ := halves hn data hd
  have hs : sliceUp data.length 0 ((n : Nat) : Int) = List.range' 0 n := by
    have := sliceUp_nat data.length 0 n (by omega) (by omega)
    simpa using this
  obtain ⟨o1, o2⟩ := takeIdx_eq data (List.range' 0 n) (by
    intro i hi; rw [List.mem_range'_1] at hi; omega)
  refine ⟨takeIdx data (List.range' 0 n), ?_, by simpa using o1, ?_⟩
  · simp only [foldData, h1, hs]
    rw [if_neg (by simp)]
    simp
  · intro k hk
    exact o2 k k (by rw [getElem?_range' _ _ _ hk]; simp)

/-- `fold_data(mode=-1)`: what the code returns.  Cell 0 is right.
Missing: cell `k` should hold delay `-k`; it holds delay `-(k+1)`, and the last cell the largest
positive delay (`C29_fold_negative_refuted`). -/
theorem C29_fold_negative_partial :
    ∃ r, foldData (.cplx data) (-1) = .ok r ∧ r.length = n ∧ r[0]? = data[0]? ∧
      (∀ k, 1 ≤ k → k < n → r[k]? = data[2 * n - 1 - (k + 1)]?) ∧
      (2 ≤ n → r[n - 1]? = data[n - 1]?) := by
  obtain ⟨h1, h2, h3⟩ := halves hn data hd
  have hs : sliceDown data.length (-1) (-((n : Nat) : Int) - 1)
      = (List.range n).map fun i => data.length - 1 - i := by
    have := sliceDown_neg data.length 1 (n + 1) (by omega) (by omega) (by omega)
    simp only [Nat.cast_one, Nat.cast_add, Nat.add_sub_cancel] at this
    rw [← this]
    congr 1
    ring
  obtain ⟨o1, o2⟩ := takeIdx_eq data ((List.range n).map fun i => data.length - 1 - i) (by
    intro i hi
    obtain ⟨j, hj, rfl⟩ := List.mem_map.mp hi
    rw [List.mem_range] at hj; omega)
  have hf : foldData (.cplx data) (-1)
      = match data with
        | [] => .error .indexError
        | d :: _ => .ok ((takeIdx data ((List.range n).map fun i => data.length - 1 - i)).set 0 d) := by
    simp only [foldData, h1, hs]
    rw [if_neg (by simp), if_neg (by simp)]
    cases data <;> rfl
  have hc : ∀ k, 1 ≤ k → k < n →
      (takeIdx data ((List.range n).map fun i => data.length - 1 - i))[k]? = data[2 * n - 1 - (k + 1)]? := by
    intro k hk hk'
    have := o2 k (data.length - 1 - k) (getElem?_down _ _ _ _ hk')
    rwa [show data.length - 1 - k = 2 * n - 1 - (k + 1) by omega] at this
  have hlen : (takeIdx data ((List.range n).map fun i => data.length - 1 - i)).length = n := by
    simpa using o1
  rw [hf]
  generalize takeIdx data ((List.range n).map fun i => data.length - 1 - i) = out at hc hlen
  cases data with
  | nil => simp at hd; omega
  | cons d l =>
    refine ⟨out.set 0 d, rfl, by simpa using hlen, ?_, ?_, ?_⟩
    · rw [List.getElem?_set_self (by omega)]; simp
    · intro k hk hk'
      rw [List.getElem?_set_ne (by omega)]
      exact hc k hk hk'
    · intro h2
      rw [List.getElem?_set_ne (by omega), hc (n - 1) (by omega) (by omega)]
      congr 1
      omega

end

example : ([1, ⟨2, 1⟩, 3, 4, 5] : List (Cx ℝ)).length = 2 * 3 - 1 := rfl

/-- Data with delays 0, 1, 2, -2, -1: the negative branch should be 0, -1, -2. -/
theorem C29_fold_negative_refuted :
    ∃ data : List (Cx ℝ), data.length = 2 * 3 - 1 ∧
      ¬ ∃ r, foldData (.cplx data) (-1) = .ok r ∧
        ∀ k, 1 ≤ k → k < 3 → r[k]? = data[2 * 3 - 1 - k]? := by
  refine ⟨[⟨10, 0⟩, ⟨11, 0⟩, ⟨12, 0⟩, ⟨-12, 0⟩, ⟨-11, 0⟩], rfl, ?_⟩
  rintro ⟨r, hr, h⟩
  obtain ⟨r', hr', -, -, h', -⟩ := C29_fold_negative_partial 3 (by omega)
    [⟨10, 0⟩, ⟨11, 0⟩, ⟨12, 0⟩, ⟨-12, 0⟩, ⟨-11, 0⟩] rfl
  rw [hr] at hr'
  obtain rfl := Except.ok.inj hr'
  have e1 := h 1 (by omega) (by omega)
  have e2 := h' 1 (by omega) (by omega)
  rw [e1] at e2
  simp at e2

/-- Real data and unknown modes are refused. -/
theorem C29_fold_rejects (data : List (Cx ℝ)) (x : List ℝ) (mode : Int) :
    foldData (.real x) mode = .error .valueError ∧
      (mode ≠ 0 → mode ≠ 1 → mode ≠ -1 → foldData (.cplx data) mode = .error .valueError) ∧
      (∀ out, equalizeData (.real x) out = .error .valueError) ∧
      (∀ out, shiftData (.real x) out = .error .valueError) := by
  refine ⟨rfl, ?_, fun _ => rfl, fun _ => rfl⟩
  intro h0 h1 h2
  simp only [foldData]
  rw [if_pos (by simp [h0, h1, h2])]

section
variable (n : Nat) (hn : 1 ≤ n) (data out : List (Cx ℝ)) (hd : data.length = 2 * n - 1)
  (ho : out.length = data.length)
include hn hd ho

/-- `equalize_data` returns Hermitian-symmetric data: delay 0 real, delay `-k` the conjugate of
delay `k`, the square of either the product of the value and the conjugated mirror value.  The
content of the new array does not matter. -/
theorem C29_equalize :
    ∃ r, equalizeData (.cplx data) out = .ok r ∧ r.length = data.length ∧
      r[0]? = data[0]?.map (fun z => Cx.ofR z.modulus) ∧
      ∀ k (_ : 1 ≤ k) (_ : k < n), ∃ x y s, data[k]? = some x ∧ data[2 * n - 1 - k]? = some y ∧
        r[k]? = some s ∧ r[2 * n - 1 - k]? = some s.conj ∧ s * s = x * y.conj ∧ 0 ≤ s.re := by
  obtain ⟨h1, h2, h3⟩ := halves hn data hd
  obtain ⟨p1, p2⟩ := pos_half data hd
  obtain ⟨n1, n2⟩ := neg_half data hd
  simp only [equalizeData, h1, h2, h3]
  obtain ⟨r, e, l, z, w⟩ := write_halves hn data out
    ((List.zipWith (fun p q => p * q) (takeIdx data (List.range' 1 (n - 1)))
      ((takeIdx data ((List.range (n - 1)).map fun i => data.length - 1 - i)).map Cx.conj)).map Cx.sqrt)
    (((List.zipWith (fun p q => p * q) (takeIdx data (List.range' 1 (n - 1)))
      ((takeIdx data ((List.range (n - 1)).map fun i => data.length - 1 - i)).map Cx.conj)).map Cx.sqrt).map
        Cx.conj) hd ho (by simp [p1, n1]) (by simp [p1, n1])
  refine ⟨r, e, l, z, ?_⟩
  intro k hk hk'
  obtain ⟨w1, w2⟩ := w k hk hk'
  have hx := List.getElem?_eq_getElem (l := data) (i := k) (by omega)
  have hy := List.getElem?_eq_getElem (l := data) (i := 2 * n - 1 - k) (by omega)
  refine ⟨_, _, Cx.sqrt (data[k] * (data[2 * n - 1 - k]).conj), hx, hy, ?_, ?_,
    Cx.sqrt_mul_self _, Real.sqrt_nonneg _⟩
  · rw [w1]
    simp only [List.getElem?_map, List.getElem?_zipWith, p2 k hk hk', n2 k hk hk', hx, hy]
    rfl
  · rw [w2]
    simp only [List.getElem?_map, List.getElem?_zipWith, p2 k hk hk', n2 k hk hk', hx, hy]
    rfl

/-- `shift_data`: moduli are kept, delay 0 becomes real, and delay `-k` gets the opposite phase of
delay `k`. -/
theorem C29_shift :
    ∃ r, shiftData (.cplx data) out = .ok r ∧ r.length = data.length ∧
      r[0]? = data[0]?.map (fun z => Cx.ofR z.modulus) ∧
      ∀ k (_ : 1 ≤ k) (_ : k < n), ∃ x y u, data[k]? = some x ∧ data[2 * n - 1 - k]? = some y ∧
        r[k]? = some (x.modulus • u) ∧ r[2 * n - 1 - k]? = some (y.modulus • u.conj) ∧
        u.abs2 = 1 ∧ u = Cx.expI ((x.phase - y.conj.phase) / 2) := by
  obtain ⟨h1, h2, h3⟩ := halves hn data hd
  obtain ⟨p1, p2⟩ := pos_half data hd
  obtain ⟨n1, n2⟩ := neg_half data hd
  simp only [shiftData, h1, h2, h3]
  obtain ⟨r, e, l, z, w⟩ := write_halves hn data out
    (List.zipWith (fun p e => p.modulus • e) (takeIdx data (List.range' 1 (n - 1)))
      (((takeIdx data (List.range' 1 (n - 1))).zip
        ((takeIdx data ((List.range (n - 1)).map fun i => data.length - 1 - i)).map Cx.conj)).map
          fun (p, q) => Cx.expI ((p.phase - q.phase) / 2)))
    (List.zipWith (fun q e => q.modulus • Cx.conj e)
      ((takeIdx data ((List.range (n - 1)).map fun i => data.length - 1 - i)).map Cx.conj)
      (((takeIdx data (List.range' 1 (n - 1))).zip
        ((takeIdx data ((List.range (n - 1)).map fun i => data.length - 1 - i)).map Cx.conj)).map
          fun (p, q) => Cx.expI ((p.phase - q.phase) / 2)))
    hd ho (by simp [p1, n1]) (by simp [p1, n1])
  refine ⟨r, e, l, z, ?_⟩
  intro k hk hk'
  obtain ⟨w1, w2⟩ := w k hk hk'
  have hx := List.getElem?_eq_getElem (l := data) (i := k) (by omega)
  have hy := List.getElem?_eq_getElem (l := data) (i := 2 * n - 1 - k) (by omega)
  refine ⟨_, _, Cx.expI ((data[k].phase - (data[2 * n - 1 - k]).conj.phase) / 2), hx, hy, ?_, ?_, ?_, rfl⟩
  · rw [w1]
    simp only [List.getElem?_map, List.getElem?_zipWith, List.zip, p2 k hk hk', n2 k hk hk', hx, hy]
    rfl
  · rw [w2]
    have hm : (data[2 * n - 1 - k]).conj.modulus = (data[2 * n - 1 - k]).modulus := by
      simp [Cx.modulus]
    simp only [List.getElem?_map, List.getElem?_zipWith, List.zip, p2 k hk hk', n2 k hk hk', hx, hy,
      Option.map_some, hm]
  · simp only [Cx.abs2, Cx.expI]
    have := Real.sin_sq_add_cos_sq ((data[k].phase - (data[2 * n - 1 - k]).conj.phase) / 2)
    linear_combination this

end

/-! ### `take_data` -/

/-- Numbers of the selected pixels, in order. -/
def Spec.selected (mask : List Bool) : List Nat :=
  (List.range mask.length).filter fun i => mask[i]? = some true

theorem takePixels_eq {α : Type} (mask : List Bool) (x : List α) (h : mask.length = x.length) :
    takePixels mask x = .ok ((Spec.selected mask).filterMap fun i => x[i]?) := by
  rw [takePixels, if_pos h]
  congr 1
  unfold Spec.selected
  induction mask generalizing x with
  | nil => cases x <;> simp at h ⊢
  | cons m mask ih =>
    cases x with
    | nil => simp at h
    | cons v x =>
      rw [List.length_cons, List.range_succ_eq_map, List.zip_cons_cons, List.filterMap_cons]
      have := ih x (by simpa using h)
      rw [List.filter_cons, List.filter_map]
      cases m
      · simp only [Bool.false_eq_true, if_false, List.getElem?_cons_zero, Option.some.injEq,
          decide_false, List.filterMap_map]
        rw [this]
        rfl
      · simp only [if_true, List.getElem?_cons_zero, decide_true, List.filterMap_cons,
          List.filterMap_map]
        rw [this]
        rfl

/-- `take_data` keeps the selected pixels of every array present, and the counts. -/
theorem C29_take {C : Type} (d : PixelData C) (mask : List Bool)
    (h1 : mask.length = d.cor.length) (h2 : ∀ x, d.sq = some x → mask.length = x.length)
    (h3 : ∀ x, d.s1 = some x → mask.length = x.length)
    (h4 : ∀ x, d.s2 = some x → mask.length = x.length) :
    takeData d mask = .ok
      { cor := (Spec.selected mask).filterMap fun i => d.cor[i]?
        count := d.count
        sq := d.sq.map fun x => (Spec.selected mask).filterMap fun i => x[i]?
        s1 := d.s1.map fun x => (Spec.selected mask).filterMap fun i => x[i]?
        s2 := d.s2.map fun x => (Spec.selected mask).filterMap fun i => x[i]? } := by
  have key : ∀ {α : Type} (x : Option (List α)), (∀ y, x = some y → mask.length = y.length) →
      takeOpt mask x = .ok (x.map fun x => (Spec.selected mask).filterMap fun i => x[i]?) := by
    intro α x h
    cases x with
    | none => rfl
    | some x => simp only [takeOpt, takePixels_eq mask x (h x rfl), Except.map, Option.map_some]
  simp only [takeData, takePixels_eq mask d.cor h1, key d.sq h2, key d.s1 h3, key d.s2 h4, bind,
    Except.bind]

/-- A mask of another size is refused. -/
theorem C29_take_rejects {C : Type} (d : PixelData C) (mask : List Bool)
    (h : mask.length ≠ d.cor.length) : takeData d mask = .error .indexError := by
  simp only [takeData, takePixels, if_neg h, bind, Except.bind]

example : takeData ⟨[[1, 2], [3, 4], [5, (6 : ℤ)]], [9, 8], none, none, none⟩ [true, false, true]
    = .ok ⟨[[1, 2], [5, 6]], [9, 8], none, none, none⟩ := rfl

/-! ### C71 -/

/-- Data without misalignment: delay 0 a non-negative number, delay `-k` the conjugate of delay
`k`. -/
def Spec.Aligned (n : Nat) (data : List (Cx ℝ)) : Prop :=
  data.length = 2 * n - 1 ∧ (∃ z, data[0]? = some z ∧ z.im = 0 ∧ 0 ≤ z.re) ∧
    ∀ k, 1 ≤ k → k < n → data[2 * n - 1 - k]? = data[k]?.map Cx.conj

theorem Cx.modulus_real (z : Cx ℝ) (h : z.im = 0) (h0 : 0 ≤ z.re) : Cx.ofR z.modulus = z := by
  apply Cx.ext
  · simp only [Cx.modulus, h, mul_zero, add_zero, Cx.ofR_re]
    exact Real.sqrt_mul_self h0
  · simp [h]

theorem Cx.sqrt_sq (z : Cx ℝ) (h : 0 < z.re ∨ (z.re = 0 ∧ 0 ≤ z.im)) : Cx.sqrt (z * z) = z := by
  have hm : (z * z).modulus = z.re * z.re + z.im * z.im := by
    unfold Cx.modulus
    rw [Cx.mul_re, Cx.mul_im, show (z.re * z.re - z.im * z.im) * (z.re * z.re - z.im * z.im)
      + (z.re * z.im + z.im * z.re) * (z.re * z.im + z.im * z.re)
      = (z.re * z.re + z.im * z.im) ^ 2 by ring, Real.sqrt_sq]
    nlinarith [mul_self_nonneg z.re, mul_self_nonneg z.im]
  have h0 : 0 ≤ z.re := by rcases h with h | h <;> linarith
  apply Cx.ext
  · unfold Cx.sqrt
    dsimp only
    rw [hm, Cx.mul_re, show (z.re * z.re + z.im * z.im + (z.re * z.re - z.im * z.im)) / 2
      = z.re * z.re by ring, Real.sqrt_mul_self h0]
  · unfold Cx.sqrt
    dsimp only
    rw [hm, Cx.mul_re, Cx.mul_im, show (z.re * z.re + z.im * z.im - (z.re * z.re - z.im * z.im)) / 2
      = z.im * z.im by ring, Real.sqrt_mul_self_eq_abs]
    rcases h with h | ⟨h, h'⟩
    · split
      · next hneg =>
        have : z.im < 0 := by nlinarith
        rw [abs_of_neg this]; ring
      · next hpos =>
        have : 0 ≤ z.im := by nlinarith
        rw [abs_of_nonneg this]
    · rw [h, if_neg (by simp), abs_of_nonneg h']

/-- `equalize_data` leaves aligned data unchanged as long as their real parts are positive.
Missing: aligned data with a negative real part, whose sign it changes
(`C71_equalize_refuted`). -/
theorem C71_equalize_partial (n : Nat) (hn : 1 ≤ n) (data out : List (Cx ℝ))
    (ho : out.length = data.length) (h : Spec.Aligned n data)
    (hp : ∀ k z, 1 ≤ k → k < n → data[k]? = some z → 0 < z.re) :
    equalizeData (.cplx data) out = .ok data := by
  obtain ⟨hd, ⟨z, hz, hz1, hz2⟩, hs⟩ := h
  obtain ⟨h1, h2, h3⟩ := halves hn data hd
  obtain ⟨p1, p2⟩ := pos_half data hd
  obtain ⟨n1, n2⟩ := neg_half data hd
  simp only [equalizeData, h1, h2, h3]
  obtain ⟨r, e, l, z', w⟩ := write_halves hn data out
    ((List.zipWith (fun p q => p * q) (takeIdx data (List.range' 1 (n - 1)))
      ((takeIdx data ((List.range (n - 1)).map fun i => data.length - 1 - i)).map Cx.conj)).map Cx.sqrt)
    (((List.zipWith (fun p q => p * q) (takeIdx data (List.range' 1 (n - 1)))
      ((takeIdx data ((List.range (n - 1)).map fun i => data.length - 1 - i)).map Cx.conj)).map Cx.sqrt).map
        Cx.conj) hd ho (by simp [p1, n1]) (by simp [p1, n1])
  have hr : r = data := by
    apply List.ext_getElem?
    intro i
    by_cases h0 : i = 0
    · subst h0
      rw [z', hz, Option.map_some, Cx.modulus_real z hz1 hz2]
    have hcell : ∀ k, 1 ≤ k → k < n → r[k]? = data[k]? ∧ r[2 * n - 1 - k]? = data[2 * n - 1 - k]? := by
      intro k hk hk'
      obtain ⟨w1, w2⟩ := w k hk hk'
      have hx := List.getElem?_eq_getElem (l := data) (i := k) (by omega)
      have hy := hs k hk hk'
      rw [hx] at hy
      have key : Cx.sqrt (data[k] * data[k]) = data[k] :=
        Cx.sqrt_sq _ (Or.inl (hp k _ hk hk' hx))
      rw [w1, w2]
      simp only [List.getElem?_map, List.getElem?_zipWith, p2 k hk hk', n2 k hk hk', hx, hy,
        Option.map_some, Cx.conj_conj, key]
      exact ⟨trivial, trivial⟩
    by_cases hi : i < n
    · exact (hcell i (by omega) hi).1
    · by_cases hi2 : i < 2 * n - 1
      · have := (hcell (2 * n - 1 - i) (by omega) (by omega)).2
        rwa [show 2 * n - 1 - (2 * n - 1 - i) = i by omega] at this
      · rw [List.getElem?_eq_none (by omega), List.getElem?_eq_none (by omega)]
  rw [← hr] at e ⊢
  rw [hr] at e ⊢
  exact e

/-- Aligned data with positive real parts. -/
example : Spec.Aligned 2 [⟨2, 0⟩, ⟨1, 1⟩, ⟨1, -1⟩] := by
  refine ⟨rfl, ⟨_, rfl, rfl, by norm_num⟩, ?_⟩
  intro k hk hk'
  obtain rfl : k = 1 := by omega
  rfl

/-- Aligned data `1, -1, -1` are turned into `1, 1, 1`. -/
theorem C71_equalize_refuted :
    ∃ data, Spec.Aligned 2 data ∧ equalizeData (.cplx data) data ≠ .ok data := by
  refine ⟨[⟨1, 0⟩, ⟨-1, 0⟩, ⟨-1, 0⟩], ⟨rfl, ⟨_, rfl, rfl, by norm_num⟩, ?_⟩, ?_⟩
  · intro k hk hk'
    obtain rfl : k = 1 := by omega
    simp [Cx.conj]
  · intro h
    obtain ⟨r, hr, -, -, hk⟩ := C29_equalize 2 (by omega) [⟨1, 0⟩, ⟨-1, 0⟩, ⟨-1, 0⟩]
      [⟨1, 0⟩, ⟨-1, 0⟩, ⟨-1, 0⟩] rfl rfl
    rw [h] at hr
    obtain rfl := Except.ok.inj hr
    obtain ⟨x, y, s, -, -, hs, -, -, h0⟩ := hk 1 (by omega) (by omega)
    simp at hs
    rw [← hs] at h0
    norm_num at h0

/-- `shift_data` of aligned data returns the moduli: it removes the phase of the data, not that of
the misalignment. -/
theorem C71_shift_refuted :
    ∃ data, Spec.Aligned 2 data ∧ shiftData (.cplx data) data ≠ .ok data := by
  refine ⟨[⟨1, 0⟩, ⟨0, 1⟩, ⟨0, -1⟩], ⟨rfl, ⟨_, rfl, rfl, by norm_num⟩, ?_⟩, ?_⟩
  · intro k hk hk'
    obtain rfl : k = 1 := by omega
    simp [Cx.conj]
  · intro h
    obtain ⟨r, hr, -, -, hk⟩ := C29_shift 2 (by omega) [⟨1, 0⟩, ⟨0, 1⟩, ⟨0, -1⟩]
      [⟨1, 0⟩, ⟨0, 1⟩, ⟨0, -1⟩] rfl rfl
    rw [h] at hr
    obtain rfl := Except.ok.inj hr
    obtain ⟨x, y, u, hx, hy, hs, -, -, hu⟩ := hk 1 (by omega) (by omega)
    simp at hx hy
    have e : x.phase - y.conj.phase = 0 := by
      rw [← hx, ← hy]
      simp [Cx.conj]
    rw [e] at hu
    simp only [zero_div, Cx.expI, Real.cos_zero, Real.sin_zero] at hu
    rw [hu] at hs
    simp at hs
    have := congrArg Cx.im hs
    simp at this

/-- For every aligned data `shift_data` returns their moduli. -/
theorem C71_shift_actual (n : Nat) (hn : 1 ≤ n) (data out : List (Cx ℝ))
    (ho : out.length = data.length) (h : Spec.Aligned n data) :
    ∃ r, shiftData (.cplx data) out = .ok r ∧ ∀ k < n, r[k]? = data[k]?.map fun z => Cx.ofR z.modulus := by
  obtain ⟨hd, -, hs⟩ := h
  obtain ⟨r, hr, -, h0, hk⟩ := C29_shift n hn data out hd ho
  refine ⟨r, hr, ?_⟩
  intro k hk'
  by_cases hk0 : k = 0
  · subst hk0; exact h0
  obtain ⟨x, y, u, hx, hy, h1, -, -, hu⟩ := hk k (by omega) hk'
  have := hs k (by omega) hk'
  rw [hx, hy] at this
  simp at this
  rw [h1, hx, Option.map_some]
  congr 1
  rw [hu, this, Cx.conj_conj, sub_self, zero_div]
  apply Cx.ext <;> simp [Cx.expI]

end Cddm
