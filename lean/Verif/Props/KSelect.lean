import Verif.Lemmas.KSelect
import Verif.Props.Sector
import Verif.Props.Rfft2

/-!
# k-selection (C52)
-/

namespace Cddm
open Spec

variable {V : Type} [AddCommGroup V] [Module ℝ V]

theorem averages_congr {kval kval' : Nat → Nat → ℝ} (f : Nat → Nat → Option V)
    (S : Finset (Nat × Nat)) (h : ∀ p ∈ S, kval p.1 p.2 = kval' p.1 p.2) :
    averages kval f S = averages kval' f S := by
  unfold averages
  rw [Finset.sum_congr rfl h]

theorem le_foldl_maxInt (l : List Int) (x : Int) : x ≤ l.foldl max x ∧ ∀ y ∈ l, y ≤ l.foldl max x := by
  induction l generalizing x with
  | nil => simp
  | cons z l ih =>
    obtain ⟨h1, h2⟩ := ih (max x z)
    refine ⟨le_trans (le_max_left _ _) h1, ?_⟩
    intro y hy
    rcases List.mem_cons.mp hy with rfl | hy
    · exact le_trans (le_max_right _ _) h1
    · exact h2 y hy

/-- C52, full-space data (`mode = "fft2"`): for a list of `k` (rounded to the nearest bin), and for
missing `k`, the result is the list of mean wave number and mean data of every bin that is not
empty; only cells inside the mask count, and data that hold only these cells give the same result.

Missing, because false of the code: a single `k` (`C52_one_false`) and half-space data
(`C52_rfft2_false`). -/
theorem C52_fft2_many_partial (conj : V → V) (full : Arr2 (Option V)) (data : KData V)
    (mask : Option (Arr2 Bool)) (angle sector kstep : ℝ) (shape : Option (Nat × Nat))
    (hpos : ∀ s, shape = some s → 0 < s.1 ∧ 0 < s.2) (hh : 0 < full.h) (hw : 0 < full.w)
    (h1 : -180 ≤ angle) (h2 : angle ≤ 180) (h3 : 0 < sector) (h4 : sector ≤ 180) (hs : 0 < kstep)
    (hmask : ∀ m, mask = some m → m.h = full.h ∧ m.w = full.w)
    (hdata : data = .grid full ∨ ∃ m, mask = some m ∧ data = .flat (maskedCells full m)) :
    ∃ (imap : Arr2 Int) (kval : Nat → Nat → ℝ),
      fft2KIndexmap full.h full.w angle sector kstep shape false = .ok imap ∧
      (∀ (i j : Nat) (di dj : Int), i < full.h → j < full.w → IsFreq full.h i di →
        IsFreq full.w j dj →
        kval i j = Real.sqrt ((dj * (freqStep shape).2) ^ 2 + (di * (freqStep shape).1) ^ 2)) ∧
      (∀ (ks : List ℝ) (qs : List Int), List.Forall₂ Nearest ks qs →
        kSelect conj data angle sector kstep (.many ks) shape mask false =
          .ok (.pairs (qs.filterMap fun q => averages kval full.get (binCells imap mask q)))) ∧
      ∃ n : Nat, (∀ i j : Nat, i < full.h → j < full.w → imap.get i j < n) ∧
        kSelect conj data angle sector kstep .all shape mask false =
          .ok (.pairs ((List.range n).filterMap fun (q : Nat) =>
            averages kval full.get (binCells imap mask (q : Int)))) := by
  obtain ⟨imap, hi, hih, hiw, hi0, -⟩ := C51_fft2_k_indexmap full.h full.w angle sector kstep shape hpos
    hh hw h1 h2 h3 h4 hs
  have hk := fft2Kangle_eq full.h full.w shape hpos hh hw
  have hi' := hi
  unfold fft2KIndexmap at hi'
  simp only [hk, Bool.false_eq_true, if_false, bind, Except.bind] at hi'
  set kmap : Arr2 ℝ := ⟨full.h, full.w, fun i j => (kangle (fftfreqN full.h i * (freqStep shape).1)
        (fftfreqN full.w j * (freqStep shape).2)).1⟩ with hkmap
  -- the first lines of k_select
  have hargs : ∃ masked, kSelectSize data mask = .ok ((full.h, full.w), masked) ∧
      ((data = .grid full ∧ masked = false) ∨
        ∃ c, mask = some c ∧ masked = true ∧ data = .flat (maskedCells full c)) := by
    rcases hdata with rfl | ⟨m, rfl, rfl⟩
    · refine ⟨false, ?_, Or.inl ⟨rfl, rfl⟩⟩
      cases mask with
      | none => rfl
      | some m =>
        obtain ⟨a, b⟩ := hmask m rfl
        simp [kSelectSize, a, b]
    · obtain ⟨a, b⟩ := hmask m rfl
      exact ⟨true, by simp [kSelectSize, a, b], Or.inr ⟨m, rfl, rfl, rfl⟩⟩
  obtain ⟨masked, hargs, hdm⟩ := hargs
  have hsel (k : ℝ) : kSelectComplex data k imap kmap mask masked =
      .ok (averages kmap.get full.get (binCells imap mask (pyRound k))) :=
    kSelectComplex_eq full data k imap kmap mask masked hih hiw rfl rfl hmask hdm
  refine ⟨imap, kmap.get, hi, ?_, ?_, ?_⟩
  · intro i j di dj hi hj hdi hdj
    rw [hkmap, IsFreq.eq hi hdi, IsFreq.eq hj hdj]
    rfl
  · intro ks qs hq
    unfold kSelect
    rw [if_neg (not_not.mpr h3)]
    simp only [hargs, kSelectShape, kSelectLoop, hk, hi', hsel, Bool.false_eq_true, if_false, bind,
      Except.bind]
    rw [collectSome_ok ks fun k => averages kmap.get full.get (binCells imap mask (pyRound k))]
    have : ks.filterMap (fun k => averages kmap.get full.get (binCells imap mask (pyRound k))) =
        qs.filterMap fun q => averages kmap.get full.get (binCells imap mask q) := by
      induction hq with
      | nil => rfl
      | cons h _ ih =>
        rw [List.filterMap_cons, List.filterMap_cons, ih, Nearest.unique (pyRound_nearest _) h]
    rw [this]
    rfl
  · refine ⟨(imap.entries.foldl max (imap.get 0 0) + 1).toNat, ?_, ?_⟩
    · intro i j hi hj
      have := (le_foldl_maxInt imap.entries (imap.get 0 0)).2 _
        (mem_entries imap (i := i) (j := j) (by omega) (by omega))
      omega
    · unfold kSelect
      rw [if_neg (not_not.mpr h3)]
      simp only [hargs, kSelectShape, kSelectLoop, hk, hi', hsel, Bool.false_eq_true, if_false, bind,
        Except.bind]
      rw [collectSome_ok _ fun k => averages kmap.get full.get (binCells imap mask (pyRound k)),
        List.filterMap_map]
      have : ((fun k => averages kmap.get full.get (binCells imap mask (pyRound k))) ∘
          fun (i : Nat) => (i : ℝ)) = fun (q : Nat) => averages kmap.get full.get
            (binCells imap mask (q : Int)) := by
        funext q
        simp only [Function.comp]
        rw [Nearest.unique (pyRound_nearest _) (nearest_cast q)]
      rw [this]
      rfl

/-- C52 is false for a single `k`: no call ever returns a result. -/
theorem C52_one_false (conj : V → V) (data : KData V) (angle sector kstep k : ℝ)
    (shape : Option (Nat × Nat)) (mask : Option (Arr2 Bool)) (rfft2 : Bool) (r : KResult V) :
    kSelect conj data angle sector kstep (.one k) shape mask rfft2 ≠ .ok r := by
  unfold kSelect
  intro h
  split at h
  · cases h
  · simp only [bind, Except.bind] at h
    repeat' split at h
    all_goals cases h

/-- C52: with valid arguments a single `k` is a TypeError. -/
theorem C52_one_type_error (conj : V → V) (full : Arr2 (Option V)) (angle sector kstep k : ℝ)
    (shape : Option (Nat × Nat)) (hpos : ∀ s, shape = some s → 0 < s.1 ∧ 0 < s.2) (hh : 0 < full.h)
    (hw : 0 < full.w) (h1 : -180 ≤ angle) (h2 : angle ≤ 180) (h3 : 0 < sector) (h4 : sector ≤ 180)
    (hs : 0 < kstep) :
    kSelect conj (.grid full) angle sector kstep (.one k) shape none false = .error .typeError := by
  obtain ⟨imap, hi, hih, hiw, hi0, -⟩ := C51_fft2_k_indexmap full.h full.w angle sector kstep shape hpos
    hh hw h1 h2 h3 h4 hs
  have hk := fft2Kangle_eq full.h full.w shape hpos hh hw
  unfold fft2KIndexmap at hi
  simp only [hk, Bool.false_eq_true, if_false, bind, Except.bind] at hi
  unfold kSelect
  rw [if_neg (not_not.mpr h3)]
  simp only [kSelectSize, kSelectShape, kSelectLoop, hk, hi, Bool.false_eq_true, if_false, bind,
    Except.bind]

theorem asFft2Shape_half {h w : Nat} {kj : Int} {ki : Nat} {shape : Option (Nat × Nat)} (hw : 2 ≤ w)
    (he : asFft2Shape (some h) (some w) shape = .ok (ki, kj)) : ki = h ∧ 1 ≤ kj ∧ kj.toNat / 2 + 1 = w := by
  unfold asFft2Shape at he
  cases shape with
  | none =>
    simp only [bind, Except.bind] at he
    cases he
    exact ⟨rfl, by omega, by omega⟩
  | some s =>
    simp only [bind, Except.bind] at he
    repeat' split at he
    all_goals first
      | cases he; done
      | (cases he; exact ⟨rfl, by omega, by omega⟩)

/-- One bin of half-space data with at least three columns never gives a result. -/
theorem kSelectReal_error (conj : V → V) (data : KData V) (k : ℝ) (imap : Arr2 Int) (kmap : Arr2 ℝ)
    (cm : Option (Arr2 Bool)) (masked : Bool) (hh : 0 < imap.h) (hw : 0 < imap.w)
    (h3 : 3 ≤ imap.w / 2 + 1) (hkh : kmap.h = imap.h) (hkw : kmap.w = imap.w)
    (hcm : ∀ c, cm = some c → c.w = imap.w / 2 + 1)
    (hne : cm = none → masked = false ∧ (binCells imap none (pyRound k)).Nonempty) :
    ∃ e, kSelectReal conj data k imap kmap cm masked = .error e := by
  obtain ⟨m, hm, mh, mw, -, -⟩ := C49_as_rfft2_mask (binMask imap k) hh hw
  obtain ⟨c, hc, ch, cw, -, -⟩ := C49_as_rfft2_conj false m (by rw [mh]; exact hh) (by omega)
  have mw' : m.w = imap.w / 2 + 1 := mw
  have hks : boolIndex kmap (binMask imap k) = .ok ((whereTrue (binMask imap k)).map fun p =>
      kmap.get p.1 p.2) := by
    unfold boolIndex; rw [if_pos ⟨hkh, hkw⟩]
  unfold kSelectReal
  simp only [hm, hc, hks, bind, Except.bind]
  cases cm with
  | none =>
    obtain ⟨rfl, hS⟩ := hne rfl
    have hS' := toFinset_whereTrue (imap := imap) (cm := none) (q := pyRound k) (m := binMask imap k)
      rfl rfl (fun i j _ _ => by simp [binMask])
    rw [← hS'] at hS
    obtain ⟨p, hp⟩ := hS
    rw [List.mem_toFinset] at hp
    have hlen : 0 < (whereTrue (binMask imap k)).length := List.length_pos_of_mem hp
    simp only [andMaskOpt, reduceMask, List.length_map, gt_iff_lt, hlen, if_true, indexMask]
    unfold boolIndex
    rw [if_neg (by omega)]
    exact ⟨_, rfl⟩
  | some b =>
    have hb := hcm b rfl
    simp only [andMaskOpt]
    cases hmb : andMask m b with
    | error e => exact ⟨e, rfl⟩
    | ok m2 =>
      simp only
      have : ∃ e, andMask c b = .error e := by
        unfold andMask
        have hd : broadcastDim c.w b.w = .error .valueError := by
          unfold broadcastDim
          rw [if_neg (by omega), if_neg (by omega), if_neg (by omega)]
        cases hdh : broadcastDim c.h b.h with
        | error e => exact ⟨e, by simp [bind, Except.bind]⟩
        | ok v => exact ⟨.valueError, by simp [hd, bind, Except.bind]⟩
      obtain ⟨e, he⟩ := this
      exact ⟨e, by rw [he]⟩

/-- C52 is false for half-space data (the default mode) of at least three columns: without `k` no
call ever returns a result, with or without a mask. -/
theorem C52_rfft2_false (conj : V → V) (data : KData V) (angle sector kstep : ℝ)
    (shape : Option (Nat × Nat)) (mask : Option (Arr2 Bool))
    (hw : (∃ a, data = .grid a ∧ mask = none ∧ 3 ≤ a.w) ∨ ∃ m, mask = some m ∧ 3 ≤ m.w)
    (r : KResult V) :
    kSelect conj data angle sector kstep .all shape mask true ≠ .ok r := by
  unfold kSelect
  intro h
  split at h
  · cases h
  rename_i hsec
  simp only [kSelectShape, if_true, bind, Except.bind] at h
  split at h
  · cases h
  rename_i v hv
  obtain ⟨⟨kh, kw⟩, masked⟩ := v
  have hkw : 3 ≤ kw ∧ (mask = none → masked = false) ∧ ∀ c, mask = some c → c.w = kw := by
    rcases hw with ⟨a, rfl, rfl, h3⟩ | ⟨m, rfl, h3⟩
    · cases hv; exact ⟨h3, fun _ => rfl, by simp⟩
    · cases data <;> cases hv <;> exact ⟨h3, by simp, fun c hc => by cases hc; rfl⟩
  obtain ⟨h3, hmk, hcm⟩ := hkw
  simp only at h
  split at h
  · cases h
  rename_i v2 hv2
  obtain ⟨fh, fw⟩ := v2
  obtain ⟨rfl, hfw, hfw2⟩ := asFft2Shape_half (by omega) hv2
  simp only at h
  split at h
  · cases h
  rename_i v3 hv3
  obtain ⟨kmap, amap⟩ := v3
  have hkm : kmap.h = fh ∧ kmap.w = fw.toNat ∧ 0 < fh := by
    unfold fft2Kangle at hv3
    simp only [bind, Except.bind] at hv3
    split at hv3
    · cases hv3
    split at hv3
    · cases hv3
    rw [if_neg (by omega), if_neg (by omega)] at hv3
    cases hv3
    exact ⟨rfl, rfl, by omega⟩
  obtain ⟨m1, m2, m3⟩ := hkm
  simp only at h
  split at h
  · cases h
  rename_i imap him
  have himap : imap.h = fh ∧ imap.w = fw.toNat ∧ imap.get 0 0 = 0 := by
    unfold fft2SectorIndexmap at him
    split at him
    · cases him
    split at him
    · cases him
    simp only [bind, Except.bind] at him
    split at him
    · cases him
    split at him
    · cases him
    cases him
    exact ⟨m1, m2, by simp⟩
  obtain ⟨i1, i2, i3⟩ := himap
  have hmax := (le_foldl_maxInt imap.entries (imap.get 0 0)).1
  obtain ⟨e, he⟩ := kSelectReal_error conj data ((0 : Nat) : ℝ) imap kmap mask masked (by omega)
    (by omega) (by omega) (by omega) (by omega) (fun c hc => by rw [hcm c hc]; omega)
    (fun hn => ⟨hmk hn, ⟨(0, 0), by
      rw [Nearest.unique (pyRound_nearest _) (nearest_cast 0)]
      simp only [binCells, Finset.mem_filter, Finset.mem_product, Finset.mem_range, Option.all_none,
        and_true]
      exact ⟨⟨by omega, by omega⟩, by simpa using i3⟩⟩⟩)
  simp only [kSelectLoop] at h
  rw [collectSome_error _ e 0 ?_ (by omega)] at h
  · cases h
  · rw [List.getElem?_map, List.getElem?_map, List.getElem?_range (by omega)]
    simp only [Option.map_some]
    rw [he]

/-- C52 is false in the same way for a list of `k` that begins with a bin that is not empty; with a
mask, for any list. -/
theorem C52_rfft2_many_false (conj : V → V) (data : KData V) (angle sector kstep k : ℝ) (ks : List ℝ)
    (shape : Option (Nat × Nat)) (mask : Option (Arr2 Bool))
    (hw : (∃ a imap, data = .grid a ∧ mask = none ∧ 3 ≤ a.w ∧
        fft2KIndexmap a.h a.w angle sector kstep shape true = .ok imap ∧
        ∃ q : Int, Nearest k q ∧ (binCells imap none q).Nonempty) ∨
      ∃ m, mask = some m ∧ 3 ≤ m.w)
    (r : KResult V) :
    kSelect conj data angle sector kstep (.many (k :: ks)) shape mask true ≠ .ok r := by
  unfold kSelect
  intro h
  split at h
  · cases h
  rename_i hsec
  simp only [kSelectShape, if_true, bind, Except.bind] at h
  split at h
  · cases h
  rename_i v hv
  obtain ⟨⟨kh, kw⟩, masked⟩ := v
  have hkw : 3 ≤ kw ∧ (∀ c, mask = some c → c.w = kw) ∧ (mask = none → masked = false ∧ ∃ imap,
      fft2KIndexmap kh kw angle sector kstep shape true = .ok imap ∧
        ∃ q : Int, Nearest k q ∧ (binCells imap none q).Nonempty) := by
    rcases hw with ⟨a, imap, rfl, rfl, h3, hk⟩ | ⟨m, rfl, h3⟩
    · cases hv; exact ⟨h3, by simp, fun _ => ⟨rfl, imap, hk⟩⟩
    · cases data <;> cases hv <;> exact ⟨h3, fun c hc => by cases hc; rfl, by simp⟩
  obtain ⟨h3, hcm, hmk⟩ := hkw
  simp only at h
  split at h
  · cases h
  rename_i v2 hv2
  obtain ⟨fh, fw⟩ := v2
  obtain ⟨rfl, hfw, hfw2⟩ := asFft2Shape_half (by omega) hv2
  simp only at h
  split at h
  · cases h
  rename_i v3 hv3
  obtain ⟨kmap, amap⟩ := v3
  have hkm : kmap.h = fh ∧ kmap.w = fw.toNat ∧ 0 < fh := by
    have hv3' := hv3
    unfold fft2Kangle at hv3'
    simp only [bind, Except.bind] at hv3'
    split at hv3'
    · cases hv3'
    split at hv3'
    · cases hv3'
    rw [if_neg (by omega), if_neg (by omega)] at hv3'
    cases hv3'
    exact ⟨rfl, rfl, by omega⟩
  obtain ⟨m1, m2, m3⟩ := hkm
  simp only at h
  split at h
  · cases h
  rename_i imap him
  have himap : imap.h = fh ∧ imap.w = fw.toNat := by
    have him' := him
    unfold fft2SectorIndexmap at him'
    split at him'
    · cases him'
    split at him'
    · cases him'
    simp only [bind, Except.bind] at him'
    split at him'
    · cases him'
    split at him'
    · cases him'
    cases him'
    exact ⟨m1, m2⟩
  obtain ⟨i1, i2⟩ := himap
  obtain ⟨e, he⟩ := kSelectReal_error conj data k imap kmap mask masked (by omega)
    (by omega) (by omega) (by omega) (by omega) (fun c hc => by rw [hcm c hc]; omega)
    (fun hn => by
      obtain ⟨a, imap', b, q, hq, c⟩ := hmk hn
      refine ⟨a, ?_⟩
      unfold fft2KIndexmap at b
      simp only [if_true, hv2, hv3, him, bind, Except.bind] at b
      cases b
      rw [Nearest.unique (pyRound_nearest _) hq]
      exact c)
  simp only [kSelectLoop] at h
  rw [List.map_cons, collectSome, he] at h
  cases h

/-- The hypotheses can be met: 4 x 4 data, all k; the zero wave vector alone fills bin 0. -/
example (conj : ℝ → ℝ) : ∃ l, kSelect conj (.grid ⟨4, 4, fun i j => some ((i : ℝ) + j)⟩) 0 30 1 .all none
    none false = .ok (.pairs l) := by
  obtain ⟨imap, kval, _, _, _, n, _, h⟩ := C52_fft2_many_partial conj ⟨4, 4, fun i j => some ((i : ℝ) + j)⟩
    (.grid ⟨4, 4, fun i j => some ((i : ℝ) + j)⟩) none 0 30 1 none (by simp) (by norm_num) (by norm_num)
    (by norm_num) (by norm_num) (by norm_num) (by norm_num) one_pos (by simp) (Or.inl rfl)
  exact ⟨_, h⟩

/-- The hypotheses of the refutation can be met: half-space data of 4 x 4 images. -/
example (conj : ℝ → ℝ) (r : KResult ℝ) : kSelect conj (.grid ⟨4, 3, fun i j => some ((i : ℝ) + j)⟩) 0 30 1
    .all (some (4, 4)) none true ≠ .ok r :=
  C52_rfft2_false conj _ 0 30 1 _ none (Or.inl ⟨_, rfl, rfl, by norm_num⟩) r

end Cddm
