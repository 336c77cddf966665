import Verif.Lemmas.Api
import Verif.Spec.Rounding
import Mathlib.Tactic.Positivity

/-!
# Kernels over any arithmetic

The kernels only use `+` on their output.  `Tracks Q L f δ`: the step `f` of a kernel adds `δ` to a shadow of its output in a
commutative monoid, where `Q` relates a cell to its shadow.
-/

namespace Cddm
open Spec

section acc
variable {M N : Type} [Add M] [AddCommMonoid N]

/-- Proof device: a step keeps the relation between output and shadow, adding `δ` to the shadow. -/
def Tracks (Q : M → N → Prop) (L : Nat) (f : List M → Option (List M)) (δ : Nat → N) : Prop :=
  ∀ (out : List M) (s : Nat → N), out.length = L → (∀ k (hk : k < out.length), Q out[k] (s k)) →
    ∃ out', f out = some out' ∧ out'.length = L ∧ ∀ k (hk : k < out'.length), Q out'[k] (s k + δ k)

/-- Proof device: adding `v` to a cell is adding `w` to its shadow. -/
def Steps (Q : M → N → Prop) (v : M) (w : N) : Prop := ∀ a s, Q a s → Q (a + v) (s + w)

variable {Q : M → N → Prop} {L : Nat}

theorem Tracks.congr {f : List M → Option (List M)} {δ ε : Nat → N} (h : Tracks Q L f δ)
    (he : ∀ k, k < L → δ k = ε k) : Tracks Q L f ε := by
  intro out s hL hq
  obtain ⟨out', h1, h2, h3⟩ := h out s hL hq
  refine ⟨out', h1, h2, fun k hk => ?_⟩
  rw [← he k (h2 ▸ hk)]
  exact h3 k hk

theorem Tracks.some_id : Tracks Q L (fun out => some out) (fun _ => 0) := by
  intro out s hL hq
  exact ⟨out, rfl, hL, fun k hk => by rw [add_zero]; exact hq k hk⟩

theorem Tracks.comp {f g : List M → Option (List M)} {δ ε : Nat → N} (hf : Tracks Q L f δ) (hg : Tracks Q L g ε) :
    Tracks Q L (fun out => (f out).bind g) (fun k => δ k + ε k) := by
  intro out s hL hq
  obtain ⟨o1, h1, h2, h3⟩ := hf out s hL hq
  obtain ⟨o2, h4, h5, h6⟩ := hg o1 (fun k => s k + δ k) h2 h3
  refine ⟨o2, ?_, h5, fun k hk => ?_⟩
  · show (f out).bind g = _
    rw [h1]
    exact h4
  · rw [← add_assoc]
    exact h6 k hk

theorem Tracks.foldlM {ι : Type} (l : List ι) (step : List M → ι → Option (List M)) (δ : ι → Nat → N)
    (h : ∀ i ∈ l, Tracks Q L (fun out => step out i) (δ i)) :
    Tracks Q L (fun out => l.foldlM step out) (fun k => (l.map fun i => δ i k).sum) := by
  induction l with
  | nil => exact Tracks.some_id
  | cons a l ih =>
    have := (h a (by simp)).comp (ih fun i hi => h i (by simp [hi]))
    simpa [List.foldlM_cons, Option.bind_eq_bind] using this

theorem Tracks.forRange (n : Nat) (step : List M → Nat → Option (List M)) (δ : Nat → Nat → N)
    (h : ∀ i, i < n → Tracks Q L (fun out => step out i) (δ i)) :
    Tracks Q L (fun out => forRange n out step) (fun k => ((List.range n).map fun i => δ i k).sum) :=
  Tracks.foldlM _ step δ fun i hi => h i (by simpa using hi)

theorem Tracks.forRange' (a n : Nat) (step : List M → Nat → Option (List M)) (δ : Nat → Nat → N)
    (h : ∀ i, a ≤ i → i < n → Tracks Q L (fun out => step out i) (δ i)) :
    Tracks Q L (fun out => Cddm.forRange' a n out step) (fun k => ((List.range' a (n - a)).map fun i => δ i k).sum) :=
  Tracks.foldlM _ step δ fun i hi => by
    rw [List.mem_range'_1] at hi
    exact h i hi.1 (by omega)

/-- `out[m] += v`. -/
theorem Tracks.addAt {m : Int} {j : Nat} {v : M} {w : N} (hj : pyIdx L m = some j) (hs : Steps Q v w) :
    Tracks Q L (fun out => addAt out m v) (fun k => if k = j then w else 0) := by
  intro out s hL hq
  have hj' : pyIdx out.length m = some j := hL ▸ hj
  refine ⟨out.modify j (· + v), ?_, by simp [hL], fun k hk => ?_⟩
  · simp only [Cddm.addAt, hj', Option.bind_some]
  · have hk' : k < out.length := by simpa using hk
    simp only [List.getElem_modify]
    by_cases e : j = k
    · subst e
      simpa using hs _ _ (hq j hk')
    · have e' : ¬ k = j := fun h => e h.symm
      simpa [e, e'] using hq k hk'

theorem Tracks.addAt_nat {c : Nat} (hc : c < L) {v : M} {w : N} (hs : Steps Q v w) :
    Tracks Q L (fun out => Cddm.addAt out (c : Int) v) (fun k => if k = c then w else 0) :=
  Tracks.addAt (by rw [pyIdx_nonneg (by omega) (by omega)]; simp) hs

/-- `if m < len(out): out[m] += v` with `m = |d|`. -/
theorem Tracks.addAt_abs (d : Int) {v : M} {w : N} (hs : Steps Q v w) :
    Tracks Q L (fun out => if |d| < out.length then Cddm.addAt out |d| v else some out)
      (fun k => if |d| = k then w else 0) := by
  have h0 := abs_nonneg d
  intro out s hL hq
  by_cases h : |d| < out.length
  · obtain ⟨o, h1, h2, h3⟩ := Tracks.addAt (Q := Q) (L := L) (m := |d|) (pyIdx_nonneg h0 (by omega)) hs out s hL hq
    refine ⟨o, (if_pos h).trans h1, h2, fun k hk => ?_⟩
    have := h3 k hk
    have e : (k = |d|.toNat) ↔ |d| = k := by omega
    simp only [e] at this
    exact this
  · refine ⟨out, if_neg h, hL, fun k hk => ?_⟩
    have e : ¬ |d| = k := by omega
    simpa [e] using hq k hk

/-- `if abs(d) < (len(out)+1)//2: out[d] += v` (odd output length). -/
theorem Tracks.addAt_signed (d : Int) {v : M} {w : N} (hs : Steps Q v w) (hodd : L % 2 = 1) :
    Tracks Q L (fun out => if |d| < ((out.length + 1) / 2 : Nat) then Cddm.addAt out d v else some out)
      (fun k => if d = cellDelay L k then w else 0) := by
  intro out s hL hq
  by_cases h : |d| < ((out.length + 1) / 2 : Nat)
  · have h' := h
    rw [abs_lt] at h'
    by_cases hd : 0 ≤ d
    · obtain ⟨o, h1, h2, h3⟩ := Tracks.addAt (Q := Q) (L := L) (m := d) (pyIdx_nonneg hd (by omega)) hs out s hL hq
      refine ⟨o, (if_pos h).trans h1, h2, fun k hk => ?_⟩
      have := h3 k hk
      have e : (k = d.toNat) ↔ d = cellDelay L k := by
        unfold cellDelay
        split_ifs <;> omega
      simp only [e] at this
      exact this
    · obtain ⟨o, h1, h2, h3⟩ := Tracks.addAt (Q := Q) (L := L) (m := d) (pyIdx_neg (by omega) (by omega)) hs out s hL hq
      refine ⟨o, (if_pos h).trans h1, h2, fun k hk => ?_⟩
      have := h3 k hk
      have e : (k = ((L : Int) + d).toNat) ↔ d = cellDelay L k := by
        unfold cellDelay
        split_ifs <;> omega
      simp only [e] at this
      exact this
  · refine ⟨out, if_neg h, hL, fun k hk => ?_⟩
    have e : ¬ d = cellDelay L k := by
      intro hd
      apply h
      rw [hd, abs_lt]
      unfold cellDelay
      split_ifs <;> omega
    simpa [e] using hq k hk

/-- A double loop over two streams. -/
theorem Tracks.cross_stream {α β : Type} (s1 : List α) (s2 : List β) (n1 n2 : Nat)
    (hn1 : n1 = s1.length) (hn2 : n2 = s2.length) (body : List M → Nat → Nat → Option (List M)) (F : α → β → Nat → N)
    (h : ∀ i j a b, s1[i]? = some a → s2[j]? = some b → Tracks Q L (fun o => body o i j) (F a b)) :
    Tracks Q L (fun out => Cddm.forRange n1 out (fun out i => Cddm.forRange n2 out fun out j => body out i j))
      (fun k => (s1.map fun a => (s2.map fun b => F a b k).sum).sum) := by
  subst hn1 hn2
  rcases s1 with _ | ⟨a0, s1⟩
  · exact Tracks.some_id
  rcases s2 with _ | ⟨b0, s2⟩
  · refine (Tracks.forRange _ _ (fun i k => 0) fun i _ => Tracks.some_id).congr fun k _ => ?_
    simp
  refine (Tracks.forRange _ _ (fun i k => ((List.range (b0 :: s2).length).map fun j =>
    F ((a0 :: s1).getD i a0) ((b0 :: s2).getD j b0) k).sum) fun i hi => ?_).congr fun k _ => ?_
  · exact Tracks.forRange _ _ (fun j k => F ((a0 :: s1).getD i a0) ((b0 :: s2).getD j b0) k) fun j hj =>
      h i j _ _ (getElem?_getD _ _ hi) (getElem?_getD _ _ hj)
  · rw [← sum_range_getD (a0 :: s1) a0 (fun a => ((b0 :: s2).map fun b => F a b k).sum) _ rfl]
    congr 1
    apply List.map_congr_left
    intro i _
    exact sum_range_getD (b0 :: s2) b0 (fun b => F ((a0 :: s1).getD i a0) b k) _ rfl

/-- A triangular double loop over one stream. -/
theorem Tracks.self_stream {α : Type} (s : List α) (n : Nat) (hn : n = s.length)
    (body : List M → Nat → Nat → Option (List M)) (F : α × α → Nat → N)
    (h : ∀ i j a b, s[i]? = some a → s[j]? = some b → Tracks Q L (fun o => body o i j) (F (a, b))) :
    Tracks Q L (fun out => Cddm.forRange n out (fun out i => Cddm.forRange' i n out fun out j => body out i j))
      (fun k => ((selfPairs s).map fun p => F p k).sum) := by
  subst hn
  rcases s with _ | ⟨a0, s⟩
  · exact Tracks.some_id
  refine (Tracks.forRange _ _ (fun i k => ((List.range' i ((a0 :: s).length - i)).map fun j =>
    F ((a0 :: s).getD i a0, (a0 :: s).getD j a0) k).sum) fun i hi => ?_).congr fun k _ => ?_
  · exact Tracks.forRange' _ _ _ (fun j k => F ((a0 :: s).getD i a0, (a0 :: s).getD j a0) k) fun j _ hj =>
      h i j _ _ (getElem?_getD _ _ hi) (getElem?_getD _ _ hj)
  · exact sum_selfPairs (a0 :: s) a0 (fun p => F p k) _ rfl

/-- Adding the terms of two aligned slices to one cell. -/
theorem Tracks.addPairs {α β : Type} (xv : List α) (yv : List β) (h : xv.length ≤ yv.length) (c : Nat) (hc : c < L)
    (body : List M → Nat → Option (List M)) (term : α → β → M) (g : α → β → N)
    (hb : ∀ (o : List M) j x y, xv[j]? = some x → yv[j]? = some y → body o j = Cddm.addAt o (c : Int) (term x y))
    (hs : ∀ x ∈ xv, ∀ y ∈ yv, Steps Q (term x y) (g x y)) :
    Tracks Q L (fun out => Cddm.forRange xv.length out body)
      (fun k => if k = c then ((xv.zip yv).map fun p => g p.1 p.2).sum else 0) := by
  rcases hxv : xv with _ | ⟨x0, xs⟩
  · refine Tracks.some_id.congr fun k _ => ?_
    simp
  rcases hyv : yv with _ | ⟨y0, ys⟩
  · simp [hxv, hyv] at h
  rw [← hxv, ← hyv]
  refine (Tracks.forRange _ body (fun j k => if k = c then g ((xv.zip yv).getD j (x0, y0)).1 ((xv.zip yv).getD j (x0, y0)).2
    else 0) fun j hj => ?_).congr fun k _ => ?_
  · have hz : (xv.zip yv)[j]? = some ((xv.zip yv).getD j (x0, y0)) := getElem?_getD _ _ (by simp; omega)
    rw [List.getElem?_zip_eq_some] at hz
    have hbj : (fun out => body out j) = fun out => Cddm.addAt out (c : Int)
        (term ((xv.zip yv).getD j (x0, y0)).1 ((xv.zip yv).getD j (x0, y0)).2) := by
      funext o
      exact hb o j _ _ hz.1 hz.2
    rw [hbj]
    exact Tracks.addAt_nat hc (hs _ (List.mem_of_getElem? hz.1) _ (List.mem_of_getElem? hz.2))
  · by_cases hk : k = c
    · simp only [hk, if_true]
      exact sum_range_getD (xv.zip yv) (x0, y0) (fun p => g p.1 p.2) _ (by simp; omega)
    · simp only [hk, if_false]
      exact sum_map_zero _ _ (fun _ _ => rfl)

/-- A loop in which step `i` adds `S i` to cell `i` only. -/
theorem Tracks.diag (body : List M → Nat → Option (List M)) (S : Nat → N)
    (h : ∀ i, i < L → Tracks Q L (fun o => body o i) fun k => if k = i then S k else 0) :
    Tracks Q L (fun out => Cddm.forRange L out body) S := by
  refine (Tracks.forRange L body (fun i k => if k = i then S k else 0) h).congr fun k hk => ?_
  have : ∀ n, ((List.range n).map fun i => if k = i then S k else 0).sum = if k < n then S k else 0 := by
    intro n
    induction n with
    | zero => simp
    | succ n ih =>
      rw [List.range_succ, List.map_append, List.sum_append, ih]
      rcases lt_trichotomy k n with h | h | h
      · have h2 : ¬ k = n := by omega
        have h3 : k < n + 1 := by omega
        simp [h, h2, h3]
      · subst h; simp
      · have h2 : ¬ k = n := by omega
        have h3 : ¬ k < n + 1 := by omega
        have h4 : ¬ k < n := by omega
        simp [h2, h3, h4]
  rw [this, if_pos hk]

theorem Tracks.diag' (body : List M → Nat → Option (List M)) (S : Nat → N)
    (h : ∀ i, i < L → Tracks Q L (fun o => body o i) fun k => if k = i then S k else 0) :
    Tracks Q L (fun out => Cddm.forRange out.length out body) S := by
  intro out s hL hq
  show ∃ out', Cddm.forRange out.length out body = some out' ∧ _
  rw [hL]
  exact Tracks.diag body S h out s hL hq

theorem Tracks.congr_fun {f f' : List M → Option (List M)} {δ : Nat → N} (hf : Tracks Q L f δ)
    (h : ∀ o : List M, o.length = L → f' o = f o) : Tracks Q L f' δ := by
  intro out s hL hq
  rw [h out hL]
  exact hf out s hL hq

end acc

section kernels
variable {R N : Type} [Add R] [Sub R] [Neg R] [Mul R] [AddCommMonoid N] {Q : R → N → Prop} {L : Nat}

/-- Proof device: the term of the real kernels (cddm/_core_nb.py:307, 325, 397). -/
def termRe (a b : Cx R) : R := a.re * b.re + a.im * b.im
/-- Proof device: the term of the difference kernels (cddm/_core_nb.py:442-443, 449-450, 482-483). -/
def termDiff (a b : Cx R) : R := (b - a).re * (b - a).re + (b - a).im * (b - a).im

theorem crossCorr_tracks (x y : List (Cx R)) (t1 t2 : List Int) (g : Cx R → Cx R → N) (h1 : t1.length = x.length)
    (h2 : t2.length = y.length) (hs : ∀ a ∈ x, ∀ b ∈ y, Steps Q (termRe a b) (g a b)) :
    Tracks Q L (fun out => crossCorr x y t1 t2 out) (fun k => pairSum g (t1.zip x) (t2.zip y) k) := by
  unfold crossCorr
  simp only [pairSum_eq]
  apply Tracks.cross_stream (t1.zip x) (t2.zip y) _ _ (by simp [h1]) (by simp [h2]) _
    (fun a b k => if |b.1 - a.1| = (k : Int) then g a.2 b.2 else 0)
  intro i j a b ha hb
  obtain ⟨e1, e2⟩ := zip_get ha
  obtain ⟨e3, e4⟩ := zip_get hb
  rw [e1, e2, e3, e4]
  exact Tracks.addAt_abs _ (hs _ (List.mem_of_getElem? e2) _ (List.mem_of_getElem? e4))

theorem crossDiff_tracks (x y : List (Cx R)) (t1 t2 : List Int) (g : Cx R → Cx R → N) (h1 : t1.length = x.length)
    (h2 : t2.length = y.length) (hs : ∀ a ∈ x, ∀ b ∈ y, Steps Q (termDiff a b) (g a b)) :
    Tracks Q L (fun out => crossDiff x y t1 t2 out) (fun k => pairSum g (t1.zip x) (t2.zip y) k) := by
  unfold crossDiff
  simp only [pairSum_eq]
  apply Tracks.cross_stream (t1.zip x) (t2.zip y) _ _ (by simp [h1]) (by simp [h2]) _
    (fun a b k => if |b.1 - a.1| = (k : Int) then g a.2 b.2 else 0)
  intro i j a b ha hb
  obtain ⟨e1, e2⟩ := zip_get ha
  obtain ⟨e3, e4⟩ := zip_get hb
  rw [e1, e2, e3, e4]
  exact Tracks.addAt_abs _ (hs _ (List.mem_of_getElem? e2) _ (List.mem_of_getElem? e4))

theorem autoCorr_tracks (x : List (Cx R)) (t : List Int) (g : Cx R → Cx R → N) (h : t.length = x.length)
    (hs : ∀ a ∈ x, ∀ b ∈ x, Steps Q (termRe a b) (g a b)) :
    Tracks Q L (fun out => autoCorr x t out) (fun k => selfSum g (t.zip x) k) := by
  unfold autoCorr
  simp only [selfSum_eq]
  apply Tracks.self_stream (t.zip x) _ (by simp [h]) _
    (fun p k => if |p.2.1 - p.1.1| = (k : Int) then g p.1.2 p.2.2 else 0)
  intro i j a b ha hb
  obtain ⟨e1, e2⟩ := zip_get ha
  obtain ⟨e3, e4⟩ := zip_get hb
  rw [e1, e2, e3, e4]
  exact Tracks.addAt_abs _ (hs _ (List.mem_of_getElem? e2) _ (List.mem_of_getElem? e4))

theorem autoDiff_tracks (x : List (Cx R)) (t : List Int) (g : Cx R → Cx R → N) (h : t.length = x.length)
    (hs : ∀ a ∈ x, ∀ b ∈ x, Steps Q (termDiff a b) (g a b)) :
    Tracks Q L (fun out => autoDiff x t out) (fun k => selfSum g (t.zip x) k) := by
  unfold autoDiff
  simp only [selfSum_eq]
  apply Tracks.self_stream (t.zip x) _ (by simp [h]) _
    (fun p k => if |p.2.1 - p.1.1| = (k : Int) then g p.1.2 p.2.2 else 0)
  intro i j a b ha hb
  obtain ⟨e1, e2⟩ := zip_get ha
  obtain ⟨e3, e4⟩ := zip_get hb
  rw [e1, e2, e3, e4]
  exact Tracks.addAt_abs _ (hs _ (List.mem_of_getElem? e2) _ (List.mem_of_getElem? e4))

theorem crossCorrComplex_tracks {Q : Cx R → N → Prop} (x y : List (Cx R)) (t1 t2 : List Int) (g : Cx R → Cx R → N)
    (h1 : t1.length = x.length) (h2 : t2.length = y.length) (hodd : L % 2 = 1)
    (hs : ∀ a ∈ x, ∀ b ∈ y, Steps Q (a.conj * b) (g a b)) :
    Tracks Q L (fun out => crossCorrComplex x y t1 t2 out)
      (fun k => pairSumAt g (t1.zip x) (t2.zip y) (cellDelay L k)) := by
  unfold crossCorrComplex
  simp only [pairSumAt_eq]
  apply Tracks.cross_stream (t1.zip x) (t2.zip y) _ _ (by simp [h1]) (by simp [h2]) _
    (fun a b k => if b.1 - a.1 = cellDelay L k then g a.2 b.2 else 0)
  intro i j a b ha hb
  obtain ⟨e1, e2⟩ := zip_get ha
  obtain ⟨e3, e4⟩ := zip_get hb
  rw [e1, e2, e3, e4]
  exact Tracks.addAt_signed _ (hs _ (List.mem_of_getElem? e2) _ (List.mem_of_getElem? e4)) hodd

theorem autoCorrComplex_tracks {Q : Cx R → N → Prop} (x : List (Cx R)) (t : List Int) (g : Cx R → Cx R → N)
    (h : t.length = x.length) (hs : ∀ a ∈ x, ∀ b ∈ x, Steps Q (a.conj * b) (g a b))
    (hs' : ∀ a ∈ x, ∀ b ∈ x, Steps Q (a * b.conj) (g b a)) :
    Tracks Q L (fun out => autoCorrComplex x t out) (fun k => selfSumFwd g (t.zip x) k) := by
  unfold autoCorrComplex
  simp only [selfSumFwd_eq]
  apply Tracks.self_stream (t.zip x) _ (by simp [h]) _
    (fun p k => if |p.2.1 - p.1.1| = (k : Int) then
        (if p.2.1 - p.1.1 < 0 then g p.2.2 p.1.2 else g p.1.2 p.2.2) else 0)
  intro i j a b ha hb
  obtain ⟨e1, e2⟩ := zip_get ha
  obtain ⟨e3, e4⟩ := zip_get hb
  rw [e1, e2, e3, e4]
  by_cases hd : b.1 - a.1 < 0
  · simp only [hd, if_true, Option.bind_eq_bind, Option.bind_some, ge_iff_le, not_le.mpr hd, if_false]
    exact Tracks.addAt_abs _ (hs' _ (List.mem_of_getElem? e2) _ (List.mem_of_getElem? e4))
  · have hd' : 0 ≤ b.1 - a.1 := by omega
    simp only [hd, Option.bind_eq_bind, Option.bind_some, ge_iff_le, hd', if_false, if_true]
    have := Tracks.addAt_abs (L := L) (b.1 - a.1) (hs _ (List.mem_of_getElem? e2) _ (List.mem_of_getElem? e4))
    simpa [abs_of_nonneg hd'] using this

/-! ### Regular kernels -/

theorem crossCorrAdd_tracks (xv yv : List (Cx R)) (c : Nat) (g : Cx R → Cx R → N) (h : xv.length ≤ yv.length) (hc : c < L)
    (hs : ∀ a ∈ xv, ∀ b ∈ yv, Steps Q (termRe a b) (g a b)) :
    Tracks Q L (fun out => crossCorrAdd xv yv out c)
      (fun k => if k = c then ((xv.zip yv).map fun p => g p.1 p.2).sum else 0) := by
  unfold crossCorrAdd
  apply Tracks.addPairs xv yv h c hc _ termRe g _ hs
  intro o j x y hx hy
  rw [hx, hy]
  rfl

theorem crossCorrComplexAdd_tracks {Q : Cx R → N → Prop} (xv yv : List (Cx R)) (c : Nat) (g : Cx R → Cx R → N)
    (h : xv.length ≤ yv.length) (hc : c < L) (hs : ∀ a ∈ xv, ∀ b ∈ yv, Steps Q (b * a.conj) (g a b)) :
    Tracks Q L (fun out => crossCorrComplexAdd xv yv out c)
      (fun k => if k = c then ((xv.zip yv).map fun p => g p.1 p.2).sum else 0) := by
  unfold crossCorrComplexAdd
  apply Tracks.addPairs xv yv h c hc _ (fun a b => b * a.conj) g _ hs
  intro o j x y hx hy
  rw [hx, hy]
  rfl

theorem crossDiffAdd_tracks (xv yv : List (Cx R)) (c : Nat) (g : Cx R → Cx R → N) (h : xv.length ≤ yv.length) (hc : c < L)
    (hs : ∀ a ∈ xv, ∀ b ∈ yv, Steps Q (termDiff b a) (g a b)) :
    Tracks Q L (fun out => crossDiffAdd xv yv out c)
      (fun k => if k = c then ((xv.zip yv).map fun p => g p.1 p.2).sum else 0) := by
  unfold crossDiffAdd
  apply Tracks.addPairs xv yv h c hc _ (fun a b => termDiff b a) g _ hs
  intro o j x y hx hy
  rw [hx, hy]
  rfl

theorem mem_take' {α : Type} {x : List α} {n : Nat} {a : α} (h : a ∈ x.take n) : a ∈ x := List.mem_of_mem_take h
theorem mem_drop' {α : Type} {x : List α} {n : Nat} {a : α} (h : a ∈ x.drop n) : a ∈ x := List.mem_of_mem_drop h

theorem crossCorrRegular_tracks (x y : List (Cx R)) (g : Cx R → Cx R → N) (hxy : x.length = y.length)
    (hout : L ≤ x.length + 1) (hs : ∀ a ∈ x, ∀ b ∈ y, Steps Q (termRe a b) (g a b))
    (hs' : ∀ a ∈ x, ∀ b ∈ y, Steps Q (termRe b a) (g a b)) :
    Tracks Q L (fun out => crossCorrRegular x y out) (fun k => pairSum g (regular x) (regular y) k) := by
  unfold crossCorrRegular
  apply Tracks.diag'
  intro i hi
  simp only [pyTake_sub _ _ _ (show i ≤ x.length by omega), pyDrop]
  have first := crossCorrAdd_tracks (Q := Q) (L := L) (x.take (x.length - i)) (y.drop i) i g (by simp; omega) hi
    (fun a ha b hb => hs a (mem_take' ha) b (mem_drop' hb))
  rw [zip_take_drop x y i _ hxy.symm] at first
  by_cases hi0 : 0 < i
  · simp only [hi0, if_true]
    have second := crossCorrAdd_tracks (Q := Q) (L := L) (y.take (x.length - i)) (x.drop i) i (fun b a => g a b) (by simp) hi
      (fun b hb a ha => hs' a (mem_drop' ha) b (mem_take' hb))
    rw [zip_take_drop y x i _ rfl] at second
    refine (first.comp second).congr fun k _ => ?_
    by_cases hk : k = i
    · subst hk
      simp only [if_true]
      rw [pairSum_split, pairSumAt_regular, pairSumAt_regular_neg, if_neg (by omega)]
    · simp [hk]
  · simp only [hi0, if_false]
    refine (first.comp Tracks.some_id).congr fun k _ => ?_
    by_cases hk : k = i
    · subst hk
      simp only [if_true]
      rw [pairSum_split, pairSumAt_regular, if_pos (show k = 0 by omega)]
    · simp [hk]

theorem crossDiffRegular_tracks (x y : List (Cx R)) (g : Cx R → Cx R → N) (hxy : x.length = y.length)
    (hout : L ≤ x.length + 1) (hs : ∀ a ∈ x, ∀ b ∈ y, Steps Q (termDiff a b) (g a b)) :
    Tracks Q L (fun out => crossDiffRegular x y out) (fun k => pairSum g (regular x) (regular y) k) := by
  unfold crossDiffRegular
  apply Tracks.diag'
  intro i hi
  simp only [pyTake_sub _ _ _ (show i ≤ x.length by omega), pyDrop]
  have first := crossDiffAdd_tracks (Q := Q) (L := L) (y.drop i) (x.take (x.length - i)) i (fun b a => g a b)
    (by simp; omega) hi (fun b hb a ha => hs a (mem_take' ha) b (mem_drop' hb))
  rw [zip_drop_take x y i _ hxy.symm] at first
  by_cases hi0 : 0 < i
  · simp only [hi0, if_true]
    have second := crossDiffAdd_tracks (Q := Q) (L := L) (y.take (x.length - i)) (x.drop i) i (fun b a => g a b)
      (by simp) hi (fun b hb a ha => hs a (mem_drop' ha) b (mem_take' hb))
    rw [zip_take_drop y x i _ rfl] at second
    refine (first.comp second).congr fun k _ => ?_
    by_cases hk : k = i
    · subst hk
      simp only [if_true]
      rw [pairSum_split, pairSumAt_regular, pairSumAt_regular_neg, if_neg (by omega), sum_zip_swap x (y.drop k)]
    · simp [hk]
  · simp only [hi0, if_false]
    refine (first.comp Tracks.some_id).congr fun k _ => ?_
    by_cases hk : k = i
    · subst hk
      simp only [if_true]
      rw [pairSum_split, pairSumAt_regular, if_pos (show k = 0 by omega), sum_zip_swap x (y.drop k)]
    · simp [hk]

theorem autoCorrRegular_tracks (x : List (Cx R)) (g : Cx R → Cx R → N)
    (hs : ∀ a ∈ x, ∀ b ∈ x, Steps Q (termRe b a) (g a b)) :
    Tracks Q L (fun out => autoCorrRegular x out) (fun k => selfSum g (regular x) k) := by
  unfold autoCorrRegular
  apply Tracks.diag'
  intro i hi
  have key : Tracks Q L (fun out => crossCorrAdd (x.drop i) (pyTake x ((x.length : Int) - i)) out i) (fun k =>
      if k = i then (((x.drop i).zip x).map fun p => g p.2 p.1).sum else 0) := by
    by_cases h : i ≤ x.length
    · rw [pyTake_sub _ _ _ h]
      have := crossCorrAdd_tracks (Q := Q) (L := L) (x.drop i) (x.take (x.length - i)) i (fun b a => g a b) (by simp) hi
        (fun b hb a ha => hs a (mem_take' ha) b (mem_drop' hb))
      rwa [zip_drop_take x x i _ rfl] at this
    · have e : x.drop i = [] := by rw [List.drop_eq_nil_iff]; omega
      rw [e]
      refine Tracks.some_id.congr fun k _ => ?_
      simp
  refine key.congr fun k _ => ?_
  by_cases hk : k = i
  · subst hk
    simp only [if_true]
    rw [selfSum_regular, sum_zip_swap x (x.drop k)]
  · simp [hk]

theorem autoDiffRegular_tracks (x : List (Cx R)) (g : Cx R → Cx R → N)
    (hs : ∀ a ∈ x, ∀ b ∈ x, Steps Q (termDiff a b) (g a b)) :
    Tracks Q L (fun out => autoDiffRegular x out) (fun k => selfSum g (regular x) k) := by
  unfold autoDiffRegular
  apply Tracks.diag'
  intro i hi
  have key : Tracks Q L (fun out => crossDiffAdd (x.drop i) (pyTake x ((x.length : Int) - i)) out i) (fun k =>
      if k = i then (((x.drop i).zip x).map fun p => g p.2 p.1).sum else 0) := by
    by_cases h : i ≤ x.length
    · rw [pyTake_sub _ _ _ h]
      have := crossDiffAdd_tracks (Q := Q) (L := L) (x.drop i) (x.take (x.length - i)) i (fun b a => g a b) (by simp) hi
        (fun b hb a ha => hs a (mem_take' ha) b (mem_drop' hb))
      rwa [zip_drop_take x x i _ rfl] at this
    · have e : x.drop i = [] := by rw [List.drop_eq_nil_iff]; omega
      rw [e]
      refine Tracks.some_id.congr fun k _ => ?_
      simp
  refine key.congr fun k _ => ?_
  by_cases hk : k = i
  · subst hk
    simp only [if_true]
    rw [selfSum_regular, sum_zip_swap x (x.drop k)]
  · simp [hk]

theorem autoCorrComplexRegular_tracks {Q : Cx R → N → Prop} (x : List (Cx R)) (g : Cx R → Cx R → N)
    (hout : L ≤ x.length + 1) (hs : ∀ a ∈ x, ∀ b ∈ x, Steps Q (b * a.conj) (g a b)) :
    Tracks Q L (fun out => autoCorrComplexRegular x out) (fun k => selfSumFwd g (regular x) k) := by
  unfold autoCorrComplexRegular
  apply Tracks.diag'
  intro i hi
  simp only [pyDrop, pyTake_sub _ _ _ (show i ≤ x.length by omega)]
  have := crossCorrComplexAdd_tracks (Q := Q) (L := L) (x.take (x.length - i)) (x.drop i) i g (by simp) hi
    (fun a ha b hb => hs a (mem_take' ha) b (mem_drop' hb))
  rw [zip_take_drop x x i _ rfl] at this
  refine this.congr fun k _ => ?_
  by_cases hk : k = i
  · subst hk
    simp only [if_true]
    rw [selfPairs_sorted_fwd _ _ _ (regular_sorted x), selfSum_regular]
  · simp [hk]

theorem crossCorrComplexRegular_tracks {Q : Cx R → N → Prop} (x y : List (Cx R)) (g : Cx R → Cx R → N)
    (hxy : x.length = y.length) (hodd : L % 2 = 1) (hout : (L + 1) / 2 ≤ x.length + 1)
    (hs : ∀ a ∈ x, ∀ b ∈ y, Steps Q (b * a.conj) (g a b)) :
    Tracks Q L (fun out => crossCorrComplexRegular x y out)
      (fun k => pairSumAt g (regular x) (regular y) (cellDelay L k)) := by
  set S := fun k => pairSumAt g (regular x) (regular y) (cellDelay L k) with hS
  have hloop : Tracks Q L (fun out => forRange ((L + 1) / 2) out fun out i => do
      let n : Int := (x.length : Int) - i
      let out ← crossCorrComplexAdd (pyTake x n) (pyDrop y i) out i
      if i > 0 then
        let j := out.length - i
        crossCorrComplexAdd (pyDrop x i) (pyTake y n) out j
      else some out) S := by
    refine (Tracks.forRange ((L + 1) / 2) _
      (fun i k => (if k = i then S k else 0) + if 0 < i ∧ k = L - i then S k else 0) ?_).congr ?_
    · intro i hi
      simp only [pyTake_sub _ _ _ (show i ≤ x.length by omega), pyDrop]
      have first := crossCorrComplexAdd_tracks (Q := Q) (L := L) (x.take (x.length - i)) (y.drop i) i g (by simp; omega)
        (by omega) (fun a ha b hb => hs a (mem_take' ha) b (mem_drop' hb))
      rw [zip_take_drop x y i _ hxy.symm] at first
      have hSi : S i = ((x.zip (y.drop i)).map fun p => g p.1 p.2).sum := by
        simp only [hS]
        rw [cellDelay, if_pos (by omega), pairSumAt_regular]
      by_cases hi0 : 0 < i
      · simp only [hi0, if_true]
        have second := crossCorrComplexAdd_tracks (Q := Q) (L := L) (x.drop i) (y.take (x.length - i)) (L - i) g
          (by simp; omega) (by omega) (fun a ha b hb => hs a (mem_drop' ha) b (mem_take' hb))
        rw [hxy, zip_drop_take y x i _ hxy, ← hxy] at second
        have hSj : S (L - i) = (((x.drop i).zip y).map fun p => g p.1 p.2).sum := by
          simp only [hS]
          rw [cellDelay, if_neg (by omega), show ((L - i : Nat) : Int) - L = -(i : Int) by omega,
            pairSumAt_regular_neg, sum_zip_swap]
        have second' : Tracks Q L (fun o => crossCorrComplexAdd (x.drop i) (y.take (x.length - i)) o (o.length - i)) _ :=
          second.congr_fun fun o ho => by rw [ho]
        refine (first.comp second').congr fun k _ => ?_
        congr 1
        · by_cases hk : k = i
          · subst hk; simp [hSi]
          · simp [hk]
        · by_cases hk : k = L - i
          · subst hk; simp [hSj]
          · simp [hk]
      · simp only [hi0, if_false]
        refine (first.comp Tracks.some_id).congr fun k _ => ?_
        by_cases hk : k = i
        · subst hk; simp [hSi]
        · simp [hk]
    · intro k hk
      have key : ∀ n, n ≤ (L + 1) / 2 →
          ((List.range n).map fun i =>
            (if k = i then S k else 0) + if 0 < i ∧ k = L - i then S k else 0).sum
          = if k < n ∨ (L < k + n) then S k else 0 := by
        intro n
        induction n with
        | zero => intro _; simp; omega
        | succ n ih =>
          intro hn
          rw [List.range_succ, List.map_append, List.sum_append, ih (by omega)]
          simp only [List.map_cons, List.map_nil, List.sum_cons, List.sum_nil, add_zero]
          by_cases h1 : k = n
          · have a1 : ¬ (k < n ∨ L < k + n) := by omega
            have a2 : ¬ (0 < n ∧ k = L - n) := by omega
            have a3 : (k < n + 1 ∨ L < k + (n + 1)) := by omega
            rw [if_neg a1, if_neg a2, if_pos a3, if_pos h1]; simp
          · by_cases h2 : 0 < n ∧ k = L - n
            · have a1 : ¬ (k < n ∨ L < k + n) := by omega
              have a3 : (k < n + 1 ∨ L < k + (n + 1)) := by omega
              rw [if_neg a1, if_pos h2, if_pos a3, if_neg h1]; simp
            · rw [if_neg h1, if_neg h2]
              have : (k < n ∨ L < k + n) ↔ (k < n + 1 ∨ L < k + (n + 1)) := by
                omega
              simp only [this]; simp
      rw [key _ le_rfl, if_pos (by omega)]
  intro out s hL hq
  show ∃ out', crossCorrComplexRegular x y out = some out' ∧ _
  unfold crossCorrComplexRegular
  rw [hL]
  exact hloop out s hL hq

end kernels
end Cddm
