import Verif.Model.Vec
import Verif.Lemmas.Api

/-! # The vectorised kernels act column by column -/

namespace Cddm
open Spec

section
variable {α M : Type}

/-- A rectangular array of `K` columns. -/
def Rect (K : Nat) (X : List (List α)) : Prop := ∀ r ∈ X, r.length = K

theorem col_eq_map {K p : Nat} (hp : p < K) {X : List (List α)} (hX : Rect K X) (d : α) :
    col p X = X.map fun r => r.getD p d := by
  induction X with
  | nil => rfl
  | cons r X ih =>
    have hr : r.length = K := hX r (by simp)
    have := ih (fun s hs => hX s (List.mem_cons_of_mem _ hs))
    unfold col at this ⊢
    have hpr : p < r.length := by omega
    rw [List.filterMap_cons_some (b := r[p]) (by simp [hpr]), List.map_cons, this]
    simp [hpr]

theorem col_length {K p : Nat} (hp : p < K) {X : List (List α)} (hX : Rect K X) :
    (col p X).length = X.length := by
  rcases X with _ | ⟨r, X⟩
  · rfl
  · have : r.length = K := hX r (by simp)
    have hpr : p < r.length := by omega
    rw [col_eq_map hp hX r[p], List.length_map]

theorem col_get {K p : Nat} (hp : p < K) {X : List (List α)} (hX : Rect K X) (i : Nat) :
    (col p X)[i]? = (X[i]?).bind (·[p]?) := by
  rcases hXe : X with _ | ⟨r, X'⟩
  · simp [col]
  · have : r.length = K := hX r (by simp [hXe])
    have hpr : p < r.length := by omega
    rw [← hXe, col_eq_map hp hX r[p], List.getElem?_map]
    rcases hi : X[i]? with _ | s
    · rfl
    · have hs : s.length = K := hX s (List.mem_of_getElem? hi)
      have : p < s.length := by omega
      simp [this]

theorem col_set {K p : Nat} (hp : p < K) {X : List (List α)} (hX : Rect K X) (k : Nat)
    (row : List α) (hr : row.length = K) (v : α) (hv : row[p]? = some v) :
    col p (X.set k row) = (col p X).set k v := by
  have hX' : Rect K (X.set k row) := by
    intro r h
    rcases List.mem_or_eq_of_mem_set h with h | h
    · exact hX r h
    · rw [h, hr]
  rw [col_eq_map hp hX v, col_eq_map hp hX' v, List.map_set]
  simp [List.getD_eq_getElem?_getD, hv]

theorem rect_set {K : Nat} {X : List (List α)} (hX : Rect K X) (k : Nat)
    (row : List α) (hr : row.length = K) : Rect K (X.set k row) := by
  intro r h
  rcases List.mem_or_eq_of_mem_set h with h | h
  · exact hX r h
  · rw [h, hr]

theorem transposed_rect {K : Nat} {X : List (List α)} (hX : Rect K X) :
    Rect X.length (transposed K X) := by
  intro r hr
  simp only [transposed, List.mem_map, List.mem_range] at hr
  obtain ⟨p, hp, rfl⟩ := hr
  exact col_length hp hX

theorem col_transposed {K : Nat} {X : List (List α)} (hX : Rect K X) (i : Nat) (r : List α)
    (hi : X[i]? = some r) : col i (transposed K X) = r := by
  have hlt : i < X.length := by
    rw [List.getElem?_eq_some_iff] at hi; exact hi.1
  have hr : r.length = K := hX r (List.mem_of_getElem? hi)
  apply List.ext_getElem?
  intro j
  rw [col_get hlt (transposed_rect hX)]
  simp only [transposed, List.getElem?_map]
  by_cases hj : j < K
  · rw [List.getElem?_range hj, Option.map_some, Option.bind_some, col_get hj hX, hi,
      Option.bind_some]
  · rw [List.getElem?_eq_none (by simpa using hj), List.getElem?_eq_none (by omega)]
    rfl

theorem col_replicate {K p : Nat} (hp : p < K) (L : Nat) (z : α) :
    col p (List.replicate L (List.replicate K z)) = List.replicate L z := by
  have : Rect K (List.replicate L (List.replicate K z)) := by
    intro r hr
    rw [List.eq_of_mem_replicate hr, List.length_replicate]
  rw [col_eq_map hp this z, List.map_replicate]
  simp [hp]

/-- A loop over a two-dimensional state simulates, column by column, loops over one-dimensional
states. -/
theorem foldlM_sim {ι : Type} (K L : Nat) (l : List ι)
    (F : List (List M) → ι → Option (List (List M)))
    (G : Nat → List M → ι → Option (List M))
    (h : ∀ i ∈ l, ∀ s : List (List M), s.length = L → Rect K s →
      ∃ s', F s i = some s' ∧ s'.length = L ∧ Rect K s'
        ∧ ∀ p, p < K → G p (col p s) i = some (col p s'))
    (s : List (List M)) (hl : s.length = L) (hs : Rect K s) :
    ∃ s', l.foldlM F s = some s' ∧ s'.length = L ∧ Rect K s'
      ∧ ∀ p, p < K → l.foldlM (G p) (col p s) = some (col p s') := by
  induction l generalizing s with
  | nil => exact ⟨s, rfl, hl, hs, fun _ _ => rfl⟩
  | cons i l ih =>
    obtain ⟨s1, e1, hl1, hs1, hc1⟩ := h i (by simp) s hl hs
    obtain ⟨s2, e2, hl2, hs2, hc2⟩ :=
      ih (fun j hj => h j (List.mem_cons_of_mem _ hj)) s1 hl1 hs1
    refine ⟨s2, ?_, hl2, hs2, fun p hp => ?_⟩
    · rw [List.foldlM_cons, e1]; exact e2
    · rw [List.foldlM_cons, hc1 p hp]; exact hc2 p hp

/-- One pass of a `*_add_vec` function over a row. -/
theorem row_add [Add M] (K : Nat) (row : List M) (hr : row.length = K) (v : Nat → M)
    (body : List M → Nat → Option (List M))
    (hb : ∀ o : List M, ∀ j, j < K → body o j = addAt o j (v j)) :
    ∃ row', forRange K row body = some row' ∧ row'.length = K
      ∧ ∀ p (hp : p < row.length), row'[p]? = some (row[p] + v p) := by
  suffices H : ∀ n, n ≤ K → ∃ row', forRange n row body = some row' ∧ row'.length = K
      ∧ ∀ p (hp : p < row.length), row'[p]? = some (if p < n then row[p] + v p else row[p]) by
    obtain ⟨r, h1, h2, h3⟩ := H K le_rfl
    exact ⟨r, h1, h2, fun p hp => by rw [h3 p hp, if_pos (by omega)]⟩
  intro n
  induction n with
  | zero => exact fun _ => ⟨row, rfl, hr, fun p hp => by simp [hp]⟩
  | succ n ih =>
    intro hn
    obtain ⟨r, h1, h2, h3⟩ := ih (by omega)
    refine ⟨r.modify n (· + v n), ?_, by simpa using h2, fun p hp => ?_⟩
    · unfold forRange at h1 ⊢
      rw [List.range_succ, List.foldlM_append, h1]
      show List.foldlM body r [n] = _
      rw [List.foldlM_cons, hb r n (by omega)]
      simp [addAt, pyIdx_nonneg (len := r.length) (m := (n : Int)) (by omega) (by omega)]
    · rw [List.getElem?_modify, h3 p hp]
      by_cases hpn : n = p
      · subst hpn
        simp
      · by_cases h : p < n
        · simp [hpn, h, show p < n + 1 by omega]
        · simp [hpn, h, show ¬ p < n + 1 by omega]

/-- `modRow` with a row-adding function is `out[m] += v` in every column. -/
theorem modRow_sim [Add M] (K L : Nat) (s : List (List M)) (hl : s.length = L) (hs : Rect K s)
    (m : Int) (k : Nat) (hk : pyIdx L m = some k) (hkL : k < L)
    (F : List M → Option (List M)) (v : Nat → M)
    (hF : ∀ row : List M, row.length = K → ∃ row', F row = some row' ∧ row'.length = K
      ∧ ∀ p (hp : p < row.length), row'[p]? = some (row[p] + v p)) :
    ∃ s', modRow s m F = some s' ∧ s'.length = L ∧ Rect K s'
      ∧ ∀ p, p < K → addAt (col p s) m (v p) = some (col p s') := by
  have hks : k < s.length := by omega
  have hr : (s[k]).length = K := hs _ (List.getElem_mem hks)
  obtain ⟨row', e, hlen, hget⟩ := hF s[k] hr
  refine ⟨s.set k row', ?_, by simpa using hl, rect_set hs k row' hlen, fun p hp => ?_⟩
  · simp [modRow, hl, hk, List.getElem?_eq_getElem hks, e]
  · have hps : p < (s[k]).length := by omega
    rw [col_set hp hs k row' hlen _ (hget p hps)]
    unfold addAt
    rw [col_length hp hs, hl, hk, Option.bind_some]
    congr 1
    apply List.ext_getElem?
    intro i
    rw [List.getElem?_modify, List.getElem?_set, col_get hp hs, col_length hp hs]
    by_cases hi : k = i
    · subst hi
      simp [hks, hps]
    · simp [hi]

end

section
variable {R : Type} [CommRing R]

theorem pyIdx_lt {L : Nat} {m : Int} {k : Nat} (h : pyIdx L m = some k) : k < L := by
  unfold pyIdx at h
  split_ifs at h
  · simp only [Option.some.injEq] at h; omega
  · simp only [Option.some.injEq] at h; omega

theorem pyIdx_abs {L : Nat} {m : Int} (h0 : 0 ≤ m) (h : m < L) : pyIdx L m = some m.toNat :=
  pyIdx_nonneg h0 h

theorem pyIdx_signed {L : Nat} {m : Int} (h : |m| < ((L + 1) / 2 : Nat)) :
    ∃ k, pyIdx L m = some k := by
  rw [abs_lt] at h
  by_cases h0 : 0 ≤ m
  · exact ⟨_, pyIdx_nonneg h0 (by omega)⟩
  · exact ⟨_, pyIdx_neg (by omega) (by omega)⟩

omit [CommRing R] in
/-- The row functions. -/
theorem rowF {K : Nat} {x y : List (Cx R)} (hx : x.length = K) (hy : y.length = K)
    {M : Type} [Add M] (g : Cx R → Cx R → M) (d : Cx R)
    (F : List M → Option (List M))
    (hF : ∀ row, F row = forRange x.length row fun out j => do
      let x ← x[j]?
      let y ← y[j]?
      addAt out j (g x y)) :
    ∀ row : List M, row.length = K → ∃ row', F row = some row' ∧ row'.length = K
      ∧ ∀ p (hp : p < row.length), row'[p]? = some (row[p] + g (x.getD p d) (y.getD p d)) := by
  intro row hr
  rw [hF, hx]
  refine row_add K row hr (fun p => g (x.getD p d) (y.getD p d)) _ (fun o j hj => ?_)
  simp [show j < x.length by omega, show j < y.length by omega]

theorem col_getD {α : Type} {K p i : Nat} (hp : p < K) {X : List (List α)} (hX : Rect K X)
    {r : List α} (hi : X[i]? = some r) (d : α) : (col p X)[i]? = some (r.getD p d) := by
  have hr : r.length = K := hX r (List.mem_of_getElem? hi)
  rw [col_get hp hX, hi, Option.bind_some]
  simp [show p < r.length by omega]

theorem getElem?_lt {α : Type} {X : List α} {i : Nat} (h : i < X.length) :
    ∃ r, X[i]? = some r := ⟨X[i], List.getElem?_eq_getElem h⟩

/-- What it means for a two-stream vectorised kernel to be the one-pixel kernel in each column. -/
def VecSim {M : Type} (kVec : List (List (Cx R)) → List (List (Cx R)) → List Int → List Int →
      List (List M) → Option (List (List M)))
    (k : List (Cx R) → List (Cx R) → List Int → List Int → List M → Option (List M)) : Prop :=
  ∀ (K : Nat) (f1 f2 : List (List (Cx R))) (t1 t2 : List Int) (out : List (List M)),
    Rect K f1 → Rect K f2 → t1.length = f1.length → t2.length = f2.length → Rect K out →
    ∃ out', kVec f1 f2 t1 t2 out = some out' ∧ out'.length = out.length ∧ Rect K out'
      ∧ ∀ p, p < K → k (col p f1) (col p f2) t1 t2 (col p out) = some (col p out')

/-- Double loops. -/
theorem loop2_sim {M : Type} (K L n1 n2 : Nat) (lo : Nat → Nat)
    (F : Nat → List (List M) → Nat → Option (List (List M)))
    (G : Nat → Nat → List M → Nat → Option (List M))
    (k : Nat → List M → Option (List M))
    (hk : ∀ p, p < K → ∀ o : List M, k p o = forRange n1 o fun o i => forRange' (lo i) n2 o (G p i))
    (h : ∀ i, i < n1 → ∀ j, j < n2 → ∀ s : List (List M), s.length = L → Rect K s →
      ∃ s', F i s j = some s' ∧ s'.length = L ∧ Rect K s'
        ∧ ∀ p, p < K → G p i (col p s) j = some (col p s'))
    (out : List (List M)) (hl : out.length = L) (ho : Rect K out) :
    ∃ s', (forRange n1 out fun out i => forRange' (lo i) n2 out (F i)) = some s'
      ∧ s'.length = L ∧ Rect K s' ∧ ∀ p, p < K → k p (col p out) = some (col p s') := by
  have H := foldlM_sim K L (List.range n1) (fun out i => forRange' (lo i) n2 out (F i))
    (fun p o i => forRange' (lo i) n2 o (G p i)) (by
      intro i hi s hl hs
      unfold forRange'
      refine foldlM_sim K L _ (F i) (fun p => G p i) ?_ s hl hs
      intro j hj s hl hs
      refine h i (by simpa using hi) j ?_ s hl hs
      simp only [List.mem_range'_1] at hj
      omega) out hl ho
  obtain ⟨s', a, b, c, d⟩ := H
  exact ⟨s', a, b, c, fun p hp => by rw [hk p hp]; exact d p hp⟩

theorem loop2_sim0 {M : Type} (K L n1 n2 : Nat)
    (F : Nat → List (List M) → Nat → Option (List (List M)))
    (G : Nat → Nat → List M → Nat → Option (List M))
    (k : Nat → List M → Option (List M))
    (hk : ∀ p, p < K → ∀ o : List M, k p o = forRange n1 o fun o i => forRange n2 o (G p i))
    (h : ∀ i, i < n1 → ∀ j, j < n2 → ∀ s : List (List M), s.length = L → Rect K s →
      ∃ s', F i s j = some s' ∧ s'.length = L ∧ Rect K s'
        ∧ ∀ p, p < K → G p i (col p s) j = some (col p s'))
    (out : List (List M)) (hl : out.length = L) (ho : Rect K out) :
    ∃ s', (forRange n1 out fun out i => forRange n2 out (F i)) = some s'
      ∧ s'.length = L ∧ Rect K s' ∧ ∀ p, p < K → k p (col p out) = some (col p s') := by
  have e : ∀ {σ : Type} (s : σ) (b : σ → Nat → Option σ), forRange n2 s b = forRange' 0 n2 s b :=
    fun s b => by simp [forRange, forRange', List.range_eq_range']
  have := loop2_sim K L n1 n2 (fun _ => 0) F G k
    (fun p hp o => by rw [hk p hp o]; simp only [e]) h out hl ho
  simpa only [e] using this

theorem crossCorrVec_sim : VecSim (R := R) crossCorrVec crossCorr := by
  intro K f1 f2 t1 t2 out h1 h2 e1 e2 ho
  unfold crossCorrVec
  refine loop2_sim0 K out.length f1.length f2.length _ _ (fun p o => crossCorr (col p f1)
    (col p f2) t1 t2 o) (fun p hp o => by
      unfold crossCorr; rw [col_length hp h1, col_length hp h2]) ?_ out rfl ho
  · intro i hi j hj s hl hs
    obtain ⟨x, hx⟩ := getElem?_lt hi
    obtain ⟨y, hy⟩ := getElem?_lt hj
    obtain ⟨u, hu⟩ := getElem?_lt (show i < t1.length by omega)
    obtain ⟨v, hv⟩ := getElem?_lt (show j < t2.length by omega)
    simp only [hx, hy, hu, hv, Option.bind_eq_bind, Option.bind_some]
    by_cases hm : |v - u| < (s.length : Int)
    · have hk := pyIdx_abs (abs_nonneg (v - u)) (hl ▸ hm)
      obtain ⟨s', a, b, c, d⟩ := modRow_sim K out.length s hl hs _ _ hk (pyIdx_lt hk)
        (crossCorrAddVec x y) _
        (rowF (h1 x (List.mem_of_getElem? hx)) (h2 y (List.mem_of_getElem? hy))
          (fun a b => a.re * b.re + a.im * b.im) 0 _ (fun _ => rfl))
      refine ⟨s', by rw [if_pos hm]; exact a, b, c, fun p hp => ?_⟩
      rw [col_length hp hs, if_pos hm, col_getD hp h1 hx 0, col_getD hp h2 hy 0]
      exact d p hp
    · refine ⟨s, by rw [if_neg hm], hl, hs, fun p hp => ?_⟩
      rw [col_length hp hs, if_neg hm]

theorem crossCorrComplexVec_sim : VecSim (R := R) crossCorrComplexVec crossCorrComplex := by
  intro K f1 f2 t1 t2 out h1 h2 e1 e2 ho
  unfold crossCorrComplexVec
  refine loop2_sim0 K out.length f1.length f2.length _ _ (fun p o => crossCorrComplex (col p f1)
    (col p f2) t1 t2 o) (fun p hp o => by
      unfold crossCorrComplex; rw [col_length hp h1, col_length hp h2]) ?_ out rfl ho
  · intro i hi j hj s hl hs
    obtain ⟨x, hx⟩ := getElem?_lt hi
    obtain ⟨y, hy⟩ := getElem?_lt hj
    obtain ⟨u, hu⟩ := getElem?_lt (show i < t1.length by omega)
    obtain ⟨v, hv⟩ := getElem?_lt (show j < t2.length by omega)
    simp only [hx, hy, hu, hv, Option.bind_eq_bind, Option.bind_some]
    by_cases hm : |v - u| < ((s.length + 1) / 2 : Nat)
    · obtain ⟨k, hk⟩ := pyIdx_signed hm
      rw [hl] at hk
      obtain ⟨s', a, b, c, d⟩ := modRow_sim K out.length s hl hs _ _ hk (pyIdx_lt hk)
        (crossCorrComplexAddVec x y) _
        (rowF (h1 x (List.mem_of_getElem? hx)) (h2 y (List.mem_of_getElem? hy))
          (fun a b => b * a.conj) 0 _ (fun _ => rfl))
      refine ⟨s', by rw [if_pos hm]; exact a, b, c, fun p hp => ?_⟩
      rw [col_length hp hs, if_pos hm, col_getD hp h1 hx 0, col_getD hp h2 hy 0]
      simp only [Option.bind_some]
      rw [mul_comm]
      exact d p hp
    · refine ⟨s, by rw [if_neg hm], hl, hs, fun p hp => ?_⟩
      rw [col_length hp hs, if_neg hm]

theorem crossDiffVec_sim : VecSim (R := R) crossDiffVec crossDiff := by
  intro K f1 f2 t1 t2 out h1 h2 e1 e2 ho
  unfold crossDiffVec
  refine loop2_sim0 K out.length f1.length f2.length _ _ (fun p o => crossDiff (col p f1)
    (col p f2) t1 t2 o) (fun p hp o => by
      unfold crossDiff; rw [col_length hp h1, col_length hp h2]) ?_ out rfl ho
  · intro i hi j hj s hl hs
    obtain ⟨x, hx⟩ := getElem?_lt hi
    obtain ⟨y, hy⟩ := getElem?_lt hj
    obtain ⟨u, hu⟩ := getElem?_lt (show i < t1.length by omega)
    obtain ⟨v, hv⟩ := getElem?_lt (show j < t2.length by omega)
    simp only [hx, hy, hu, hv, Option.bind_eq_bind, Option.bind_some]
    by_cases hm : |v - u| < (s.length : Int)
    · have hk := pyIdx_abs (abs_nonneg (v - u)) (hl ▸ hm)
      obtain ⟨s', a, b, c, d⟩ := modRow_sim K out.length s hl hs _ _ hk (pyIdx_lt hk)
        (crossDiffAddVec y x) _
        (rowF (h2 y (List.mem_of_getElem? hy)) (h1 x (List.mem_of_getElem? hx))
          (fun a b => (a - b).re * (a - b).re + (a - b).im * (a - b).im) 0 _ (fun _ => rfl))
      refine ⟨s', by rw [if_pos hm]; exact a, b, c, fun p hp => ?_⟩
      rw [col_length hp hs, if_pos hm, col_getD hp h1 hx 0, col_getD hp h2 hy 0]
      exact d p hp
    · refine ⟨s, by rw [if_neg hm], hl, hs, fun p hp => ?_⟩
      rw [col_length hp hs, if_neg hm]

/-- The same for kernels of one stream. -/
def VecSim1 {α M : Type} (kVec : List (List α) → List Int → List (List M) →
      Option (List (List M)))
    (k : List α → List Int → List M → Option (List M)) : Prop :=
  ∀ (K : Nat) (f : List (List α)) (t : List Int) (out : List (List M)),
    Rect K f → t.length = f.length → Rect K out →
    ∃ out', kVec f t out = some out' ∧ out'.length = out.length ∧ Rect K out'
      ∧ ∀ p, p < K → k (col p f) t (col p out) = some (col p out')

theorem autoCorrVec_sim : VecSim1 (autoCorrVec (R := R)) autoCorr := by
  intro K f t out h1 e1 ho
  unfold autoCorrVec
  refine loop2_sim K out.length f.length f.length (fun i => i) _ _ (fun p o => autoCorr (col p f)
    t o) (fun p hp o => by
      unfold autoCorr; rw [col_length hp h1]) ?_ out rfl ho
  · intro i hi j hj s hl hs
    obtain ⟨x, hx⟩ := getElem?_lt hi
    obtain ⟨y, hy⟩ := getElem?_lt hj
    obtain ⟨u, hu⟩ := getElem?_lt (show i < t.length by omega)
    obtain ⟨v, hv⟩ := getElem?_lt (show j < t.length by omega)
    simp only [hx, hy, hu, hv, Option.bind_eq_bind, Option.bind_some]
    by_cases hm : |v - u| < (s.length : Int)
    · have hk := pyIdx_abs (abs_nonneg (v - u)) (hl ▸ hm)
      obtain ⟨s', a, b, c, d⟩ := modRow_sim K out.length s hl hs _ _ hk (pyIdx_lt hk)
        (crossCorrAddVec x y) _
        (rowF (h1 x (List.mem_of_getElem? hx)) (h1 y (List.mem_of_getElem? hy))
          (fun a b => a.re * b.re + a.im * b.im) 0 _ (fun _ => rfl))
      refine ⟨s', by rw [if_pos hm]; exact a, b, c, fun p hp => ?_⟩
      rw [col_length hp hs, if_pos hm, col_getD hp h1 hx 0, col_getD hp h1 hy 0]
      exact d p hp
    · refine ⟨s, by rw [if_neg hm], hl, hs, fun p hp => ?_⟩
      rw [col_length hp hs, if_neg hm]

theorem autoDiffVec_sim : VecSim1 (autoDiffVec (R := R)) autoDiff := by
  intro K f t out h1 e1 ho
  unfold autoDiffVec
  refine loop2_sim K out.length f.length f.length (fun i => i) _ _ (fun p o => autoDiff (col p f)
    t o) (fun p hp o => by
      unfold autoDiff; rw [col_length hp h1]) ?_ out rfl ho
  · intro i hi j hj s hl hs
    obtain ⟨x, hx⟩ := getElem?_lt hi
    obtain ⟨y, hy⟩ := getElem?_lt hj
    obtain ⟨u, hu⟩ := getElem?_lt (show i < t.length by omega)
    obtain ⟨v, hv⟩ := getElem?_lt (show j < t.length by omega)
    simp only [hx, hy, hu, hv, Option.bind_eq_bind, Option.bind_some]
    by_cases hm : |v - u| < (s.length : Int)
    · have hk := pyIdx_abs (abs_nonneg (v - u)) (hl ▸ hm)
      obtain ⟨s', a, b, c, d⟩ := modRow_sim K out.length s hl hs _ _ hk (pyIdx_lt hk)
        (crossDiffAddVec y x) _
        (rowF (h1 y (List.mem_of_getElem? hy)) (h1 x (List.mem_of_getElem? hx))
          (fun a b => (a - b).re * (a - b).re + (a - b).im * (a - b).im) 0 _ (fun _ => rfl))
      refine ⟨s', by rw [if_pos hm]; exact a, b, c, fun p hp => ?_⟩
      rw [col_length hp hs, if_pos hm, col_getD hp h1 hx 0, col_getD hp h1 hy 0]
      exact d p hp
    · refine ⟨s, by rw [if_neg hm], hl, hs, fun p hp => ?_⟩
      rw [col_length hp hs, if_neg hm]

theorem autoCorrComplexVec_sim : VecSim1 (autoCorrComplexVec (R := R)) autoCorrComplex := by
  intro K f t out h1 e1 ho
  unfold autoCorrComplexVec
  refine loop2_sim K out.length f.length f.length (fun i => i) _ _ (fun p o => autoCorrComplex
    (col p f) t o) (fun p hp o => by
      unfold autoCorrComplex; rw [col_length hp h1]) ?_ out rfl ho
  · intro i hi j hj s hl hs
    obtain ⟨x, hx⟩ := getElem?_lt hi
    obtain ⟨y, hy⟩ := getElem?_lt hj
    obtain ⟨u, hu⟩ := getElem?_lt (show i < t.length by omega)
    obtain ⟨v, hv⟩ := getElem?_lt (show j < t.length by omega)
    simp only [hx, hy, hu, hv, Option.bind_eq_bind, Option.bind_some]
    by_cases h0 : v - u ≥ 0
    · simp only [if_pos h0]
      by_cases hm : v - u < (s.length : Int)
      · have hk := pyIdx_abs h0 (hl ▸ hm)
        obtain ⟨s', a, b, c, d⟩ := modRow_sim K out.length s hl hs _ _ hk (pyIdx_lt hk)
          (crossCorrComplexAddVec x y) _
          (rowF (h1 x (List.mem_of_getElem? hx)) (h1 y (List.mem_of_getElem? hy))
            (fun a b => b * a.conj) 0 _ (fun _ => rfl))
        refine ⟨s', by rw [if_pos hm]; exact a, b, c, fun p hp => ?_⟩
        rw [col_length hp hs, if_pos hm, col_getD hp h1 hx 0, col_getD hp h1 hy 0]
        simp only [Option.bind_some]
        rw [mul_comm]
        exact d p hp
      · refine ⟨s, by rw [if_neg hm], hl, hs, fun p hp => ?_⟩
        rw [col_length hp hs, if_neg hm]
    · simp only [if_neg h0]
      by_cases hm : |v - u| < (s.length : Int)
      · have hk := pyIdx_abs (abs_nonneg (v - u)) (hl ▸ hm)
        obtain ⟨s', a, b, c, d⟩ := modRow_sim K out.length s hl hs _ _ hk (pyIdx_lt hk)
          (crossCorrComplexAddVec y x) _
          (rowF (h1 y (List.mem_of_getElem? hy)) (h1 x (List.mem_of_getElem? hx))
            (fun a b => b * a.conj) 0 _ (fun _ => rfl))
        refine ⟨s', by rw [if_pos hm]; exact a, b, c, fun p hp => ?_⟩
        rw [col_length hp hs, if_pos hm, col_getD hp h1 hx 0, col_getD hp h1 hy 0]
        exact d p hp
      · refine ⟨s, by rw [if_neg hm], hl, hs, fun p hp => ?_⟩
        rw [col_length hp hs, if_neg hm]

omit [CommRing R] in
theorem rowAdd {M : Type} [Add M] {K : Nat} {x : List M} (hx : x.length = K) (d : M) :
    ∀ row : List M, row.length = K → ∃ row', addVec x row = some row' ∧ row'.length = K
      ∧ ∀ p (hp : p < row.length), row'[p]? = some (row[p] + x.getD p d) := by
  intro row hr
  unfold addVec
  rw [hx]
  refine row_add K row hr (fun p => x.getD p d) _ (fun o j hj => ?_)
  simp [show j < x.length by omega]

theorem crossSumVec_sim {M : Type} [AddCommGroup M] (K : Nat) (f : List (List M)) (t1 t2 : List Int)
    (out : List (List M)) (h1 : Rect K f) (e1 : t1.length = f.length) (ho : Rect K out) :
    ∃ out', crossSumVec f t1 t2 out = some out' ∧ out'.length = out.length ∧ Rect K out'
      ∧ ∀ p, p < K → crossSum (col p f) t1 t2 (col p out) = some (col p out') := by
  unfold crossSumVec
  refine loop2_sim0 K out.length t1.length t2.length _ _ (fun p o => crossSum (col p f)
    t1 t2 o) (fun p hp o => rfl) ?_ out rfl ho
  intro i hi j hj s hl hs
  obtain ⟨x, hx⟩ := getElem?_lt (show i < f.length by omega)
  obtain ⟨u, hu⟩ := getElem?_lt hi
  obtain ⟨v, hv⟩ := getElem?_lt hj
  simp only [hx, hu, hv, Option.bind_eq_bind, Option.bind_some]
  by_cases hm : |v - u| < (s.length : Int)
  · have hk := pyIdx_abs (abs_nonneg (v - u)) (hl ▸ hm)
    obtain ⟨s', a, b, c, d⟩ := modRow_sim K out.length s hl hs _ _ hk (pyIdx_lt hk)
      (addVec x) _ (rowAdd (h1 x (List.mem_of_getElem? hx)) 0)
    refine ⟨s', by rw [if_pos hm]; exact a, b, c, fun p hp => ?_⟩
    rw [col_length hp hs, if_pos hm, col_getD hp h1 hx 0]
    exact d p hp
  · refine ⟨s, by rw [if_neg hm], hl, hs, fun p hp => ?_⟩
    rw [col_length hp hs, if_neg hm]

theorem crossSumComplexVec_sim {M : Type} [AddCommGroup M] (K : Nat) (f : List (List M))
    (t1 t2 : List Int)
    (out : List (List M)) (h1 : Rect K f) (e1 : t1.length = f.length) (ho : Rect K out) :
    ∃ out', crossSumComplexVec f t1 t2 out = some out' ∧ out'.length = out.length ∧ Rect K out'
      ∧ ∀ p, p < K → crossSumComplex (col p f) t1 t2 (col p out) = some (col p out') := by
  unfold crossSumComplexVec
  refine loop2_sim0 K out.length t1.length t2.length _ _ (fun p o => crossSumComplex (col p f)
    t1 t2 o) (fun p hp o => rfl) ?_ out rfl ho
  intro i hi j hj s hl hs
  obtain ⟨x, hx⟩ := getElem?_lt (show i < f.length by omega)
  obtain ⟨u, hu⟩ := getElem?_lt hi
  obtain ⟨v, hv⟩ := getElem?_lt hj
  simp only [hx, hu, hv, Option.bind_eq_bind, Option.bind_some]
  by_cases hm : |v - u| < ((s.length + 1) / 2 : Nat)
  · obtain ⟨k, hk⟩ := pyIdx_signed hm
    rw [hl] at hk
    obtain ⟨s', a, b, c, d⟩ := modRow_sim K out.length s hl hs _ _ hk (pyIdx_lt hk)
      (addVec x) _ (rowAdd (h1 x (List.mem_of_getElem? hx)) 0)
    refine ⟨s', by rw [if_pos hm]; exact a, b, c, fun p hp => ?_⟩
    rw [col_length hp hs, if_pos hm, col_getD hp h1 hx 0]
    exact d p hp
  · refine ⟨s, by rw [if_neg hm], hl, hs, fun p hp => ?_⟩
    rw [col_length hp hs, if_neg hm]

/-! ### The API skeletons -/

omit [CommRing R] in
theorem mapM_ok {ι β : Type} (l : List ι) (F : ι → Py β) (g : ι → β)
    (h : ∀ p ∈ l, F p = .ok (g p)) : l.mapM F = .ok (l.map g) := by
  induction l with
  | nil => rfl
  | cons a l ih =>
    rw [List.mapM_cons, h a (by simp), ih fun p hp => h p (List.mem_cons_of_mem _ hp)]
    rfl

omit [CommRing R] in
theorem mapM_err {ι β : Type} (l : List ι) (hl : l ≠ []) (F : ι → Py β) (e : PyErr)
    (h : ∀ p ∈ l, F p = .error e) : l.mapM F = .error e := by
  cases l with
  | nil => exact absurd rfl hl
  | cons a l =>
    rw [List.mapM_cons, h a (by simp)]
    rfl

omit [CommRing R] in
theorem mapM_congr {ι β : Type} (l : List ι) (F G : ι → Py β)
    (h : ∀ p ∈ l, F p = G p) : l.mapM F = l.mapM G := by
  induction l with
  | nil => rfl
  | cons a l ih =>
    rw [List.mapM_cons, List.mapM_cons, h a (by simp),
      ih fun p hp => h p (List.mem_cons_of_mem _ hp)]

omit [CommRing R] in
theorem perRow2_eq {ι α β M : Type} (k : α → β → List M → Option (List M)) (l : List ι)
    (a : ι → α) (b : ι → β) (c : ι → List M) :
    orUB (perRow2 k (l.map a) (l.map b) (l.map c)) = l.mapM fun p => orUB (k (a p) (b p) (c p)) := by
  induction l with
  | nil => rfl
  | cons p l ih =>
    rw [List.mapM_cons, ← ih]
    simp only [List.map_cons, perRow2]
    cases k (a p) (b p) (c p) with
    | none => rfl
    | some v =>
      cases perRow2 k (l.map a) (l.map b) (l.map c) <;> rfl

omit [CommRing R] in
theorem perRow_eq {ι α M : Type} (k : α → List M → Option (List M)) (l : List ι)
    (a : ι → α) (c : ι → List M) :
    orUB (perRow k (l.map a) (l.map c)) = l.mapM fun p => orUB (k (a p) (c p)) := by
  induction l with
  | nil => rfl
  | cons p l ih =>
    rw [List.mapM_cons, ← ih]
    simp only [List.map_cons, perRow]
    cases k (a p) (c p) with
    | none => rfl
    | some v =>
      cases perRow k (l.map a) (l.map c) <;> rfl

/-- Row `p` of an optional output array. -/
def outRow {M : Type} (aout : Option (Frames M)) (p : Nat) : Option (List M) :=
  aout.map fun o => o.rows.getD p []

/-- A given output array has a row for every pixel. -/
def OutShape {M : Type} (aout : Option (Frames M)) (K : Nat) : Prop :=
  ∀ o, aout = some o → o.rows.length = K

omit [CommRing R] in
theorem outRow_length {M : Type} {aout : Option (Frames M)} {K p : Nat} (h : OutShape aout K)
    (hp : p < K) : (outRow aout p).map List.length = aout.map Frames.width := by
  cases aout with
  | none => rfl
  | some o =>
    have hK := h o rfl
    have hp' : p < o.rows.length := by omega
    simp only [outRow, Option.map_some, Option.some.injEq]
    rw [show o.rows.getD p [] = o.rows[p] by simp [hp']]
    exact o.rect _ (List.getElem_mem hp')

omit [CommRing R] in
/-- The start array of the regular branch, row by row. -/
theorem defaultOut2_last {M : Type} [Zero M] {aout : Option (Frames M)} {K : Nat}
    (h : OutShape aout K) (n : Nat) (cx : Bool) :
    (defaultOut2 aout K n cx true = .error .valueError
      ∧ ∀ p, p < K → defaultOut (outRow aout p) n cx = .error .valueError)
    ∨ ∃ c : Nat → List M, defaultOut2 aout K n cx true = .ok ((List.range K).map c)
      ∧ ∀ p, p < K → defaultOut (outRow aout p) n cx = .ok (c p) := by
  cases aout with
  | none =>
    by_cases hc : cx = true ∧ n = 0
    · left
      obtain ⟨rfl, rfl⟩ := hc
      simp [defaultOut2, defaultOut, outRow]
    · right
      refine ⟨fun _ => List.replicate (if cx then 2 * n - 1 else n) 0, ?_, fun p hp => ?_⟩
      · simp only [defaultOut2, if_neg hc, if_true]
        rw [List.map_const', List.length_range]
      · cases cx
        · simp [defaultOut, outRow]
        · simp only [true_and] at hc
          simp [defaultOut, outRow, hc]
  | some o =>
    right
    have hK := h o rfl
    refine ⟨fun p => o.rows.getD p [], ?_, fun p hp => rfl⟩
    simp only [defaultOut2, hK, ne_eq, not_true_eq_false, if_false, if_true]
    congr 1
    apply List.ext_getElem
    · simp [hK]
    · intro i h1 h2
      simp [h1]

omit [CommRing R] in
/-- The start array of the vectorised branch, column by column. -/
theorem defaultOut2_first {M : Type} [Zero M] {aout : Option (Frames M)} {K : Nat}
    (h : OutShape aout K) (n : Nat) (cx : Bool) :
    (defaultOut2 aout K n cx false = .error .valueError
      ∧ ∀ p, p < K → defaultOut (outRow aout p) n cx = .error .valueError)
    ∨ ∃ o : List (List M), defaultOut2 aout K n cx false = .ok o ∧ Rect K o
      ∧ ∀ p, p < K → defaultOut (outRow aout p) n cx = .ok (col p o) := by
  cases aout with
  | none =>
    by_cases hc : cx = true ∧ n = 0
    · left
      obtain ⟨rfl, rfl⟩ := hc
      simp [defaultOut2, defaultOut, outRow]
    · right
      refine ⟨List.replicate (if cx then 2 * n - 1 else n) (List.replicate K 0), ?_, ?_,
        fun p hp => ?_⟩
      · simp only [defaultOut2, if_neg hc]
        rfl
      · intro r hr
        rw [List.eq_of_mem_replicate hr, List.length_replicate]
      · rw [col_replicate hp]
        cases cx
        · simp [defaultOut, outRow]
        · simp only [true_and] at hc
          simp [defaultOut, outRow, hc]
  | some o =>
    right
    have hK := h o rfl
    refine ⟨transposed o.width o.rows, ?_, ?_, fun p hp => ?_⟩
    · simp [defaultOut2, hK]
    · rw [← hK]; exact transposed_rect o.rect
    · have hp' : p < o.rows.length := by omega
      rw [col_transposed o.rect p o.rows[p] (by simp [hp'])]
      simp [defaultOut, outRow, hp']

omit [CommRing R] in
theorem crossFrames_eq {M : Type} [AddCommMonoid M]
    (kReg : List (Cx R) → List (Cx R) → List M → Option (List M))
    {kVec : List (List (Cx R)) → List (List (Cx R)) → List Int → List Int → List (List M) →
      Option (List (List M))}
    {k : List (Cx R) → List (Cx R) → List Int → List Int → List M → Option (List M)}
    (hsim : VecSim kVec k) (f1 f2 : Frames (Cx R)) (t1 t2 : Option (List Int)) (n : Option Nat)
    (align cx : Bool) (aout : Option (Frames M)) (hw : f2.width = f1.width) (h0 : 0 < f1.width)
    (ho : OutShape aout f1.width) :
    crossFrames kReg kVec f1 f2 t1 t2 n align cx aout
      = (List.range f1.width).mapM fun p =>
        crossApi (col p f1.rows).length (col p f2.rows).length t1 t2 n cx (outRow aout p)
          (fun out => if align then orUB (kReg (col p f1.rows) (col p f2.rows) out)
            else orUB (k (col p f1.rows) (col p f2.rows) (arange (col p f1.rows).length)
              (arange (col p f1.rows).length) out))
          (fun t1 t2 out => do
            checkDims (t1.length = (col p f1.rows).length ∧ t2.length = (col p f2.rows).length)
            orUB (k (col p f1.rows) (col p f2.rows) t1 t2 out)) := by
  have r1 : Rect f1.width f1.rows := f1.rect
  have r2 : Rect f1.width f2.rows := hw ▸ f2.rect
  have hne : List.range f1.width ≠ [] := by
    intro h; rw [List.range_eq_nil] at h; omega
  rw [mapM_congr _ _ (fun p => crossApi f1.rows.length f2.rows.length t1 t2 n cx (outRow aout p)
          (fun out => if align then orUB (kReg (col p f1.rows) (col p f2.rows) out)
            else orUB (k (col p f1.rows) (col p f2.rows) (arange f1.rows.length)
              (arange f1.rows.length) out))
          (fun t1 t2 out => do
            checkDims (t1.length = f1.rows.length ∧ t2.length = f2.rows.length)
            orUB (k (col p f1.rows) (col p f2.rows) t1 t2 out))) (by
      intro p hp
      rw [List.mem_range] at hp
      rw [col_length hp r1, col_length hp r2])]
  unfold crossFrames
  rcases hI : inspectCross f1.rows.length f2.rows.length t1 t2 n (aout.map Frames.width) cx
    with e | ⟨t, n'⟩
  · refine (mapM_err _ hne _ e fun p hp => ?_).symm
    rw [List.mem_range] at hp
    simp only [crossApi, outRow_length ho hp, hI, bind, Except.bind]
  · rw [mapM_congr _ _ (fun p => do
        let out ← defaultOut (outRow aout p) n' cx
        match t with
        | none =>
          if align then orUB (kReg (col p f1.rows) (col p f2.rows) out)
          else orUB (k (col p f1.rows) (col p f2.rows) (arange f1.rows.length)
              (arange f1.rows.length) out)
        | some (t1, t2) => do
            checkDims (t1.length = f1.rows.length ∧ t2.length = f2.rows.length)
            orUB (k (col p f1.rows) (col p f2.rows) t1 t2 out)) (by
      intro p hp
      rw [List.mem_range] at hp
      simp only [crossApi, outRow_length ho hp, hI, bind, Except.bind]
      rcases t with _ | ⟨a, b⟩ <;> rfl)]
    simp only [bind, Except.bind, hw, ne_eq, not_true_eq_false, if_false]
    have hreg := defaultOut2_last ho n' cx
    have hvec := defaultOut2_first ho n' cx
    have vec : ∀ a b : List Int, a.length = f1.rows.length → b.length = f2.rows.length →
        (do
          let out ← defaultOut2 aout f1.width n' cx false
          let out ← orUB (kVec f1.rows f2.rows a b out)
          Except.ok (transposed f1.width out))
        = (List.range f1.width).mapM (fun p => do
          let out ← defaultOut (outRow aout p) n' cx
          orUB (k (col p f1.rows) (col p f2.rows) a b out)) := by
      simp only [bind, Except.bind]
      intro a b ha hb
      rcases hvec with ⟨he, hp⟩ | ⟨o, he, hr, hp⟩
      · rw [he]
        refine (mapM_err _ hne _ _ fun p hpm => ?_).symm
        rw [List.mem_range] at hpm
        rw [hp p hpm]
      · rw [he]
        obtain ⟨o', e1, e2, e3, e4⟩ := hsim f1.width f1.rows f2.rows a b o r1 r2 ha hb hr
        simp only [e1, orUB]
        refine (mapM_ok _ _ (fun p => col p o') fun p hpm => ?_).symm
        rw [List.mem_range] at hpm
        rw [hp p hpm]
        simp only [e4 p hpm]
    rcases t with _ | ⟨a, b⟩
    · have hlen : f1.rows.length = f2.rows.length := by
        by_contra hcon
        revert hI
        unfold inspectCross
        simp only [ne_eq, hcon, not_false_eq_true, if_true, bind, Except.bind]
        split <;> simp
      cases align
      · have := vec (arange f1.rows.length) (arange f1.rows.length) (by simp [arange])
          (by simp [arange, hlen])
        simp only [bind, Except.bind] at this
        simpa using this
      · simp only [if_true]
        rcases hreg with ⟨he, hp⟩ | ⟨c, he, hp⟩
        · rw [he]
          refine (mapM_err _ hne _ _ fun p hpm => ?_).symm
          rw [List.mem_range] at hpm
          rw [hp p hpm]
        · rw [he]
          simp only [transposed]
          rw [perRow2_eq]
          refine mapM_congr _ _ _ fun p hpm => ?_
          rw [List.mem_range] at hpm
          rw [hp p hpm]
    · by_cases hd : a.length = f1.rows.length ∧ b.length = f2.rows.length
      · have := vec a b hd.1 hd.2
        simp only [bind, Except.bind] at this
        simpa [checkDims, hd] using this
      · simp only [checkDims, hd, decide_false, Bool.false_eq_true, if_false]
        refine Eq.trans (b := Except.error PyErr.valueError) ?_ (mapM_err _ hne _ _ ?_).symm
        · rcases hvec with ⟨he, -⟩ | ⟨o, he, -⟩ <;> rw [he]
        · intro p hpm
          rw [List.mem_range] at hpm
          rcases hvec with ⟨-, hp⟩ | ⟨o, -, -, hp⟩ <;> rw [hp p hpm]

omit [CommRing R] in
theorem autoFrames_eq {M : Type} [AddCommMonoid M]
    (kReg : List (Cx R) → List M → Option (List M))
    {kVec : List (List (Cx R)) → List Int → List (List M) → Option (List (List M))}
    {k : List (Cx R) → List Int → List M → Option (List M)}
    (hsim : VecSim1 kVec k) (f1 : Frames (Cx R)) (t : Option (List Int)) (n : Option Nat)
    (align : Bool) (aout : Option (Frames M)) (h0 : 0 < f1.width)
    (ho : OutShape aout f1.width) :
    autoFrames kReg kVec f1 t n align aout
      = (List.range f1.width).mapM fun p =>
        autoApi (col p f1.rows).length t n (outRow aout p)
          (fun out => if align then orUB (kReg (col p f1.rows) out)
            else orUB (k (col p f1.rows) (arange (col p f1.rows).length) out))
          (fun t out => do
            checkDims (t.length = (col p f1.rows).length)
            orUB (k (col p f1.rows) t out)) := by
  have r1 : Rect f1.width f1.rows := f1.rect
  have hne : List.range f1.width ≠ [] := by
    intro h; rw [List.range_eq_nil] at h; omega
  rw [mapM_congr _ _ (fun p => autoApi f1.rows.length t n (outRow aout p)
          (fun out => if align then orUB (kReg (col p f1.rows) out)
            else orUB (k (col p f1.rows) (arange f1.rows.length) out))
          (fun t out => do
            checkDims (t.length = f1.rows.length)
            orUB (k (col p f1.rows) t out))) (by
      intro p hp
      rw [List.mem_range] at hp
      rw [col_length hp r1])]
  unfold autoFrames
  rcases hI : inspectAuto f1.rows.length t n (aout.map Frames.width) with e | ⟨t, n'⟩
  · refine (mapM_err _ hne _ e fun p hp => ?_).symm
    rw [List.mem_range] at hp
    simp only [autoApi, outRow_length ho hp, hI, bind, Except.bind]
  · rw [mapM_congr _ _ (fun p => do
        let out ← defaultOut (outRow aout p) n' false
        match t with
        | none =>
          if align then orUB (kReg (col p f1.rows) out)
          else orUB (k (col p f1.rows) (arange f1.rows.length) out)
        | some t => do
            checkDims (t.length = f1.rows.length)
            orUB (k (col p f1.rows) t out)) (by
      intro p hp
      rw [List.mem_range] at hp
      simp only [autoApi, outRow_length ho hp, hI, bind, Except.bind]
      rcases t with _ | a <;> rfl)]
    simp only [bind, Except.bind]
    have hreg := defaultOut2_last ho n' false
    have hvec := defaultOut2_first ho n' false
    have vec : ∀ a : List Int, a.length = f1.rows.length →
        (do
          let out ← defaultOut2 aout f1.width n' false false
          let out ← orUB (kVec f1.rows a out)
          Except.ok (transposed f1.width out))
        = (List.range f1.width).mapM (fun p => do
          let out ← defaultOut (outRow aout p) n' false
          orUB (k (col p f1.rows) a out)) := by
      simp only [bind, Except.bind]
      intro a ha
      rcases hvec with ⟨he, hp⟩ | ⟨o, he, hr, hp⟩
      · rw [he]
        refine (mapM_err _ hne _ _ fun p hpm => ?_).symm
        rw [List.mem_range] at hpm
        rw [hp p hpm]
      · rw [he]
        obtain ⟨o', e1, e2, e3, e4⟩ := hsim f1.width f1.rows a o r1 ha hr
        simp only [e1, orUB]
        refine (mapM_ok _ _ (fun p => col p o') fun p hpm => ?_).symm
        rw [List.mem_range] at hpm
        rw [hp p hpm]
        simp only [e4 p hpm]
    rcases t with _ | a
    · cases align
      · have := vec (arange f1.rows.length) (by simp [arange])
        simp only [bind, Except.bind] at this
        simpa using this
      · simp only [if_true]
        rcases hreg with ⟨he, hp⟩ | ⟨c, he, hp⟩
        · rw [he]
          refine (mapM_err _ hne _ _ fun p hpm => ?_).symm
          rw [List.mem_range] at hpm
          rw [hp p hpm]
        · rw [he]
          simp only [transposed]
          rw [perRow_eq]
          refine mapM_congr _ _ _ fun p hpm => ?_
          rw [List.mem_range] at hpm
          rw [hp p hpm]
    · by_cases hd : a.length = f1.rows.length
      · have := vec a hd
        simp only [bind, Except.bind] at this
        simpa [checkDims, hd] using this
      · simp only [checkDims, hd, decide_false, Bool.false_eq_true, if_false]
        refine Eq.trans (b := Except.error PyErr.valueError) ?_ (mapM_err _ hne _ _ ?_).symm
        · rcases hvec with ⟨he, -⟩ | ⟨o, he, -⟩ <;> rw [he]
        · intro p hpm
          rw [List.mem_range] at hpm
          rcases hvec with ⟨-, hp⟩ | ⟨o, -, -, hp⟩ <;> rw [hp p hpm]

omit [CommRing R] in
theorem crossSumFrames_eq {M : Type} [AddCommGroup M] (f : Frames M) (t tOther : Option (List Int))
    (n : Option Nat) (cx inv : Bool) (aout : Option (Frames M)) (h0 : 0 < f.width)
    (ho : OutShape aout f.width) :
    crossSumFrames f t tOther n cx inv aout
      = (List.range f.width).mapM fun p =>
        crossSumApi (col p f.rows) t tOther n cx inv (outRow aout p) := by
  have r1 : Rect f.width f.rows := f.rect
  have hne : List.range f.width ≠ [] := by
    intro h; rw [List.range_eq_nil] at h; omega
  unfold crossSumFrames crossSumApi
  rcases hI : inspectCross f.rows.length f.rows.length t tOther n (aout.map Frames.width) cx
    with e | ⟨t, n'⟩
  · refine (mapM_err _ hne _ e fun p hp => ?_).symm
    rw [List.mem_range] at hp
    simp only [outRow_length ho hp, col_length hp r1, hI, bind, Except.bind]
  · rcases t with _ | ⟨a, b⟩
    · simp only [bind, Except.bind]
      rcases defaultOut2_last ho n' cx with ⟨he, hp⟩ | ⟨c, he, hp⟩
      · rw [he]
        refine (mapM_err _ hne _ _ fun p hpm => ?_).symm
        rw [List.mem_range] at hpm
        simp only [outRow_length ho hpm, col_length hpm r1, hI, hp p hpm]
      · rw [he]
        have key : ∀ kr : List M → List M → Option (List M),
            orUB (perRow kr (transposed f.width f.rows) ((List.range f.width).map c))
            = (List.range f.width).mapM fun p => orUB (kr (col p f.rows) (c p)) := by
          intro kr
          rw [← perRow_eq]
          rfl
        simp only [key]
        cases cx <;> cases inv <;> simp only [if_true, Bool.false_eq_true, if_false] <;>
        · refine mapM_congr _ _ _ fun p hpm => ?_
          rw [List.mem_range] at hpm
          simp only [outRow_length ho hpm, col_length hpm r1, hI, hp p hpm]
    · simp only [bind, Except.bind]
      rcases defaultOut2_first ho n' cx with ⟨he, hp⟩ | ⟨o, he, hr, hp⟩
      · rw [he]
        refine (mapM_err _ hne _ _ fun p hpm => ?_).symm
        rw [List.mem_range] at hpm
        simp only [outRow_length ho hpm, col_length hpm r1, hI, hp p hpm]
      · rw [he]
        set a' : List Int := if inv = true then a.map (- ·) else a with ha'
        set b' : List Int := if inv = true then b.map (- ·) else b with hb'
        by_cases hd : a'.length = f.rows.length
        · cases cx
          · obtain ⟨o', e1, e2, e3, e4⟩ := crossSumVec_sim f.width f.rows a' b' o r1 hd hr
            simp only [checkDims, hd, decide_true, if_true, Bool.false_eq_true, if_false, e1, orUB]
            refine (mapM_ok _ _ (fun p => col p o') fun p hpm => ?_).symm
            rw [List.mem_range] at hpm
            simp only [outRow_length ho hpm, col_length hpm r1, hI, hp p hpm]
            simp only [← ha', ← hb', hd, decide_true, if_true, e4 p hpm]
          · obtain ⟨o', e1, e2, e3, e4⟩ := crossSumComplexVec_sim f.width f.rows a' b' o r1 hd hr
            simp only [checkDims, hd, decide_true, if_true, e1, orUB]
            refine (mapM_ok _ _ (fun p => col p o') fun p hpm => ?_).symm
            rw [List.mem_range] at hpm
            simp only [outRow_length ho hpm, col_length hpm r1, hI, hp p hpm]
            simp only [← ha', ← hb', hd, decide_true, if_true, e4 p hpm]
        · simp only [checkDims, hd, decide_false, Bool.false_eq_true, if_false]
          refine (mapM_err _ hne _ _ fun p hpm => ?_).symm
          rw [List.mem_range] at hpm
          simp only [outRow_length ho hpm, col_length hpm r1, hI, hp p hpm]
          simp only [← ha', hd, decide_false, Bool.false_eq_true, if_false]

omit [CommRing R] in
theorem autoSumFrames_eq (𝕜 : Type) [Field 𝕜] {M : Type} [AddCommGroup M] [Module 𝕜 M]
    (f : Frames M) (t : Option (List Int))
    (n : Option Nat) (aout : Option (Frames M)) (h0 : 0 < f.width)
    (ho : OutShape aout f.width) :
    autoSumFrames 𝕜 f t n aout
      = (List.range f.width).mapM fun p =>
        autoSumApi 𝕜 (col p f.rows) t n (outRow aout p) := by
  have r1 : Rect f.width f.rows := f.rect
  have hne : List.range f.width ≠ [] := by
    intro h; rw [List.range_eq_nil] at h; omega
  unfold autoSumFrames autoSumApi autoSumWith
  rcases hI : inspectAuto f.rows.length t n (aout.map Frames.width) with e | ⟨t, n'⟩
  · refine (mapM_err _ hne _ e fun p hp => ?_).symm
    rw [List.mem_range] at hp
    simp only [outRow_length ho hp, col_length hp r1, hI, bind, Except.bind]
  · have fin : ∀ c : Nat → List M, ∀ F : Nat → Py (List M),
        (match (List.range f.width).mapM F with
          | Except.error e => Except.error e
          | Except.ok v => Except.ok (List.zipWith (List.zipWith (· + ·)) ((List.range f.width).map c)
            (v.map fun r => r.mapIdx fun k v => if k = 0 then v else (1 / 2 : 𝕜) • v)))
        = (List.range f.width).mapM fun p => (match F p with
          | Except.error e => Except.error e
          | Except.ok v => Except.ok (List.zipWith (· + ·) (c p)
            (v.mapIdx fun k v => if k = 0 then v else (1 / 2 : 𝕜) • v))) := by
      intro c F
      generalize List.range f.width = l
      induction l with
      | nil => rfl
      | cons i l ih =>
        rw [List.mapM_cons, List.mapM_cons, ← ih]
        rcases F i with e | v
        · rfl
        · rcases l.mapM F with e | w <;> rfl
    rcases t with _ | a
    · simp only [bind, Except.bind]
      rcases defaultOut2_last ho n' false with ⟨he, hp⟩ | ⟨c, he, hp⟩
      · rw [he]
        refine (mapM_err _ hne _ _ fun p hpm => ?_).symm
        rw [List.mem_range] at hpm
        simp only [outRow_length ho hpm, col_length hpm r1, hI, hp p hpm]
      · rw [he]
        simp only [List.map_map, transposed]
        rw [perRow_eq]
        have := fin c fun p => orUB (crossSumRegular (col p f.rows)
          (((fun r => List.replicate r.length (0 : M)) ∘ c) p))
        refine Eq.trans ?_ (Eq.trans this ?_)
        · rcases List.mapM _ _ with e | v <;> rfl
        · refine mapM_congr _ _ _ fun p hpm => ?_
          rw [List.mem_range] at hpm
          simp only [outRow_length ho hpm, col_length hpm r1, hI, hp p hpm, Function.comp]
          rcases orUB _ with e | v <;> rfl
    · simp only [bind, Except.bind]
      rcases defaultOut2_first ho n' false with ⟨he, hp⟩ | ⟨o, he, hr, hp⟩
      · rw [he]
        refine (mapM_err _ hne _ _ fun p hpm => ?_).symm
        rw [List.mem_range] at hpm
        simp only [outRow_length ho hpm, col_length hpm r1, hI, hp p hpm]
      · rw [he]
        by_cases hd : a.length = f.rows.length
        · have hr0 : Rect f.width (o.map fun r => List.replicate r.length (0 : M)) := by
            intro r hrm
            obtain ⟨s, hs, rfl⟩ := List.mem_map.mp hrm
            rw [List.length_replicate, hr s hs]
          have hc0 : ∀ p, p < f.width → col p (o.map fun r => List.replicate r.length (0 : M))
              = List.replicate (col p o).length 0 := by
            intro p hpm
            rw [col_eq_map hpm hr0 0, List.map_map, col_length hpm hr]
            rw [List.eq_replicate_iff]
            refine ⟨by simp, fun b hb => ?_⟩
            obtain ⟨s, hs, rfl⟩ := List.mem_map.mp hb
            have := hr s hs
            simp [this, hpm]
          obtain ⟨o', e1, e2, e3, e4⟩ := crossSumVec_sim f.width f.rows a a _ r1 hd hr0
          simp only [checkDims, hd, decide_true, if_true, e1, orUB]
          have := fin (fun p => col p o) fun p => .ok (col p o')
          rw [mapM_ok _ _ (fun p => col p o') (fun _ _ => rfl)] at this
          refine Eq.trans ?_ (Eq.trans this ?_)
          · rfl
          · refine mapM_congr _ _ _ fun p hpm => ?_
            rw [List.mem_range] at hpm
            simp only [outRow_length ho hpm, col_length hpm r1, hI, hp p hpm, hd, decide_true,
              if_true]
            rw [← hc0 p hpm, e4 p hpm]
        · simp only [checkDims, hd, decide_false, Bool.false_eq_true, if_false]
          refine (mapM_err _ hne _ _ fun p hpm => ?_).symm
          rw [List.mem_range] at hpm
          simp only [outRow_length ho hpm, col_length hpm r1, hI, hp p hpm, hd, decide_false,
            Bool.false_eq_true, if_false]

end
end Cddm
