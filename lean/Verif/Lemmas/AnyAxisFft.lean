import Verif.Lemmas.AnyAxisAuto
import Verif.Model.AnyAxisFft
import Verif.Spec.AnyAxis

/-! # The FFT functions on arrays of any number of axes: every pixel by itself -/

namespace Cddm
open Spec
variable {M : Type}

/-- Two runs end alike: with the same error, or with rows of length `L`. -/
def SameRes {A B : Type} (L : Nat) (r : Py (List A)) (r' : Py (List B)) : Prop :=
  (∃ e, r = .error e ∧ r' = .error e) ∨ ∃ l l', r = .ok l ∧ r' = .ok l' ∧ l.length = L ∧ l'.length = L

theorem SameRes.bind {A B C D : Type} {L L' : Nat} {r : Py (List A)} {r' : Py (List B)} (h : SameRes L r r')
    {f : List A → Py (List C)} {f' : List B → Py (List D)}
    (hf : ∀ a a', a.length = L → a'.length = L → SameRes L' (f a) (f' a')) : SameRes L' (r >>= f) (r' >>= f') := by
  rcases h with ⟨e, rfl, rfl⟩ | ⟨l, l', rfl, rfl, h1, h2⟩
  · exact Or.inl ⟨e, rfl, rfl⟩
  · exact hf l l' h1 h2

theorem SameRes.ok {A B : Type} {L : Nat} {l : List A} {l' : List B} (h : l.length = L) (h' : l'.length = L) :
    SameRes L (.ok l) (.ok l') := Or.inr ⟨l, l', rfl, rfl, h, h'⟩

theorem npFft_same {x x' : List (Cx ℝ)} {n : Nat} (h : x.length = n) (h' : x'.length = n) :
    SameRes n (npFft x) (npFft x') := by
  unfold npFft
  rw [h, h']
  split_ifs
  · exact Or.inl ⟨_, rfl, rfl⟩
  · exact SameRes.ok (by simp) (by simp)

theorem npIfft_same {x x' : List (Cx ℝ)} {n : Nat} (h : x.length = n) (h' : x'.length = n) :
    SameRes n (npIfft x) (npIfft x') := by
  unfold npIfft
  rw [h, h']
  split_ifs
  · exact Or.inl ⟨_, rfl, rfl⟩
  · exact SameRes.ok (by simp) (by simp)

theorem npIadd_same [Add M] {a a' b b' : List M} {n m : Nat} (h : a.length = n) (h' : a'.length = n)
    (hb : b.length = m) (hb' : b'.length = m) : SameRes n (npIadd a b) (npIadd a' b') := by
  unfold npIadd
  rw [h, h', hb, hb']
  by_cases e : m = n
  · rw [if_pos e, if_pos e]
    exact SameRes.ok (by simp; omega) (by simp; omega)
  · rw [if_neg e, if_neg e]
    rcases b with _ | ⟨v, _ | ⟨w, b⟩⟩ <;> rcases b' with _ | ⟨v', _ | ⟨w', b'⟩⟩
    all_goals first
      | exact Or.inl ⟨_, rfl, rfl⟩
      | exact SameRes.ok (by simp; omega) (by simp; omega)
      | (exfalso; simp at hb hb'; omega)

theorem iaddHead_same [Add M] {a a' b b' : List M} {n m : Nat} (k : Nat) (h : a.length = n) (h' : a'.length = n)
    (hb : b.length = m) (hb' : b'.length = m) : SameRes n (iaddHead a k b) (iaddHead a' k b') :=
  (npIadd_same (n := min k n) (by simp [h]) (by simp [h']) hb hb').bind fun c c' hc hc' =>
    SameRes.ok (by simp; omega) (by simp; omega)

theorem iaddTail_same [Add M] {a a' b b' : List M} {n m : Nat} (h : a.length = n) (h' : a'.length = n)
    (hb : b.length = m) (hb' : b'.length = m) : SameRes n (iaddTail a b) (iaddTail a' b') :=
  (npIadd_same (n := n - 1) (by simp [h]) (by simp [h']) hb hb').bind fun c c' hc hc' =>
    SameRes.ok (by simp; omega) (by simp; omega)

theorem iaddRev_same [Add M] {a a' b b' : List M} {n m : Nat} (k : Nat) (h : a.length = n) (h' : a'.length = n)
    (hb : b.length = m) (hb' : b'.length = m) : SameRes n (iaddRev a k b) (iaddRev a' k b') := by
  unfold iaddRev
  rw [h, h']
  refine (npIadd_same (n := min (revLen n k) n) (by simp [h]) (by simp [h']) hb hb').bind fun c c' hc hc' =>
    SameRes.ok (by simp; omega) (by simp; omega)

theorem revSlice_length_eq [Add M] {x : List M} {n : Nat} (h : x.length = n) (k : Nat) :
    (revSlice x k).length = min (revLen n k) n := by simp [revSlice, h]

theorem fftProduct_same {a a' b b' : List (Cx ℝ)} {n m : Nat} (h : a.length = n) (h' : a'.length = n)
    (hb : b.length = m) (hb' : b'.length = m) : SameRes (min n m) (fftProduct a b) (fftProduct a' b') :=
  (npFft_same h h').bind fun x x' hx hx' => (npFft_same hb hb').bind fun y y' hy hy' =>
    npIfft_same (by simp; omega) (by simp; omega)

theorem fftPower_same {a a' : List (Cx ℝ)} {n : Nat} (h : a.length = n) (h' : a'.length = n) :
    SameRes n (fftPower a) (fftPower a') :=
  (npFft_same h h').bind fun x x' hx hx' => npIfft_same (by simp; omega) (by simp; omega)

theorem foldReal_same {o o' : List (Cx ℝ)} {out out' : List ℝ} {n m : Nat} (h : o.length = m) (h' : o'.length = m)
    (hn : out.length = n) (hn' : out'.length = n) : SameRes n (foldReal o out) (foldReal o' out') := by
  unfold foldReal
  simp only [hn, hn']
  exact (npIadd_same (m := min n m) hn hn' (by simp [h]) (by simp [h'])).bind fun a a' ha ha' =>
    iaddTail_same ha ha' (m := min (revLen m n) m) (by rw [List.length_map, revSlice_length_eq h])
      (by rw [List.length_map, revSlice_length_eq h'])

theorem foldFull_same {o o' : List (Cx ℝ)} {out out' : List (Cx ℝ)} {n m : Nat} (h : o.length = m) (h' : o'.length = m)
    (hn : out.length = n) (hn' : out'.length = n) : SameRes n (foldFull o out) (foldFull o' out') := by
  unfold foldFull
  simp only [hn, hn']
  exact (iaddHead_same _ (m := min ((n + 1) / 2) m) hn hn' (by simp [h]) (by simp [h'])).bind fun a a' ha ha' =>
    iaddRev_same _ ha ha' (m := min (revLen m ((n + 1) / 2)) m) (revSlice_length_eq h _) (revSlice_length_eq h' _)

theorem fillData_same {x x' out out' : List (Cx ℝ)} {n m : Nat} (t : List Int) (h : x.length = m) (h' : x'.length = m)
    (hn : out.length = n) (hn' : out'.length = n) :
    SameRes n (orUB (fillData x t out)) (orUB (fillData x' t out')) := by
  unfold fillData forRange
  generalize List.range t.length = is
  induction is generalizing out out' with
  | nil => exact SameRes.ok hn hn'
  | cons i is ih =>
    simp only [List.foldlM_cons]
    rcases ht : t[i]? with _ | v
    · simp only [Option.bind_eq_bind, Option.bind_none]
      exact Or.inl ⟨_, rfl, rfl⟩
    · simp only [Option.bind_eq_bind, Option.bind_some, hn, hn']
      by_cases hv : v < n
      · rw [if_pos hv, if_pos hv]
        by_cases hi : i < m
        · rw [List.getElem?_eq_getElem (by omega), List.getElem?_eq_getElem (by omega)]
          simp only [Option.bind_some]
          rcases pyIdx n v with _ | k
          · simp only [Option.bind_none]
            exact Or.inl ⟨_, rfl, rfl⟩
          · simp only [Option.bind_some]
            exact ih (by simp [hn]) (by simp [hn'])
        · rw [List.getElem?_eq_none (by omega), List.getElem?_eq_none (by omega)]
          exact Or.inl ⟨_, rfl, rfl⟩
      · rw [if_neg hv, if_neg hv]
        simp only [Option.bind_some]
        exact ih hn hn'

theorem crossCorrFftRegular_same {x x' y y' : List (Cx ℝ)} {out out' : List ℝ} {N L : Nat} (hx : x.length = N)
    (hx' : x'.length = N) (hy : y.length = N) (hy' : y'.length = N) (h : out.length = L) (h' : out'.length = L) :
    SameRes L (crossCorrFftRegular x y out) (crossCorrFftRegular x' y' out') :=
  (fftProduct_same (n := N + N) (m := N + N) (by simp [hx]) (by simp [hx']) (by simp [hx, hy])
    (by simp [hx', hy'])).bind fun _ _ ha ha' => foldReal_same ha ha' h h'

theorem crossCorrComplexFftRegular_same {x x' y y' : List (Cx ℝ)} {out out' : List (Cx ℝ)} {N L : Nat}
    (hx : x.length = N) (hx' : x'.length = N) (hy : y.length = N) (hy' : y'.length = N) (h : out.length = L)
    (h' : out'.length = L) :
    SameRes L (crossCorrComplexFftRegular x y out) (crossCorrComplexFftRegular x' y' out') :=
  (fftProduct_same (n := N + N) (m := N + N) (by simp [hx]) (by simp [hx']) (by simp [hx, hy])
    (by simp [hx', hy'])).bind fun _ _ ha ha' => foldFull_same ha ha' h h'

theorem crossCorrFft_same {x x' y y' : List (Cx ℝ)} (t1 t2 : List Int) (len : Nat) {out out' : List ℝ} {N L : Nat}
    (hx : x.length = N) (hx' : x'.length = N) (hy : y.length = N) (hy' : y'.length = N) (h : out.length = L)
    (h' : out'.length = L) : SameRes L (crossCorrFft x y t1 t2 len out) (crossCorrFft x' y' t1 t2 len out') :=
  (fillData_same t1 hx hx' (n := len * 2) (by simp) (by simp)).bind fun _ _ ha ha' =>
    (fillData_same t2 hy hy' (n := len * 2) (by simp) (by simp)).bind fun _ _ hb hb' =>
      (fftProduct_same ha ha' hb hb').bind fun _ _ hc hc' => foldReal_same hc hc' h h'

theorem crossCorrComplexFft_same {x x' y y' : List (Cx ℝ)} (t1 t2 : List Int) (len : Nat) {out out' : List (Cx ℝ)}
    {N L : Nat} (hx : x.length = N) (hx' : x'.length = N) (hy : y.length = N) (hy' : y'.length = N) (h : out.length = L)
    (h' : out'.length = L) :
    SameRes L (crossCorrComplexFft x y t1 t2 len out) (crossCorrComplexFft x' y' t1 t2 len out') :=
  (fillData_same t1 hx hx' (n := len * 2) (by simp) (by simp)).bind fun _ _ ha ha' =>
    (fillData_same t2 hy hy' (n := len * 2) (by simp) (by simp)).bind fun _ _ hb hb' =>
      (fftProduct_same ha ha' hb hb').bind fun _ _ hc hc' => foldFull_same hc hc' h h'

theorem autoCorrFftRegular_same {x x' : List (Cx ℝ)} {out out' : List ℝ} {N L : Nat} (hx : x.length = N)
    (hx' : x'.length = N) (h : out.length = L) (h' : out'.length = L) :
    SameRes L (autoCorrFftRegular x out) (autoCorrFftRegular x' out') := by
  unfold autoCorrFftRegular
  rw [h, h']
  exact (fftPower_same (n := N + N) (by simp [hx]) (by simp [hx'])).bind fun a a' ha ha' =>
    npIadd_same (m := min L (N + N)) h h' (by simp [ha]) (by simp [ha'])

theorem autoCorrComplexFftRegular_same {x x' : List (Cx ℝ)} {out out' : List (Cx ℝ)} {N L : Nat} (hx : x.length = N)
    (hx' : x'.length = N) (h : out.length = L) (h' : out'.length = L) :
    SameRes L (autoCorrComplexFftRegular x out) (autoCorrComplexFftRegular x' out') := by
  unfold autoCorrComplexFftRegular
  rw [h, h']
  exact (fftPower_same (n := N + N) (by simp [hx]) (by simp [hx'])).bind fun a a' ha ha' =>
    npIadd_same (m := min L (N + N)) h h' (by simp [ha]) (by simp [ha'])

theorem autoCorrFft_same {x x' : List (Cx ℝ)} (t : List Int) (len : Nat) {out out' : List ℝ} {N L : Nat}
    (hx : x.length = N) (hx' : x'.length = N) (h : out.length = L) (h' : out'.length = L) :
    SameRes L (autoCorrFft x t len out) (autoCorrFft x' t len out') := by
  unfold autoCorrFft
  rw [h, h']
  exact (fillData_same t hx hx' (n := len * 2) (by simp) (by simp)).bind fun b b' hb hb' =>
    (fftPower_same hb hb').bind fun a a' ha ha' =>
      npIadd_same (m := min L (len * 2)) h h' (by simp [ha]) (by simp [ha'])

theorem autoCorrComplexFft_same {x x' : List (Cx ℝ)} (t : List Int) (len : Nat) {out out' : List (Cx ℝ)} {N L : Nat}
    (hx : x.length = N) (hx' : x'.length = N) (h : out.length = L) (h' : out'.length = L) :
    SameRes L (autoCorrComplexFft x t len out) (autoCorrComplexFft x' t len out') := by
  unfold autoCorrComplexFft
  rw [h, h']
  exact (fillData_same t hx hx' (n := len * 2) (by simp) (by simp)).bind fun b b' hb hb' =>
    (fftPower_same hb hb').bind fun a a' ha ha' =>
      npIadd_same (m := min L (len * 2)) h h' (by simp [ha]) (by simp [ha'])

theorem spectrum_same {x x' y : List (Cx ℝ)} {n m : Nat} (h : x.length = n) (h' : x'.length = n) (hy : y.length = m) :
    SameRes (min n m) (npIfft (List.zipWith (fun x y => x.conj * y) x y))
      (npIfft (List.zipWith (fun x y => x.conj * y) x' y)) :=
  npIfft_same (by simp [h, hy]) (by simp [h', hy])

theorem crossSumFftC_same {x x' : List (Cx ℝ)} (y : List (Cx ℝ)) (t : List Int) (len : Nat) {out out' : List (Cx ℝ)}
    {N L : Nat} (hx : x.length = N) (hx' : x'.length = N) (h : out.length = L) (h' : out'.length = L) :
    SameRes L (crossSumFftC x y t len out) (crossSumFftC x' y t len out') := by
  unfold crossSumFftC
  simp only [h, h']
  exact (fillData_same t hx hx' (n := len * 2) (by simp) (by simp)).bind fun _ _ hb hb' =>
    (npFft_same hb hb').bind fun _ _ hc hc' => (spectrum_same hc hc' rfl).bind fun o o' ho ho' =>
      (npIadd_same (m := min L (min (len * 2) y.length)) h h' (by simp [ho]) (by simp [ho'])).bind fun a a' ha ha' =>
        iaddTail_same ha ha' (m := min (revLen (min (len * 2) y.length) L) (min (len * 2) y.length))
          (by rw [List.length_map, revSlice_length_eq ho]) (by rw [List.length_map, revSlice_length_eq ho'])

theorem crossSumFftR_same {x x' : List ℝ} (y : List (Cx ℝ)) (t : List Int) (len : Nat) {out out' : List ℝ}
    {N L : Nat} (hx : x.length = N) (hx' : x'.length = N) (h : out.length = L) (h' : out'.length = L) :
    SameRes L (crossSumFftR x y t len out) (crossSumFftR x' y t len out') := by
  unfold crossSumFftR
  simp only [h, h']
  exact (fillData_same t (m := N) (by simp [hx]) (by simp [hx']) (n := len * 2) (by simp) (by simp)).bind fun _ _ hb hb' =>
    (npFft_same hb hb').bind fun _ _ hc hc' => (spectrum_same hc hc' rfl).bind fun o o' ho ho' =>
      (npIadd_same (m := min L (min (len * 2) y.length)) h h' (by simp [ho]) (by simp [ho'])).bind fun a a' ha ha' =>
        iaddTail_same ha ha' (m := min (revLen (min (len * 2) y.length) L) (min (len * 2) y.length))
          (by rw [List.length_map, revSlice_length_eq ho]) (by rw [List.length_map, revSlice_length_eq ho'])

theorem crossSumComplexFftC_same {x x' : List (Cx ℝ)} (y : List (Cx ℝ)) (t : List Int) (len : Nat)
    {out out' : List (Cx ℝ)} {N L : Nat} (hx : x.length = N) (hx' : x'.length = N) (h : out.length = L)
    (h' : out'.length = L) :
    SameRes L (crossSumComplexFftC x y t len out) (crossSumComplexFftC x' y t len out') := by
  unfold crossSumComplexFftC
  simp only [h, h']
  exact (fillData_same t hx hx' (n := len * 2) (by simp) (by simp)).bind fun _ _ hb hb' =>
    (npFft_same hb hb').bind fun _ _ hc hc' => (spectrum_same hc hc' rfl).bind fun o o' ho ho' =>
      (iaddHead_same _ (m := min ((L + 1) / 2) (min (len * 2) y.length)) h h' (by simp [ho])
        (by simp [ho'])).bind fun a a' ha ha' =>
        iaddRev_same _ ha ha' (m := min (revLen (min (len * 2) y.length) ((L + 1) / 2)) (min (len * 2) y.length))
          (by rw [List.length_map, revSlice_length_eq ho]) (by rw [List.length_map, revSlice_length_eq ho'])

theorem crossSumComplexFftR_same {x x' : List ℝ} (y : List (Cx ℝ)) (t : List Int) (len : Nat)
    {out out' : List ℝ} {N L : Nat} (hx : x.length = N) (hx' : x'.length = N) (h : out.length = L)
    (h' : out'.length = L) :
    SameRes L (crossSumComplexFftR x y t len out) (crossSumComplexFftR x' y t len out') := by
  unfold crossSumComplexFftR
  simp only [h, h']
  exact (fillData_same t (m := N) (by simp [hx]) (by simp [hx']) (n := len * 2) (by simp) (by simp)).bind fun _ _ hb hb' =>
    (npFft_same hb hb').bind fun _ _ hc hc' => (spectrum_same hc hc' rfl).bind fun o o' ho ho' =>
      (iaddHead_same _ (m := min ((L + 1) / 2) (min (len * 2) y.length)) h h' (by simp [ho])
        (by simp [ho'])).bind fun a a' ha ha' =>
        iaddRev_same _ ha ha' (m := min (revLen (min (len * 2) y.length) ((L + 1) / 2)) (min (len * 2) y.length))
          (by rw [List.length_map, revSlice_length_eq ho]) (by rw [List.length_map, revSlice_length_eq ho'])

/-! ### Rows -/

theorem mapM_py_cases {A B : Type} (l : List A) (F : A → Py B) :
    (∃ e a, a ∈ l ∧ F a = .error e ∧ l.mapM F = .error e) ∨
      ∃ r, l.mapM F = .ok r ∧ ∀ a ∈ l, ∃ b, F a = .ok b := by
  induction l with
  | nil => exact Or.inr ⟨[], rfl, by simp⟩
  | cons a l ih =>
    rw [List.mapM_cons]
    rcases ha : F a with e | b
    · exact Or.inl ⟨e, a, by simp, ha, rfl⟩
    · rcases ih with ⟨e, a', h1, h2, h3⟩ | ⟨r, h1, h2⟩
      · exact Or.inl ⟨e, a', by simp [h1], h2, by rw [h3]; rfl⟩
      · refine Or.inr ⟨b :: r, by rw [h1]; rfl, fun x hx => ?_⟩
        rcases List.mem_cons.1 hx with rfl | hx
        · exact ⟨b, ha⟩
        · exact h2 x hx

theorem overRowsPy_pixelWise [Zero M] (outer : List Nat) (L : Nat) (F : List Nat → Py (List M))
    (h : ∀ o o', InShape o outer → InShape o' outer → SameRes L (F o) (F o')) :
    PixelWise outer (overRowsPy outer L F) F := by
  unfold overRowsPy
  rcases mapM_py_cases (positionsOf outer) F with ⟨e, a, h1, h2, h3⟩ | ⟨r, h1, h2⟩
  · rw [h3]
    intro p hp
    rcases h a p (mem_positionsOf.1 h1) hp with ⟨e', g1, g2⟩ | ⟨l, l', g1, -⟩
    · rw [h2] at g1
      rw [g2, g1]
    · rw [h2] at g1
      cases g1
  · rw [h1]
    refine ⟨L, rfl, fun p hp => ?_⟩
    obtain ⟨b, hb⟩ := h2 p (mem_positionsOf.2 hp)
    have hl : b.length = L := by
      rcases h p p hp hp with ⟨e, g1, -⟩ | ⟨l, l', g1, g2, g3, g4⟩
      · rw [hb] at g1; cases g1
      · rw [hb, Except.ok.injEq] at g1
        rw [g1, g3]
    rw [along_mk _ rfl (inShape_length hp), hb]
    congr 1
    unfold rowAt
    simp only [List.dropLast_concat, List.getLastD_concat, hb]
    exact (map_getD_range hl).symm

theorem fftRows_pixelWise [Zero M] (frame : List Nat) (N n : Nat) (complex : Bool) (aout : Option (Tensor M))
    (F F' : List Nat → List M → Py (List M)) (hfit : OutFits frame aout)
    (e : ∀ o, InShape o frame → F o = F' o)
    (h : ∀ o o' out out', InShape o frame → InShape o' frame → out.length = out'.length →
      SameRes out.length (F' o out) (F' o' out')) :
    PixelWise frame (fftRows (frame ++ [N]) n complex aout F) fun p => (do
      let out ← defaultOut (outAt frame aout p) n complex
      F' p out) := by
  unfold fftRows
  have hpos : (frame ++ [N]).length - 1 = frame.length := by simp
  rw [hpos]
  rcases defaultOutAny_end N n complex hfit with ⟨h1, h2⟩ | ⟨out, L, h1, h2, h3⟩
  · rw [h1]
    intro p _
    simp only [h2 p, bind, Except.bind]
  · simp only [h1, bind, Except.bind]
    rw [h2, List.getLastD_concat, List.dropLast_concat]
    have := overRowsPy_pixelWise frame L (fun o => F o (rowAt out L o)) (fun o o' ho ho' => by
      simp only [e o ho, e o' ho']
      have := h o o' (rowAt out L o) (rowAt out L o') ho ho' (by simp [rowAt_length])
      rwa [rowAt_length] at this)
    refine pixelWise_congr this fun p hp => ?_
    simp only [h3 p hp, e p hp]

theorem moveAxis_rows {α : Type} (f : Tensor α) {ax : Nat} (hax : ax < f.shape.length) :
    (moveAxis f ax (f.shape.length - 1)).shape = frameShape f.shape ax ++ [f.shape.getD ax 0] ∧
    ∀ o, o.length = (frameShape f.shape ax).length →
      rowAt (moveAxis f ax (f.shape.length - 1)) (f.shape.getD ax 0) o = along f ax o := by
  have hl := frame_length hax
  rw [← hl]
  refine ⟨pyInsert_end _ _, fun o ho => ?_⟩
  unfold rowAt along
  rw [← ho]
  simp only [moveAxis_end_get, pyInsert]

theorem crossFftAny_pixelWise [Zero M] {kReg : List (Cx ℝ) → List (Cx ℝ) → List M → Py (List M)}
    {k : List (Cx ℝ) → List (Cx ℝ) → List Int → List Int → Nat → List M → Py (List M)}
    (hR : ∀ {x x' y y' : List (Cx ℝ)} {out out' : List M} {N L : Nat}, x.length = N → x'.length = N → y.length = N →
      y'.length = N → out.length = L → out'.length = L → SameRes L (kReg x y out) (kReg x' y' out'))
    (hK : ∀ {x x' y y' : List (Cx ℝ)} (t1 t2 : List Int) (len : Nat) {out out' : List M} {N L : Nat}, x.length = N →
      x'.length = N → y.length = N → y'.length = N → out.length = L → out'.length = L →
      SameRes L (k x y t1 t2 len out) (k x' y' t1 t2 len out'))
    (f1 f2 : Tensor (Cx ℝ)) (t1 t2 : Option (List Int)) (axis : Int) (n : Option Nat) (complex : Bool)
    (aout : Option (Tensor M)) {ax : Nat} (hs : f2.shape = f1.shape)
    (hax : NamesAxis f1.shape.length axis ax) (hfit : OutFits (frameShape f1.shape ax) aout) :
    PixelWise (frameShape f1.shape ax) (crossFftAny kReg k f1 f2 t1 t2 axis n complex aout) fun p => (do
      let (t, n) ← inspectCross (along f1 ax p).length (along f2 ax p).length t1 t2 n
        ((outAt (frameShape f1.shape ax) aout p).map List.length) complex
      let length ← fullLengthCross (along f1 ax p).length t
      let out ← defaultOut (outAt (frameShape f1.shape ax) aout p) n complex
      match t with
      | none => kReg (along f1 ax p) (along f2 ax p) out
      | some (t1, t2) => do
        checkDims (t1.length = (along f1 ax p).length ∧ t2.length = (along f2 ax p).length)
        k (along f1 ax p) (along f2 ax p) t1 t2 length out) := by
  have hl := hax.1
  simp only [along_length, hs]
  generalize hN : f1.shape.getD ax 0 = N
  have hne : ¬ (f1.shape = [] ∨ f1.shape ≠ f2.shape) := by
    rw [hs]
    rintro (h | h)
    · rw [h] at hl; simp at hl
    · exact h rfl
  obtain ⟨last, e1, e2, -⟩ := lastLength_ok hfit n
  have hfind : findAxis f1.shape.length axis true = .ok ax := by
    simp only [findAxis, resolveIdx_axis hax]
  unfold crossFftAny
  by_cases ht : t1.isNone ≠ t2.isNone
  · rw [if_pos ht]
    intro p _
    rcases t1 with _ | a <;> rcases t2 with _ | b
    · simp at ht
    · simp [inspectCross, bind, Except.bind]
    · simp [inspectCross, bind, Except.bind]
    · simp at ht
  · rw [if_neg ht, if_neg hne]
    simp only [resolveIdx_axis hax, Option.getD_some, hN, e1, hfind, bind, Except.bind]
    rcases hI : inspectCross N N t1 t2 n last complex with e | ⟨t, m⟩
    · intro p _
      simp only [← e2 _ _ _ _ p, hI]
    · simp only
      rcases hF : fullLengthCross N t with e | len
      · intro p _
        simp only [← e2 _ _ _ _ p, hI, hF]
      · simp only
        have hA := moveAxis_rows f1 hl
        have hB := moveAxis_rows f2 (hs ▸ hl)
        rw [hN] at hA
        rw [hs, hN] at hB
        rw [hA.1]
        refine pixelWise_congr (fftRows_pixelWise (frameShape f1.shape ax) N m complex aout _
          (fun p out => match (generalizing := false) t with
            | none => kReg (along f1 ax p) (along f2 ax p) out
            | some (a, b) => do
                checkDims (a.length = N ∧ b.length = N)
                k (along f1 ax p) (along f2 ax p) a b len out) hfit ?_ ?_) ?_
        · intro o ho
          funext out
          rw [hA.2 o (inShape_length ho), hB.2 o (inShape_length ho)]
          rfl
        · intro o o' out out' ho ho' hlen
          have a1 : ∀ q, (along f1 ax q).length = N := fun q => by rw [along_length, hN]
          have a2 : ∀ q, (along f2 ax q).length = N := fun q => by rw [along_length, hs, hN]
          rcases t with _ | ⟨a, b⟩
          · exact hR (a1 _) (a1 _) (a2 _) (a2 _) rfl hlen.symm
          · simp only
            rcases checkDims (decide (a.length = N ∧ b.length = N)) with e | _
            · exact Or.inl ⟨_, rfl, rfl⟩
            · exact hK a b len (a1 _) (a1 _) (a2 _) (a2 _) rfl hlen.symm
        · intro p hp
          simp only [← e2 _ _ _ _ p, hI, hF, bind, Except.bind]

theorem autoFftAny_pixelWise [Zero M] {kReg : List (Cx ℝ) → List M → Py (List M)}
    {k : List (Cx ℝ) → List Int → Nat → List M → Py (List M)}
    (hR : ∀ {x x' : List (Cx ℝ)} {out out' : List M} {N L : Nat}, x.length = N → x'.length = N →
      out.length = L → out'.length = L → SameRes L (kReg x out) (kReg x' out'))
    (hK : ∀ {x x' : List (Cx ℝ)} (t : List Int) (len : Nat) {out out' : List M} {N L : Nat}, x.length = N →
      x'.length = N → out.length = L → out'.length = L → SameRes L (k x t len out) (k x' t len out'))
    (f : Tensor (Cx ℝ)) (t : Option (List Int)) (axis : Int) (n : Option Nat)
    (aout : Option (Tensor M)) {ax : Nat}
    (hax : NamesAxis f.shape.length axis ax) (hfit : OutFits (frameShape f.shape ax) aout) :
    PixelWise (frameShape f.shape ax) (autoFftAny kReg k f t axis n aout) fun p => (do
      let (t, n) ← inspectAuto (along f ax p).length t n ((outAt (frameShape f.shape ax) aout p).map List.length)
      let length ← fullLengthAuto (along f ax p).length t
      let out ← defaultOut (outAt (frameShape f.shape ax) aout p) n false
      match t with
      | none => kReg (along f ax p) out
      | some t => do
        checkDims (t.length = (along f ax p).length)
        k (along f ax p) t length out) := by
  have hl := hax.1
  simp only [along_length]
  generalize hN : f.shape.getD ax 0 = N
  have hne : ¬ (f.shape = []) := by
    intro h
    rw [h] at hl; simp at hl
  obtain ⟨last, e1, -, e2⟩ := lastLength_ok hfit n
  have hfind : findAxis f.shape.length axis true = .ok ax := by
    simp only [findAxis, resolveIdx_axis hax]
  unfold autoFftAny
  rw [if_neg hne]
  simp only [resolveIdx_axis hax, Option.getD_some, hN, e1, hfind, bind, Except.bind]
  rcases hI : inspectAuto N t n last with e | ⟨t', m⟩
  · intro p _
    simp only [← e2 _ _ p, hI]
  · simp only
    rcases hF : fullLengthAuto N t' with e | len
    · intro p _
      simp only [← e2 _ _ p, hI, hF]
    · simp only
      have hA := moveAxis_rows f hl
      rw [hN] at hA
      rw [hA.1]
      refine pixelWise_congr (fftRows_pixelWise (frameShape f.shape ax) N m false aout _
        (fun p out => match (generalizing := false) t' with
          | none => kReg (along f ax p) out
          | some a => do
              checkDims (a.length = N)
              k (along f ax p) a len out) hfit ?_ ?_) ?_
      · intro o ho
        funext out
        rw [hA.2 o (inShape_length ho)]
        rfl
      · intro o o' out out' ho ho' hlen
        have a1 : ∀ q, (along f ax q).length = N := fun q => by rw [along_length, hN]
        rcases t' with _ | a
        · exact hR (a1 _) (a1 _) rfl hlen.symm
        · simp only
          rcases checkDims (decide (a.length = N)) with e | _
          · exact Or.inl ⟨_, rfl, rfl⟩
          · exact hK a len (a1 _) (a1 _) rfl hlen.symm
      · intro p hp
        simp only [← e2 _ _ p, hI, hF, bind, Except.bind]

theorem crossSumFftAny_pixelWise [Zero M]
    {kR kC : List M → List (Cx ℝ) → List Int → Nat → List M → Py (List M)}
    (hR : ∀ {x x' : List M} (y : List (Cx ℝ)) (t : List Int) (len : Nat) {out out' : List M} {N L : Nat}, x.length = N →
      x'.length = N → out.length = L → out'.length = L → SameRes L (kR x y t len out) (kR x' y t len out'))
    (hC : ∀ {x x' : List M} (y : List (Cx ℝ)) (t : List Int) (len : Nat) {out out' : List M} {N L : Nat}, x.length = N →
      x'.length = N → out.length = L → out'.length = L → SameRes L (kC x y t len out) (kC x' y t len out'))
    (f : Tensor M) (t tOther : Option (List Int)) (axis : Int) (n : Option Nat) (complex inv : Bool)
    (aout : Option (Tensor M)) {ax : Nat}
    (hax : NamesAxis f.shape.length axis ax) (hfit : OutFits (frameShape f.shape ax) aout) :
    PixelWise (frameShape f.shape ax) (crossSumFftAny kR kC f t tOther axis n complex inv aout) fun p =>
      crossSumFftApi kR kC (along f ax p) t tOther n complex inv (outAt (frameShape f.shape ax) aout p) := by
  have hl := hax.1
  unfold crossSumFftApi
  simp only [along_length]
  generalize hN : f.shape.getD ax 0 = N
  have hne : ¬ (f.shape = []) := by
    intro h
    rw [h] at hl; simp at hl
  obtain ⟨last, e1, e2, -⟩ := lastLength_ok hfit n
  have hfind : findAxis f.shape.length axis true = .ok ax := by
    simp only [findAxis, resolveIdx_axis hax]
  unfold crossSumFftAny
  by_cases ht : t.isNone ≠ tOther.isNone
  · rw [if_pos ht]
    intro p _
    rcases t with _ | a <;> rcases tOther with _ | b
    · simp at ht
    · simp [inspectCross, bind, Except.bind]
    · simp [inspectCross, bind, Except.bind]
    · simp at ht
  rw [if_neg ht, if_neg hne]
  simp only [resolveIdx_axis hax, Option.getD_some, hN, e1, hfind, bind, Except.bind]
  rcases hI : inspectCross N N t tOther n last complex with e | ⟨t', m⟩
  · intro p _
    simp only [← e2 _ _ _ _ p, hI]
  · simp only
    rcases hF : fullLengthCross N t' with e | len
    · intro p _
      simp only [← e2 _ _ _ _ p, hI, hF]
    · simp only
      have hA := moveAxis_rows f hl
      rw [hN] at hA
      rw [hA.1]
      refine pixelWise_congr (fftRows_pixelWise (frameShape f.shape ax) N m complex aout _
        (fun p out => match (generalizing := false) t' with
          | none => .error .valueError
          | some (t1, t2) => do
            let y ← orUB (fillOnes (if inv then t2.map (- ·) else t2) (List.replicate (len * 2) (0 : Cx ℝ)))
            let y ← npFft y
            checkDims ((if inv then t1.map (- ·) else t1).length = N)
            if complex then kC (along f ax p) y (if inv then t1.map (- ·) else t1) len out
            else kR (along f ax p) y (if inv then t1.map (- ·) else t1) len out) hfit ?_ ?_) ?_
      · intro o ho
        funext out
        rw [hA.2 o (inShape_length ho)]
        rfl
      · intro o o' out out' ho ho' hlen
        have a1 : ∀ q, (along f ax q).length = N := fun q => by rw [along_length, hN]
        rcases t' with _ | ⟨a, b⟩
        · exact Or.inl ⟨_, rfl, rfl⟩
        · simp only [bind, Except.bind]
          rcases orUB (fillOnes (if inv then b.map (- ·) else b) (List.replicate (len * 2) (0 : Cx ℝ))) with e | y
          · exact Or.inl ⟨_, rfl, rfl⟩
          · simp only
            rcases npFft y with e | y
            · exact Or.inl ⟨_, rfl, rfl⟩
            · simp only
              rcases checkDims (decide ((if inv then a.map (- ·) else a).length = N)) with e | _
              · exact Or.inl ⟨_, rfl, rfl⟩
              · cases complex
                · exact hR _ _ _ (a1 _) (a1 _) rfl hlen.symm
                · exact hC _ _ _ (a1 _) (a1 _) rfl hlen.symm
      · intro p hp
        simp only [← e2 _ _ _ _ p, hI, hF, bind, Except.bind]
        rcases defaultOut (outAt (frameShape f.shape ax) aout p) m complex with e | out
        · rfl
        · rcases t' with _ | ⟨a, b⟩
          · rfl
          · cases complex <;> rfl

theorem autoSumFftAny_pixelWise [AddCommGroup M] [Module ℝ M]
    {kR : List M → List (Cx ℝ) → List Int → Nat → List M → Py (List M)}
    (hR : ∀ {x x' : List M} (y : List (Cx ℝ)) (t : List Int) (len : Nat) {out out' : List M} {N L : Nat}, x.length = N →
      x'.length = N → out.length = L → out'.length = L → SameRes L (kR x y t len out) (kR x' y t len out'))
    (f : Tensor M) (t : Option (List Int)) (axis : Int) (n : Option Nat)
    (aout : Option (Tensor M)) {ax : Nat}
    (hax : NamesAxis f.shape.length axis ax) (hfit : OutFits (frameShape f.shape ax) aout) :
    PixelWise (frameShape f.shape ax) (autoSumFftAny kR f t axis n aout) fun p =>
      autoSumFftApi kR (along f ax p) t n (outAt (frameShape f.shape ax) aout p) := by
  have hl := hax.1
  unfold autoSumFftApi
  simp only [along_length]
  generalize hN : f.shape.getD ax 0 = N
  have hne : ¬ (f.shape = []) := by
    intro h
    rw [h] at hl; simp at hl
  obtain ⟨last, e1, -, e2⟩ := lastLength_ok hfit n
  have hfind : findAxis f.shape.length axis true = .ok ax := by
    simp only [findAxis, resolveIdx_axis hax]
  unfold autoSumFftAny
  rw [if_neg hne]
  simp only [resolveIdx_axis hax, Option.getD_some, hN, e1, hfind, bind, Except.bind]
  rcases hI : inspectAuto N t n last with e | ⟨t', m⟩
  · intro p _
    simp only [← e2 _ _ p, hI]
  · simp only
    rcases hF : fullLengthAuto N t' with e | len
    · intro p _
      simp only [← e2 _ _ p, hI, hF]
    · simp only
      have hA := moveAxis_rows f hl
      rw [hN] at hA
      rw [hA.1]
      refine pixelWise_congr (fftRows_pixelWise (frameShape f.shape ax) N m false aout _
        (fun p out => match (generalizing := false) t' with
          | none => .error .valueError
          | some t => do
            let y ← orUB (fillOnes t (List.replicate (len * 2) (0 : Cx ℝ)))
            let y ← npFft y
            checkDims (t.length = N)
            let out0 ← kR (along f ax p) y t len (List.replicate out.length 0)
            .ok (List.zipWith (· + ·) out (out0.mapIdx fun k v => if k = 0 then v else (1 / 2 : ℝ) • v))) hfit ?_ ?_) ?_
      · intro o ho
        funext out
        rw [hA.2 o (inShape_length ho)]
        rfl
      · intro o o' out out' ho ho' hlen
        have a1 : ∀ q, (along f ax q).length = N := fun q => by rw [along_length, hN]
        rcases t' with _ | a
        · exact Or.inl ⟨_, rfl, rfl⟩
        · simp only
          rcases orUB (fillOnes a (List.replicate (len * 2) (0 : Cx ℝ))) with e | y
          · exact Or.inl ⟨_, rfl, rfl⟩
          · simp only [bind, Except.bind]
            rcases npFft y with e | y
            · exact Or.inl ⟨_, rfl, rfl⟩
            · simp only
              rcases checkDims (decide (a.length = N)) with e | _
              · exact Or.inl ⟨_, rfl, rfl⟩
              · simp only
                rcases hR (out := List.replicate out.length 0) (out' := List.replicate out'.length 0) y a len (a1 o) (a1 o')
                    (L := out.length) (by simp) (by simp [hlen]) with ⟨e, g1, g2⟩ | ⟨l, l', g1, g2, g3, g4⟩
                · rw [g1, g2]
                  exact Or.inl ⟨_, rfl, rfl⟩
                · rw [g1, g2]
                  exact SameRes.ok (by simp [g3]) (by simp [g4, hlen])
      · intro p hp
        simp only [← e2 _ _ p, hI, hF, bind, Except.bind]
        rcases defaultOut (outAt (frameShape f.shape ax) aout p) m false with e | out
        · rfl
        · rcases t' with _ | a <;> rfl

end Cddm
