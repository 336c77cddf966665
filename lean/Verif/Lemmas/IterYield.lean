import Verif.Model.IterYield
import Verif.Lemmas.IterPlain
import Verif.Lemmas.IterMain
import Verif.Lemmas.IterChunk

/-!
# The yields of the iterative functions
-/

namespace Cddm
open Spec

theorem yieldLoop_snd {D S Y : Type} (nframes : Nat) (step : Nat → D → S → Py S)
    (emit : Nat → S → List Y) : ∀ (ds : List D) (i : Nat) (s : S),
    (yieldLoop nframes step emit i ds s).2 = enumLoop nframes step i ds s
  | [], _, _ => rfl
  | d :: ds, i, s => by
    unfold yieldLoop enumLoop
    split
    · rfl
    · cases step i d s with
      | error e => rfl
      | ok s' => exact yieldLoop_snd nframes step emit ds (i + 1) s'

/-- If an invariant fixes what is yielded, this is it. -/
theorem yieldLoop_fst {D S Y : Type} (nframes : Nat) (step : Nat → D → S → Py S)
    (emit : Nat → S → List Y) (Inv : Nat → S → Prop) (g : Nat → List Y) (data : List D)
    (hstep : ∀ i x s, i < nframes → data[i]? = some x → Inv i s →
      ∃ s', step i x s = .ok s' ∧ Inv (i + 1) s' ∧ emit i s' = g i) :
    ∀ (ds : List D) (i : Nat) (s : S), ds = data.drop i → i ≤ nframes → Inv i s →
      (yieldLoop nframes step emit i ds s).1
        = (List.range (min ds.length (nframes - i))).flatMap fun k => g (i + k)
  | [], _, _, _, _, _ => by simp [yieldLoop]
  | d :: ds, i, s, hds, hi, hinv => by
    unfold yieldLoop
    by_cases hend : i = nframes
    · rw [if_pos hend, hend]
      simp
    · rw [if_neg hend]
      have hd : data[i]? = some d := by
        have := congrArg (·[0]?) hds
        simpa using this.symm
      have hds' : ds = data.drop (i + 1) := by
        have := congrArg List.tail hds
        simpa [List.tail_drop] using this
      obtain ⟨s', e1, e2, e3⟩ := hstep i d s (by omega) hd hinv
      have ih := yieldLoop_fst nframes step emit Inv g data hstep ds (i + 1) s' hds' (by omega) e2
      simp only [e1]
      rw [ih, e3, List.length_cons,
        show min (ds.length + 1) (nframes - i) = min ds.length (nframes - (i + 1)) + 1 by omega,
        List.range_succ_eq_map, List.flatMap_cons, List.flatMap_map, Nat.add_zero]
      congr 2
      funext k
      rw [Nat.add_assoc, Nat.add_comm 1 k]

/-- One value at the end of each half-chunk. -/
theorem range_ends {Y : Type} {half : Nat} (h : 0 < half) (f : Nat → Y) :
    ∀ m, ((List.range m).flatMap fun i => if i % half = half - 1 then [f (i + 1)] else [])
      = (List.range (m / half)).map fun p => f ((p + 1) * half)
  | 0 => by simp
  | m + 1 => by
    rw [List.range_succ, List.flatMap_append, range_ends h f m]
    by_cases he : m % half = half - 1
    · obtain ⟨e1, e2⟩ := div_of_end h he
      rw [e2, List.range_succ, List.map_append]
      simp [he, ← e1]
    · rw [div_of_not_end h he]
      simp [he]

theorem watchLoop_none {Y : Type} (ends : Py Nat) : ∀ (ys : List Y) (i : Nat) (l : Option Y),
    watchLoop none ends i l ys = ([], ends.bind fun taken =>
      match (l.toList ++ ys).getLast? with
      | none => .error .nameError
      | some y => .ok (taken, y))
  | [], _, none => by simp [watchLoop]
  | [], _, some y => by simp [watchLoop]
  | y :: ys, i, l => by
    have hl : (l.toList ++ y :: ys).getLast? = ((some y).toList ++ ys).getLast? := by
      rw [List.getLast?_append]
      simp [List.getLast?_cons]
    cases l <;> (unfold watchLoop; simp only; rw [watchLoop_none ends ys, hl])

theorem watchLoop_some {Y : Type} (ends : Py Nat) {v : Int} (hv : v ≠ 0) :
    ∀ (ys : List Y) (i : Nat) (l : Option Y),
    watchLoop (some v) ends i l ys
      = (((ys.zipIdx i).filter fun p => decide (v ∣ (p.2 : Int))).map Prod.fst,
        (watchLoop none ends i l ys).2)
  | [], _, none => by simp [watchLoop]
  | [], _, some y => by simp [watchLoop]
  | y :: ys, i, l => by
    have ih := watchLoop_some ends hv ys (i + 1) (some y)
    have e : watchLoop (some v) ends i l (y :: ys)
        = (if (i : Int) % v = 0 then y :: (watchLoop (some v) ends (i + 1) (some y) ys).1
            else (watchLoop (some v) ends (i + 1) (some y) ys).1,
          (watchLoop (some v) ends (i + 1) (some y) ys).2) := by
      cases l <;> (conv_lhs => unfold watchLoop) <;> simp only [hv, if_false]
    have e2 : watchLoop none ends i l (y :: ys) = watchLoop none ends (i + 1) (some y) ys := by
      cases l <;> (conv_lhs => unfold watchLoop)
    rw [e, e2, ih, List.zipIdx_cons]
    by_cases hd : v ∣ (i : Int)
    · rw [if_pos (Int.emod_eq_zero_of_dvd hd), List.filter_cons_of_pos (by simpa using hd)]
      rfl
    · rw [if_neg (fun h => hd (Int.dvd_of_emod_eq_zero h)),
        List.filter_cons_of_neg (by simpa using hd)]


theorem crossGen_result {C : Type} [Zero C] (cplx : Bool) (cc : CrossFn C)
    (data : List (Cx ℝ × Cx ℝ)) (t1 t2 : Option (List Int)) (o : MultiOpts) (env : IterEnv) :
    (watch none (crossGen cplx cc data t1 t2 o env)).2 = crossIterOf cplx cc data t1 t2 o env := by
  unfold watch crossIterOf crossIter crossGen
  rw [watchLoop_none]
  simp only [bind, Except.bind, Option.toList_none, List.nil_append]
  cases iterParams t1 t2 env.dataLen o.period o.levelSize o.chunkSize o.binning o.method o.count
    o.autoBackground o.nlevel o.mode with
  | error e => rfl
  | ok p =>
    obtain ⟨t1, t2, cfg⟩ := p
    simp only
    by_cases hd : data.isEmpty = true
    · rw [if_pos hd, if_pos hd]
      by_cases h : 0 < cfg.nframes - 1
      · rw [if_pos h, if_pos h]
      · rw [if_neg h, if_neg h]
    · rw [if_neg hd, if_neg hd]
      cases defaultNorm o.norm cfg.method true with
      | error e => rfl
      | ok norm =>
        simp only [finishGen, yieldLoop_snd]
        generalize enumLoop _ _ _ _ _ = res
        cases res with
        | error e => rfl
        | ok r =>
          obtain ⟨taken, ch, acc⟩ := r
          simp only
          by_cases hs : taken - 1 < cfg.nframes - 1
          · rw [if_pos hs, if_pos hs]
          · rw [if_neg hs, if_neg hs]
            generalize restCross _ _ _ _ _ _ _ _ _ _ _ _ = res
            cases res with
            | error e => rfl
            | ok slow => simp

theorem autoGen_result {C : Type} [Zero C] [Add C] (ac : AutoFn C) (cc : CrossFn C)
    (data : List (Cx ℝ)) (t : Option (List Int)) (o : MultiOpts) (env : IterEnv) :
    (watch none (autoGen ac cc data t o env)).2 = autoIterOf ac cc data t o env := by
  unfold watch autoIterOf autoIter autoGen
  rw [watchLoop_none]
  simp only [bind, Except.bind, Option.toList_none, List.nil_append]
  cases iterParams t none env.dataLen o.period o.levelSize o.chunkSize o.binning o.method o.count
    o.autoBackground o.nlevel o.mode with
  | error e => rfl
  | ok p =>
    obtain ⟨t1, t2, cfg⟩ := p
    simp only
    by_cases hd : data.isEmpty = true
    · rw [if_pos hd, if_pos hd]
      by_cases h : 0 < cfg.nframes - 1
      · rw [if_pos h, if_pos h]
      · rw [if_neg h, if_neg h]
    · rw [if_neg hd, if_neg hd]
      cases defaultNorm o.norm cfg.method false with
      | error e => rfl
      | ok norm =>
        simp only [finishGen, yieldLoop_snd]
        generalize enumLoop _ _ _ _ _ = res
        cases res with
        | error e => rfl
        | ok r =>
          obtain ⟨taken, ch, acc⟩ := r
          simp only
          by_cases hs : taken - 1 < cfg.nframes - 1
          · rw [if_pos hs, if_pos hs]
          · rw [if_neg hs, if_neg hs]
            generalize restAuto _ _ _ _ _ _ _ _ _ _ = res
            cases res with
            | error e => rfl
            | ok slow => simp


/-- The arrays after `m` frames. -/
noncomputable def accAt {C M : Type} [AddCommMonoid M] (cfg : IterCfg) (rowF rowS : M → CorrAout C)
    (K : Nat → Nat → M) (m : Nat) : IterAcc C :=
  ⟨rowF (∑ q ∈ Finset.range (m / cfg.half), K 0 q),
    (List.range cfg.nlevel).map fun l => rowS (levelSum cfg.nDecades cfg.half K m (l + 1))⟩

/-- One round of the main loop. -/
theorem iterStep_sum {C B D M : Type} [AddCommMonoid M] (cfg : IterCfg) (feed : Nat → D → B → Py B)
    (op : B → Nat → Nat → CorrAout C → Py (CorrAout C))
    (op' : Nat → Nat → CorrAout C → Py (CorrAout C)) (Inv : Nat → B → Prop) (data : List D)
    (rowF rowS : M → CorrAout C) (K : Nat → Nat → M)
    (hhalf : 0 < cfg.half)
    (hfeed : ∀ (i : Nat) x b, i < cfg.nframes → data[i]? = some x → Inv i b →
      ∃ b', feed i x b = .ok b' ∧ Inv (i + 1) b')
    (hop : ∀ (i : Nat) b, i < cfg.nframes → Inv (i + 1) b → ∀ j q row, j < max cfg.nDecades 1 →
      i + 1 = (q + 1) * (cfg.half * 2 ^ j) → op b j q row = op' j q row)
    (hnl : cfg.nDecades ≤ cfg.nlevel + 1)
    (hop0 : ∀ q d, (q + 1) * cfg.half ≤ cfg.nframes → op' 0 q (rowF d) = .ok (rowF (d + K 0 q)))
    (hop1 : ∀ j q d, 1 ≤ j → j < cfg.nDecades → (q + 1) * (cfg.half * 2 ^ j) ≤ cfg.nframes →
      op' j q (rowS d) = .ok (rowS (d + K j q)))
    (i : Nat) (x : D) (b : B) (hi : i < cfg.nframes) (hx : data[i]? = some x) (hb : Inv i b) :
    ∃ b', iterStep cfg feed op i x (b, accAt cfg rowF rowS K i)
        = .ok (b', accAt cfg rowF rowS K (i + 1)) ∧ Inv (i + 1) b' := by
  have hlen : i < data.length := by
    by_contra hlt
    rw [List.getElem?_eq_none (by omega)] at hx
    simp at hx
  have hdrop : [x] = (data.take (i + 1)).drop i := by
    rw [List.drop_take, show i + 1 - i = 1 by omega]
    have : data.drop i = x :: data.drop (i + 1) := by
      rw [List.drop_eq_getElem_cons hlen]
      rw [List.getElem?_eq_getElem hlen] at hx
      rw [Option.some.inj hx]
    rw [this]
    rfl
  have hsum := enumLoop_sum (D := D) cfg op' rowF rowS K hhalf hnl hop0 hop1 [x] i (by omega)
  have hsim := (enumLoop_sim cfg feed op op' Inv (data.take (i + 1)) hhalf
    (fun i' x' b' h1 h2 h3 => by
      refine hfeed i' x' b' h1 ?_ h3
      rw [List.getElem?_take] at h2
      split at h2
      · exact h2
      · simp at h2) hop [x] i b (accAt cfg rowF rowS K i) hdrop (by omega) hb).2 _ _ hsum
  obtain ⟨b', e1, e2⟩ := hsim
  simp only [List.length_cons, List.length_nil, Nat.zero_add] at e1 e2
  rw [min_eq_left (by omega : i + 1 ≤ cfg.nframes + 1)] at e1 e2
  rw [min_eq_left (by omega : i + 1 ≤ cfg.nframes)] at e1 e2
  refine ⟨b', ?_, e2⟩
  unfold enumLoop at e1
  rw [if_neg (by omega)] at e1
  cases hst : iterStep cfg feed op i x (b, accAt cfg rowF rowS K i) with
  | error e =>
    rw [hst] at e1
    simp [bind, Except.bind] at e1
  | ok s =>
    rw [hst] at e1
    simp only [bind, Except.bind, enumLoop, Except.ok.injEq, Prod.mk.injEq, true_and] at e1
    rw [e1]
    rfl

/-- What is yielded in the main loop. -/
theorem yields_sum {C B D M : Type} [AddCommMonoid M] (cfg : IterCfg) (feed : Nat → D → B → Py B)
    (op : B → Nat → Nat → CorrAout C → Py (CorrAout C))
    (op' : Nat → Nat → CorrAout C → Py (CorrAout C)) (Inv : Nat → B → Prop) (data : List D)
    (rowF rowS : M → CorrAout C) (K : Nat → Nat → M)
    (hhalf : 0 < cfg.half)
    (hfeed : ∀ (i : Nat) x b, i < cfg.nframes → data[i]? = some x → Inv i b →
      ∃ b', feed i x b = .ok b' ∧ Inv (i + 1) b')
    (hop : ∀ (i : Nat) b, i < cfg.nframes → Inv (i + 1) b → ∀ j q row, j < max cfg.nDecades 1 →
      i + 1 = (q + 1) * (cfg.half * 2 ^ j) → op b j q row = op' j q row)
    (hnl : cfg.nDecades ≤ cfg.nlevel + 1)
    (hop0 : ∀ q d, (q + 1) * cfg.half ≤ cfg.nframes → op' 0 q (rowF d) = .ok (rowF (d + K 0 q)))
    (hop1 : ∀ j q d, 1 ≤ j → j < cfg.nDecades → (q + 1) * (cfg.half * 2 ^ j) ≤ cfg.nframes →
      op' j q (rowS d) = .ok (rowS (d + K j q)))
    (stats : B → List (Option (Cx ℝ × ℝ))) (st : Nat → List (Option (Cx ℝ × ℝ)))
    (hst : ∀ p b, (p + 1) * cfg.half ≤ cfg.nframes → Inv ((p + 1) * cfg.half) b →
      stats b = st ((p + 1) * cfg.half))
    (b0 : B) (hb0 : Inv 0 b0) :
    (yieldLoop cfg.nframes (iterStep cfg feed op) (emitAt cfg.half stats) 0 data
      (b0, accAt cfg rowF rowS K 0)).1
    = (List.range (min data.length cfg.nframes / cfg.half)).map fun p =>
        ⟨(accAt cfg rowF rowS K ((p + 1) * cfg.half)).fast,
          (accAt cfg rowF rowS K ((p + 1) * cfg.half)).slow, st ((p + 1) * cfg.half)⟩ := by
  have key := yieldLoop_fst cfg.nframes (iterStep cfg feed op) (emitAt cfg.half stats)
    (fun i s => Inv i s.1 ∧ s.2 = accAt cfg rowF rowS K i)
    (fun i => if i % cfg.half = cfg.half - 1 then
      [(fun m => (⟨(accAt cfg rowF rowS K m).fast, (accAt cfg rowF rowS K m).slow, st m⟩ :
        IterOut C)) (i + 1)] else []) data
    (by
      rintro i x ⟨b, acc⟩ hi hx ⟨h1, h2⟩
      obtain rfl : acc = _ := h2
      obtain ⟨b', e1, e2⟩ := iterStep_sum cfg feed op op' Inv data rowF rowS K hhalf hfeed hop hnl
        hop0 hop1 i x b hi hx h1
      refine ⟨_, e1, ⟨e2, rfl⟩, ?_⟩
      unfold emitAt
      by_cases he : i % cfg.half = cfg.half - 1
      · rw [if_pos he, if_pos he]
        obtain ⟨f1, -⟩ := div_of_end hhalf he
        have := hst (i / cfg.half) b' (by rw [← f1]; omega) (by rw [← f1]; exact e2)
        rw [← f1] at this
        simp only [this]
      · rw [if_neg he, if_neg he])
    data 0 (b0, accAt cfg rowF rowS K 0) rfl (Nat.zero_le _) ⟨hb0, rfl⟩
  rw [key]
  simp only [Nat.zero_add, Nat.sub_zero]
  exact range_ends hhalf (fun m => (⟨(accAt cfg rowF rowS K m).fast,
    (accAt cfg rowF rowS K m).slow, st m⟩ : IterOut C)) _

theorem FeedInv.statAt {X : Nat → Cx ℝ} {D c half p : Nat} {squares ab : Bool} {b : Int}
    {r : Nat → ℚ} {ch : Chan} (hh : 0 < half)
    (h : FeedInv ab b r X D c half squares ((p + 1) * half) ch) :
    ch.stat = some (statOf (shown ab X half) ((p + 1) * half)) := by
  have hle : half ≤ (p + 1) * half := Nat.le_mul_of_pos_left _ (by omega)
  have hd : (p + 1) * half / half = p + 1 := Nat.mul_div_cancel _ hh
  exact (FeedInv.final hle ⟨by rw [hd], by rw [hd]; omega⟩ h).1

theorem accAt_zero {C M : Type} [AddCommMonoid M] (cfg : IterCfg) (rowF rowS : M → CorrAout C)
    (K : Nat → Nat → M) :
    accAt cfg rowF rowS K 0 = ⟨rowF 0, List.replicate cfg.nlevel (rowS 0)⟩ := by
  unfold accAt
  simp only [Nat.zero_div, Finset.range_zero, Finset.sum_empty, levelSum_zero]
  rw [List.map_const', List.length_range]

theorem finishGen_error {C B : Type} {nframes : Nat}
    {rest : B → IterAcc C → Py (List (CorrAout C))} {stats : B → List (Option (Cx ℝ × ℝ))}
    {r : List (IterOut C) × Py (Nat × B × IterAcc C)} {er : PyErr}
    (h : (watch none (finishGen nframes rest stats r)).2 = .error er) :
    finishGen nframes rest stats r = (r.1, .error er) := by
  unfold watch at h
  rw [watchLoop_none] at h
  obtain ⟨r1, r2⟩ := r
  unfold finishGen at h ⊢
  cases r2 with
  | error e' => simpa [bind, Except.bind] using h
  | ok x =>
    obtain ⟨taken, ch, acc⟩ := x
    simp only at h ⊢
    by_cases hs : taken - 1 < nframes - 1
    · rw [if_pos hs] at h ⊢
      simpa [bind, Except.bind] using h
    · rw [if_neg hs] at h ⊢
      cases hr : rest ch acc with
      | error e' => rw [hr] at h; simpa [bind, Except.bind] using h
      | ok slow => rw [hr] at h; simp [Except.bind] at h

theorem finishGen_ok {C B : Type} {nframes taken : Nat} {y : IterOut C}
    {rest : B → IterAcc C → Py (List (CorrAout C))} {stats : B → List (Option (Cx ℝ × ℝ))}
    {r : List (IterOut C) × Py (Nat × B × IterAcc C)}
    (h : (watch none (finishGen nframes rest stats r)).2 = .ok (taken, y)) :
    finishGen nframes rest stats r = (r.1 ++ [y], .ok taken) := by
  unfold watch at h
  rw [watchLoop_none] at h
  obtain ⟨r1, r2⟩ := r
  unfold finishGen at h ⊢
  cases r2 with
  | error e' => simp [Except.bind] at h
  | ok x =>
    obtain ⟨tk, ch, acc⟩ := x
    simp only at h ⊢
    by_cases hs : tk - 1 < nframes - 1
    · rw [if_pos hs] at h
      simp [Except.bind] at h
    · rw [if_neg hs] at h ⊢
      cases hr : rest ch acc with
      | error e' => rw [hr] at h; simp [Except.bind] at h
      | ok slow =>
        rw [hr] at h
        simp [Except.bind] at h
        simp [h.1, ← h.2]

section cross
variable {C : Type} [AddCommMonoid C] {cplx : Bool} {g : String → Cx ℝ → Cx ℝ → C}
  {cc : CrossFn C} {data : List (Cx ℝ × Cx ℝ)} {t1 t2 : Option (List Int)} {o : MultiOpts}
  {env : IterEnv} {e : Eff}

/-- The contributions at level `j`. -/
noncomputable def crossK (cplx : Bool) (g : Cx ℝ → Cx ℝ → C) (cfg : IterCfg) (T1 T2 : List Int)
    (r : Nat → ℚ) (squares : Bool) (Y1 Y2 : Nat → Cx ℝ) (j q : Nat) : RowFns C :=
  (levelParts cfg T1 T2 r squares Y1 Y2 j).term cplx g
    (iterLen cplx (if j = 0 then cfg.nFast else cfg.nSlow)) cfg.full q

/-- The configuration of a call. -/
def callCfg (o : MultiOpts) (e : Eff) (nd : Nat) : IterCfg :=
  { cfgOf e.chunk nd e.frames e.nlevel o.period o.levelSize e.method e.binning
      (decide (o.mode = "full")) o.autoBackground with norm := e.norm.toNat }

theorem cross_yields (K : CrossOK cplx g cc) (h : IterCall true cplx t1 t2 env.dataLen o e)
    (hne : data ≠ []) (Y1 Y2 : Nat → Cx ℝ)
    (hY1 : Y1 = shown o.autoBackground (frameAt (data.map Prod.fst)) e.chunk)
    (hY2 : Y2 = shown o.autoBackground (frameAt (data.map Prod.snd)) e.chunk) :
    ∃ nd, (o.nlevel = none → nd = e.k) ∧ (o.nlevel ≠ none → nd = e.nlevel + 1) ∧
      ∃ final, crossGen cplx cc data t1 t2 o env =
      ((List.range (min data.length e.frames / e.chunk)).map (fun p =>
          (⟨rowOf e.norm.toNat e.method true (iterLen cplx (o.period * o.levelSize))
              (iterLen cplx (o.period * o.levelSize))
              (∑ q ∈ Finset.range (p + 1), crossK cplx (g e.method) (callCfg o e nd) e.T1 e.T2
                env.rand (needsSquares e.norm.toNat && decide (e.method ≠ "diff")) Y1 Y2 0 q),
            (List.range e.nlevel).map fun l => rowOf e.norm.toNat e.method true
              (iterLen cplx o.levelSize) (iterLen cplx o.levelSize)
              (levelSum nd e.chunk (crossK cplx (g e.method) (callCfg o e nd) e.T1 e.T2 env.rand
                (needsSquares e.norm.toNat && decide (e.method ≠ "diff")) Y1 Y2)
                ((p + 1) * e.chunk) (l + 1)),
            [some (statOf Y1 ((p + 1) * e.chunk)), some (statOf Y2 ((p + 1) * e.chunk))]⟩ :
              IterOut C)) ++ (if e.frames ≤ data.length then [final] else []),
        if e.frames ≤ data.length then .ok (min data.length (e.frames + 1))
        else .error .valueError) := by
  obtain ⟨nd, hp, h1, h2⟩ := params_ok (period := o.period) (t1 := t1) (t2 := t2) o.autoBackground
    h.times h.frames h.levels h.binning h.mode
  refine ⟨nd, h1, h2, ?_⟩
  have hs := sized_ok h.frames h.levels h1 h2 o.period e.method e.binning (decide (o.mode = "full"))
    o.autoBackground e.norm.toNat
  have hn := defaultNorm_eff h.norm h.args.norm
  have hres := crossGen_result cplx cc data t1 t2 o env
  have hcall : iccorrMultiOf cplx cc data t1 t2 o env = crossIterOf cplx cc data t1 t2 o env := by
    unfold iccorrMultiOf
    rw [if_neg (pair_check (h.pair rfl))]
  rw [← hcall] at hres
  obtain ⟨cnt, k, hP⟩ := iterParams_ok hp
  have hd := hP.dims
  obtain ⟨hh, hls, hhn⟩ := hP.half_pos
  set squares := (needsSquares e.norm.toNat && decide (e.method ≠ "diff")) with hsq
  have hcor : (decide (e.method ≠ "diff")) = true ↔ e.method ≠ "diff" := by simp
  have hargs : IterArgs true cplx (callCfg o e nd).method (callCfg o e nd).norm
      (callCfg o e nd).half (callCfg o e nd).nframes (callCfg o e nd).nFast e.T1 e.T2 := by
    show IterArgs true cplx e.method ((e.norm.toNat : Nat) : Int) e.chunk e.frames
      (o.period * o.levelSize) e.T1 e.T2
    rw [supported_nat h.args.norm]
    exact h.args
  have hX : ∀ (i : Nat) x, data[i]? = some x → frameAt (data.map Prod.fst) i = x.1 ∧
      frameAt (data.map Prod.snd) i = x.2 := by
    intro i x hx
    simp [frameAt, List.getD_eq_getElem?_getD, hx]
  have hy := yields_sum (callCfg o e nd)
    (fun (i : Nat) (x : Cx ℝ × Cx ℝ) (ch : Chan × Chan) => do
      let c1 ← feedChan o.autoBackground (callCfg o e nd).half (callCfg o e nd).binning env.rand i
        x.1 ch.1
      let c2 ← feedChan o.autoBackground (callCfg o e nd).half (callCfg o e nd).binning env.rand i
        x.2 ch.2
      .ok (c1, c2))
    (crossOp cc (callCfg o e nd) e.T1 e.T2 env.aligned)
    (crossIdeal cc (callCfg o e nd) e.T1 e.T2 env.aligned env.rand squares Y1 Y2)
    (fun m ch =>
      FeedInv o.autoBackground e.binning env.rand (frameAt (data.map Prod.fst)) (max nd 1)
        (if nd > 0 then e.chunk * 2 else e.chunk) e.chunk squares m ch.1 ∧
      FeedInv o.autoBackground e.binning env.rand (frameAt (data.map Prod.snd)) (max nd 1)
        (if nd > 0 then e.chunk * 2 else e.chunk) e.chunk squares m ch.2) data
    (rowOf e.norm.toNat e.method true (iterLen cplx (o.period * o.levelSize))
      (iterLen cplx (o.period * o.levelSize)))
    (rowOf e.norm.toNat e.method true (iterLen cplx o.levelSize) (iterLen cplx o.levelSize))
    (crossK cplx (g e.method) (callCfg o e nd) e.T1 e.T2 env.rand squares Y1 Y2) hh
    (by
      intro i x b hi hx hb
      obtain ⟨e1, e2⟩ := hX i x hx
      obtain ⟨c1, f1, g1⟩ := feedChan_ok hd hi hb.1
      obtain ⟨c2, f2, g2⟩ := feedChan_ok hd hi hb.2
      rw [e1] at f1
      rw [e2] at f2
      refine ⟨(c1, c2), ?_, g1, g2⟩
      have f1' : feedChan o.autoBackground (callCfg o e nd).half (callCfg o e nd).binning env.rand i
        x.1 b.1 = .ok c1 := f1
      have f2' : feedChan o.autoBackground (callCfg o e nd).half (callCfg o e nd).binning env.rand i
        x.2 b.2 = .ok c2 := f2
      simp only [f1', f2', bind, Except.bind])
    (by
      intro i b hi hb j q row hj hm
      have hle : e.chunk ≤ i + 1 := by
        rw [hm]
        calc e.chunk ≤ e.chunk * 2 ^ j := Nat.le_mul_of_pos_right _ (Nat.two_pow_pos j)
          _ ≤ (q + 1) * (e.chunk * 2 ^ j) := Nat.le_mul_of_pos_left _ (by omega)
      rw [hY1, hY2]
      exact crossOp_eq cc (callCfg o e nd) e.T1 e.T2 env.aligned hd (hb.1.bufs hle)
        (hb.2.bufs hle) hj hm (by simpa using hi) row)
    hs.level
    (by
      intro q d hq
      exact crossIdeal_ok K (callCfg o e nd) e.T1 e.T2 env.aligned env.rand squares Y1 Y2 0 q
        (callCfg o e nd).nFast d hh hargs rfl
        (fun hcx => Nat.mul_pos (h.period) h.frames.level) (by simp) (by simpa using hq))
    (by
      intro j q d hj1 hj hq
      have hj0 : j ≠ 0 := by omega
      have hargs' : IterArgs true cplx (callCfg o e nd).method (callCfg o e nd).norm
          (callCfg o e nd).half (callCfg o e nd).nframes (callCfg o e nd).nSlow
          (levelT (callCfg o e nd).nframes e.T1 j) (levelT (callCfg o e nd).nframes e.T2 j) := by
        unfold levelT
        rw [if_neg hj0, if_neg hj0]
        exact iterArgs_arange hargs.method hargs.norm hargs.diff hs.slow
          (hs.slowLe.trans (Nat.le_succ _)) hs.half
      have := crossIdeal_ok K (callCfg o e nd) e.T1 e.T2 env.aligned env.rand squares Y1 Y2 j q
        (callCfg o e nd).nSlow d hh hargs'
        (by rw [if_neg hj0]) (fun _ => hs.slow) (fun _ => ⟨hs.slow, hs.slowLe⟩) hq
      unfold crossK
      simp only [hj0, if_false]
      exact this)
    (fun ch => [ch.1.stat, ch.2.stat]) (fun m => [some (statOf Y1 m), some (statOf Y2 m)])
    (by
      intro p b _ hb
      have s1 := hb.1.statAt hh
      have s2 := hb.2.statAt hh
      rw [hY1, hY2]
      show [b.1.stat, b.2.stat] = _
      rw [s1, s2]
      rfl)
    (initChan (fun j k => (env.junk j k).1) (fun j k => (env.junkSq j k).1) nd e.chunk
      squares, initChan (fun j k => (env.junk j k).2) (fun j k => (env.junkSq j k).2) nd e.chunk
      squares)
    ⟨feedInv_init o.autoBackground e.binning env.rand _ e.chunk squares hh _ _ _,
      feedInv_init o.autoBackground e.binning env.rand _ e.chunk squares hh _ _ _⟩
  rw [accAt_zero, ← zeroArrays_eq _ _ _ _ _ _ hcor, ← zeroArrays_eq _ _ _ _ _ _ hcor] at hy
  have hgen : crossGen cplx cc data t1 t2 o env
      = finishGen e.frames (fun (ch : Chan × Chan) acc => restCross cc (callCfg o e nd)
          env.aligned' env.rand
          (e.nlevel + 1 - max nd 1) (max nd 1) e.frames (ch.1.f.getLastD []) (ch.2.f.getLastD [])
          (ch.1.sq.map (·.getLastD [])) (ch.2.sq.map (·.getLastD [])) acc.slow)
          (fun ch => [ch.1.stat, ch.2.stat])
          (yieldLoop (callCfg o e nd).nframes (iterStep (callCfg o e nd)
            (fun (i : Nat) (x : Cx ℝ × Cx ℝ) (ch : Chan × Chan) => do
              let c1 ← feedChan o.autoBackground (callCfg o e nd).half (callCfg o e nd).binning
                env.rand i x.1 ch.1
              let c2 ← feedChan o.autoBackground (callCfg o e nd).half (callCfg o e nd).binning
                env.rand i x.2 ch.2
              .ok (c1, c2))
            (crossOp cc (callCfg o e nd) e.T1 e.T2 env.aligned))
            (emitAt (callCfg o e nd).half fun ch => [ch.1.stat, ch.2.stat]) 0 data
            ((initChan (fun j k => (env.junk j k).1) (fun j k => (env.junkSq j k).1) nd e.chunk
                squares,
              initChan (fun j k => (env.junk j k).2) (fun j k => (env.junkSq j k).2) nd e.chunk
                squares),
              ⟨zeroArrays e.norm.toNat true (decide (e.method ≠ "diff"))
                (iterLen cplx (o.period * o.levelSize)) (iterLen cplx (o.period * o.levelSize)),
              List.replicate e.nlevel (zeroArrays e.norm.toNat true (decide (e.method ≠ "diff"))
                (iterLen cplx o.levelSize) (iterLen cplx o.levelSize))⟩)) := by
    unfold crossGen
    simp only [hp]
    rw [if_neg (by simpa using hne)]
    have hn' : defaultNorm o.norm (cfgOf e.chunk nd e.frames e.nlevel o.period o.levelSize e.method
      e.binning (decide (o.mode = "full")) o.autoBackground).method true = .ok e.norm.toNat := hn
    simp only [hn']
    rfl
  rw [hgen] at hres ⊢
  have hrow : ∀ p, (p + 1) * e.chunk / e.chunk = p + 1 := fun p => Nat.mul_div_cancel _ hh
  by_cases hlen : e.frames ≤ data.length
  · obtain ⟨y, e1⟩ : ∃ y, iccorrMultiOf cplx cc data t1 t2 o env
        = .ok (min data.length (e.frames + 1), y) := by
      obtain ⟨fast, slow, e1, -⟩ := cross_any K h hlen rfl rfl
      exact ⟨_, e1⟩
    refine ⟨y, ?_⟩
    rw [finishGen_ok (hres.trans e1), if_pos hlen, if_pos hlen]
    congr 2
    refine hy.trans ?_
    apply List.map_congr_left
    intro p _
    unfold accAt
    simp only [callCfg, cfgOf, hrow]
  · refine ⟨⟨rowOf 0 "" true 0 0 0, [], []⟩, ?_⟩
    rw [finishGen_error (hres.trans (cross_short K h (by omega) hne)), if_neg hlen, if_neg hlen,
      List.append_nil]
    congr 1
    refine hy.trans ?_
    apply List.map_congr_left
    intro p _
    unfold accAt
    simp only [callCfg, cfgOf, hrow]

end cross

section auto
variable {C : Type} [AddCommMonoid C] {cplx : Bool} {g : String → Cx ℝ → Cx ℝ → C}
  {cor : String → Stream (Cx ℝ) → Nat → C} {ac : AutoFn C}
  {cc : CrossFn C} {data : List (Cx ℝ)} {t : Option (List Int)} {o : MultiOpts}
  {env : IterEnv} {e : Eff}

/-- The contributions at level `j`. -/
noncomputable def autoK (cplx : Bool) (cor : Stream (Cx ℝ) → Nat → C) (g : Cx ℝ → Cx ℝ → C)
    (cfg : IterCfg) (T : List Int) (r : Nat → ℚ) (squares : Bool) (Y : Nat → Cx ℝ) (j q : Nat) :
    RowFns C :=
  (levelParts cfg T T r squares Y Y j).autoTerm cplx cor g (iterLen cplx cfg.nFast) cfg.full q

theorem auto_yields (K : CrossOK cplx g cc) (KA : AutoOK cplx cor ac)
    (hshift : ∀ m c s, cor m (shiftStream c s) = cor m s)
    (h : IterCall false cplx t none env.dataLen o e)
    (hne : data ≠ []) (Y : Nat → Cx ℝ)
    (hY : Y = shown o.autoBackground (frameAt data) e.chunk) :
    ∃ nd, (o.nlevel = none → nd = e.k) ∧ (o.nlevel ≠ none → nd = e.nlevel + 1) ∧
      ∃ final, autoGen ac cc data t o env =
      ((List.range (min data.length e.frames / e.chunk)).map (fun p =>
          (⟨rowOf e.norm.toNat e.method false (o.period * o.levelSize) (o.period * o.levelSize)
              (∑ q ∈ Finset.range (p + 1), autoK cplx (cor e.method) (g e.method) (callCfg o e nd)
                e.T1 env.rand (needsSquares e.norm.toNat && decide (e.method ≠ "diff")) Y 0 q),
            (List.range e.nlevel).map fun l => rowOf e.norm.toNat e.method false
              o.levelSize o.levelSize
              (levelSum nd e.chunk (autoK cplx (cor e.method) (g e.method) (callCfg o e nd) e.T1
                env.rand (needsSquares e.norm.toNat && decide (e.method ≠ "diff")) Y)
                ((p + 1) * e.chunk) (l + 1)),
            [some (statOf Y ((p + 1) * e.chunk))]⟩ :
              IterOut C)) ++ (if e.frames ≤ data.length then [final] else []),
        if e.frames ≤ data.length then .ok (min data.length (e.frames + 1))
        else .error .valueError) := by
  obtain ⟨nd, hp, h1, h2⟩ := params_ok (period := o.period) (t1 := t) (t2 := none) o.autoBackground
    h.times h.frames h.levels h.binning h.mode
  refine ⟨nd, h1, h2, ?_⟩
  have hT : e.T2 = e.T1 := h.times.second
  have hs := sized_ok h.frames h.levels h1 h2 o.period e.method e.binning (decide (o.mode = "full"))
    o.autoBackground e.norm.toNat
  have hn := defaultNorm_eff h.norm h.args.norm
  have hres := autoGen_result ac cc data t o env
  obtain ⟨cnt, k, hP⟩ := iterParams_ok hp
  have hd := hP.dims
  obtain ⟨hh, hls, hhn⟩ := hP.half_pos
  have hfast : o.levelSize ≤ o.period * o.levelSize := Nat.le_mul_of_pos_left _ h.period
  have hslow : 1 ≤ o.levelSize := h.frames.level
  set squares := (needsSquares e.norm.toNat && decide (e.method ≠ "diff")) with hsq
  have hcor : (decide (e.method ≠ "diff")) = true ↔ e.method ≠ "diff" := by simp
  have hargs : IterArgs false cplx (callCfg o e nd).method (callCfg o e nd).norm
      (callCfg o e nd).half (callCfg o e nd).nframes (callCfg o e nd).nFast e.T1 e.T1 := by
    show IterArgs false cplx e.method ((e.norm.toNat : Nat) : Int) e.chunk e.frames
      (o.period * o.levelSize) e.T1 e.T1
    rw [supported_nat h.args.norm]
    have := h.args
    rw [hT] at this
    exact this
  have hX : ∀ (i : Nat) x, data[i]? = some x → frameAt data i = x := by
    intro i x hx
    simp [frameAt, List.getD_eq_getElem?_getD, hx]
  have hy := yields_sum (callCfg o e nd)
    (feedChan o.autoBackground (callCfg o e nd).half (callCfg o e nd).binning env.rand)
    (autoOp ac cc (callCfg o e nd) e.T1 env.aligned)
    (autoIdeal ac cc (callCfg o e nd) e.T1 env.aligned env.rand squares Y)
    (FeedInv o.autoBackground e.binning env.rand (frameAt data) (max nd 1)
        (if nd > 0 then e.chunk * 2 else e.chunk) e.chunk squares) data
    (rowOf e.norm.toNat e.method false (o.period * o.levelSize) (o.period * o.levelSize))
    (rowOf e.norm.toNat e.method false o.levelSize o.levelSize)
    (autoK cplx (cor e.method) (g e.method) (callCfg o e nd) e.T1 env.rand squares Y) hh
    (by
      intro i x b hi hx hb
      obtain ⟨c1, f1, g1⟩ := feedChan_ok hd hi hb
      rw [hX i x hx] at f1
      exact ⟨c1, f1, g1⟩)
    (by
      intro i b hi hb j q row hj hm
      have hle : e.chunk ≤ i + 1 := by
        rw [hm]
        calc e.chunk ≤ e.chunk * 2 ^ j := Nat.le_mul_of_pos_right _ (Nat.two_pow_pos j)
          _ ≤ (q + 1) * (e.chunk * 2 ^ j) := Nat.le_mul_of_pos_left _ (by omega)
      rw [hY]
      exact autoOp_eq ac cc (callCfg o e nd) e.T1 env.aligned hd (hb.bufs hle)
        hj hm (by simpa using hi) row)
    hs.level
    (by
      intro q d hq
      exact autoIdeal_ok K KA hshift (callCfg o e nd) e.T1 env.aligned env.rand squares Y 0 q
        (callCfg o e nd).nFast d hh hargs
        (fun hm p hp => by
          obtain ⟨i, i', e1, e2, e3⟩ := (hargs.fft hm).span (p + 1) p hp
            (le_trans (Nat.mul_le_mul_right _ (by omega)) hp) (by omega) (by omega)
          exact ⟨i, i', e1, e2, e3⟩) rfl (hslow.trans hfast)
        (by simp) le_rfl (by simpa using hq))
    (by
      intro j q d hj1 hj hq
      have hj0 : j ≠ 0 := by omega
      have hargs' : IterArgs false cplx (callCfg o e nd).method (callCfg o e nd).norm
          (callCfg o e nd).half (callCfg o e nd).nframes (callCfg o e nd).nSlow
          (levelT (callCfg o e nd).nframes e.T1 j) (levelT (callCfg o e nd).nframes e.T1 j) := by
        unfold levelT
        rw [if_neg hj0]
        exact iterArgs_arange hargs.method hargs.norm hargs.diff hs.slow
          (hs.slowLe.trans (Nat.le_succ _)) hs.half
      exact autoIdeal_ok K KA hshift (callCfg o e nd) e.T1 env.aligned env.rand squares Y j q
        (callCfg o e nd).nSlow d hh hargs'
        (fun hm p hp => by
          have hh : 0 < (callCfg o e nd).half := hh
          have hf : (callCfg o e nd).nFast ≤ 2 * (callCfg o e nd).half + 1 := h.fft rfl hm
          have hsf : (callCfg o e nd).nSlow ≤ (callCfg o e nd).nFast := hfast
          have hsl : (callCfg o e nd).nSlow ≤ (callCfg o e nd).half := hs.slowLe
          have e1 : (p + 2) * (callCfg o e nd).half
            = p * (callCfg o e nd).half + 2 * (callCfg o e nd).half := by ring
          have e2 : (p + 1) * (callCfg o e nd).half
            = p * (callCfg o e nd).half + (callCfg o e nd).half := by ring
          refine ⟨(p + 1) * (callCfg o e nd).half + ((callCfg o e nd).half - 1),
            p * (callCfg o e nd).half + 0, ?_, ?_, ?_⟩
          · rw [mul_comm, Nat.mul_add_div (by omega), Nat.div_eq_of_lt (by omega), Nat.add_zero]
          · rw [mul_comm, Nat.mul_add_div (by omega), Nat.zero_div, Nat.add_zero]
          · unfold levelT
            rw [if_neg hj0, arange_getD (by omega), arange_getD (by omega), Int.abs_eq_natAbs]
            omega)
        (by rw [if_neg hj0]) hslow (fun _ => hs.slowLe) hfast hq)
    (fun ch => [ch.stat]) (fun m => [some (statOf Y m)])
    (by
      intro p b _ hb
      have s1 := hb.statAt hh
      rw [hY]
      show [b.stat] = _
      rw [s1]
      rfl)
    (initChan (fun j k => (env.junk j k).1) (fun j k => (env.junkSq j k).1) nd e.chunk squares)
    (feedInv_init o.autoBackground e.binning env.rand _ e.chunk squares hh _ _ _)
  rw [accAt_zero, ← zeroArrays_eq _ _ _ _ _ _ hcor, ← zeroArrays_eq _ _ _ _ _ _ hcor] at hy
  have hgen : autoGen ac cc data t o env
      = finishGen e.frames (fun (ch : Chan) acc => restAuto ac (callCfg o e nd)
          env.aligned' env.rand
          (e.nlevel + 1 - max nd 1) (max nd 1) e.frames (ch.f.getLastD [])
          (ch.sq.map (·.getLastD [])) acc.slow)
          (fun ch => [ch.stat])
          (yieldLoop (callCfg o e nd).nframes (iterStep (callCfg o e nd)
            (feedChan o.autoBackground (callCfg o e nd).half (callCfg o e nd).binning env.rand)
            (autoOp ac cc (callCfg o e nd) e.T1 env.aligned))
            (emitAt (callCfg o e nd).half fun ch => [ch.stat]) 0 data
            (initChan (fun j k => (env.junk j k).1) (fun j k => (env.junkSq j k).1) nd e.chunk
                squares,
              ⟨zeroArrays e.norm.toNat false (decide (e.method ≠ "diff"))
                (o.period * o.levelSize) (o.period * o.levelSize),
              List.replicate e.nlevel (zeroArrays e.norm.toNat false (decide (e.method ≠ "diff"))
                o.levelSize o.levelSize)⟩)) := by
    unfold autoGen
    simp only [hp]
    rw [if_neg (by simpa using hne)]
    have hn' : defaultNorm o.norm (cfgOf e.chunk nd e.frames e.nlevel o.period o.levelSize e.method
      e.binning (decide (o.mode = "full")) o.autoBackground).method false = .ok e.norm.toNat := hn
    simp only [hn']
    rfl
  rw [hgen] at hres ⊢
  have hrow : ∀ p, (p + 1) * e.chunk / e.chunk = p + 1 := fun p => Nat.mul_div_cancel _ hh
  by_cases hlen : e.frames ≤ data.length
  · obtain ⟨y, e1⟩ : ∃ y, autoIterOf ac cc data t o env
        = .ok (min data.length (e.frames + 1), y) := by
      obtain ⟨fast, slow, e1, -⟩ := auto_any K KA hshift h hlen rfl
      exact ⟨_, e1⟩
    refine ⟨y, ?_⟩
    rw [finishGen_ok (hres.trans e1), if_pos hlen, if_pos hlen]
    congr 2
    refine hy.trans ?_
    apply List.map_congr_left
    intro p _
    unfold accAt
    simp only [callCfg, cfgOf, hrow]
  · refine ⟨⟨rowOf 0 "" true 0 0 0, [], []⟩, ?_⟩
    rw [finishGen_error (hres.trans (auto_short K KA hshift h (by omega) hne)), if_neg hlen,
      if_neg hlen, List.append_nil]
    congr 1
    refine hy.trans ?_
    apply List.map_congr_left
    intro p _
    unfold accAt
    simp only [callCfg, cfgOf, hrow]

end auto

end Cddm
