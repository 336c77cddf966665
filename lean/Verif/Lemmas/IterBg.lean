import Verif.Lemmas.IterMain

/-!
# Empty iterators; automatic background
-/

namespace Cddm
open Spec

theorem cross_empty {C : Type} [AddCommMonoid C] {cplx : Bool} (cc : CrossFn C)
    {t1 t2 : Option (List Int)} {o : MultiOpts} {env : IterEnv} {e : Eff}
    (h : IterCall true cplx t1 t2 env.dataLen o e) (h1 : 1 < e.frames) :
    iccorrMultiOf cplx cc [] t1 t2 o env = .error .valueError := by
  obtain ⟨nd, e1, -⟩ := params_ok (period := o.period) (t1 := t1) (t2 := t2) o.autoBackground
    h.times h.frames h.levels h.binning h.mode
  unfold iccorrMultiOf
  rw [if_neg (pair_check (h.pair rfl))]
  unfold crossIterOf crossIter
  simp only [e1, bind, Except.bind]
  rw [if_pos (by rfl), if_pos (by simp [cfgOf, h1])]

theorem auto_empty {C : Type} [AddCommMonoid C] {cplx : Bool} (ac : AutoFn C) (cc : CrossFn C)
    {t : Option (List Int)} {o : MultiOpts} {env : IterEnv} {e : Eff}
    (h : IterCall false cplx t none env.dataLen o e) (h1 : 1 < e.frames) :
    autoIterOf ac cc [] t o env = .error .valueError := by
  obtain ⟨nd, e1, -⟩ := params_ok (period := o.period) (t1 := t) (t2 := none) o.autoBackground
    h.times h.frames h.levels h.binning h.mode
  unfold autoIterOf autoIter
  simp only [e1, bind, Except.bind]
  rw [if_pos (by rfl), if_pos (by simp [cfgOf, h1])]

theorem iterParams_bg (t1 t2 : Option (List Int)) (dataLen : Option Nat) (period levelSize : Nat)
    (chunkSize : Option Nat) (binning : Option Int) (method : Option String) (count : Option Nat)
    (nlevel : Option Int) (mode : String) (b : Bool) :
    iterParams t1 t2 dataLen period levelSize chunkSize binning method count b nlevel mode
      = (iterParams t1 t2 dataLen period levelSize chunkSize binning method count false nlevel
          mode).map fun x => (x.1, x.2.1, { x.2.2 with autoBackground := b }) := by
  unfold iterParams
  split
  · rfl
  · simp only [bind, Except.bind]
    cases defaultMethodBinning method binning with
    | error e => rfl
    | ok mb =>
      dsimp only
      cases inspectT1T2Count t1 t2 count dataLen with
      | error e => rfl
      | ok tt =>
        dsimp only
        cases defaultChunkSize chunkSize tt.2.2 levelSize with
        | error e => rfl
        | ok half =>
          dsimp only
          cases iterSizes tt.2.2 half levelSize nlevel with
          | error e => rfl
          | ok x => rfl

theorem restCross_bg {C : Type} (cc : CrossFn C) (cfg : IterCfg) (b : Bool) (al : Bool)
    (r : Nat → ℚ) (k j d : Nat) (f1 f2 : List (Cx ℝ)) (s1 s2 : Option (List ℝ))
    (slow : List (CorrAout C)) :
    restCross cc { cfg with autoBackground := b } al r k j d f1 f2 s1 s2 slow
      = restCross cc cfg al r k j d f1 f2 s1 s2 slow := by
  induction k generalizing j d f1 f2 s1 s2 slow with
  | zero => rfl
  | succ k ih =>
    simp only [restCross, bind, Except.bind]
    split
    · rfl
    · split
      · rfl
      · exact ih ..

theorem restAuto_bg {C : Type} (ac : AutoFn C) (cfg : IterCfg) (b : Bool) (al : Bool)
    (r : Nat → ℚ) (k j d : Nat) (f : List (Cx ℝ)) (s : Option (List ℝ))
    (slow : List (CorrAout C)) :
    restAuto ac { cfg with autoBackground := b } al r k j d f s slow
      = restAuto ac cfg al r k j d f s slow := by
  induction k generalizing j d f s slow with
  | zero => rfl
  | succ k ih =>
    simp only [restAuto, bind, Except.bind]
    split
    · rfl
    · split
      · rfl
      · exact ih ..

theorem crossRun_bg {C : Type} [Zero C] (complex : Bool) (cc : CrossFn C) (cfg : IterCfg) (b : Bool)
    (T1 T2 : List Int) (al al' : Bool) (r : Nat → ℚ) (len : Nat) (Y1 Y2 : Nat → Cx ℝ) :
    crossRun complex cc { cfg with autoBackground := b } T1 T2 al al' r len Y1 Y2
      = crossRun complex cc cfg T1 T2 al al' r len Y1 Y2 := by
  unfold crossRun
  simp only [restCross_bg]
  rfl

theorem autoRun_bg {C : Type} [Zero C] [Add C] (ac : AutoFn C) (cc : CrossFn C) (cfg : IterCfg)
    (b : Bool) (T : List Int) (al al' : Bool) (r : Nat → ℚ) (len : Nat) (Y : Nat → Cx ℝ) :
    autoRun ac cc { cfg with autoBackground := b } T al al' r len Y
      = autoRun ac cc cfg T al al' r len Y := by
  unfold autoRun
  simp only [restAuto_bg]
  rfl

theorem getElem?_frameAt {α : Type} (f : α → Cx ℝ) {data : List α} {i : Nat} {x : α}
    (h : data[i]? = some x) : frameAt (data.map f) i = f x := by
  simp [frameAt, List.getD_eq_getElem?_getD, h]

theorem bgOf_frameAt (x : List (Cx ℝ)) (c : Nat) :
    bgOf (frameAt x) c = (1 / (c : ℝ)) • (x.take c).sum := by
  unfold bgOf
  congr 1
  have key : ∀ c, ∑ i ∈ Finset.range c, frameAt x i = (x.take c).sum := by
    intro c
    induction c with
    | zero => simp
    | succ c ih =>
      rw [Finset.sum_range_succ, ih, List.take_add_one, List.sum_append]
      congr 1
      unfold frameAt
      rw [List.getD_eq_getElem?_getD]
      cases x[c]? <;> simp
  exact key c

theorem isChunk_half {t1 t2 : Option (List Int)} {dl : Option Nat} {o : MultiOpts} {c : Nat}
    (hc : IsChunk t1 t2 dl o c) {b : Bool} {T1 T2 : List Int} {cfg : IterCfg}
    (h : iterParams t1 t2 dl o.period o.levelSize o.chunkSize o.binning o.method o.count b
      o.nlevel o.mode = .ok (T1, T2, cfg)) : cfg.half = c := by
  obtain ⟨cnt, k, hP⟩ := iterParams_ok h
  obtain ⟨h1, h2⟩ := defaultChunkSize_ok hP.chunk
  have hh := hP.chunk
  rcases hc _ _ _ (inspect_spec hP.times) with h | ⟨h, hd⟩
  · rw [h, defaultChunkSize_some] at hh
    split at hh
    · exact (Except.ok.inj hh).symm
    · simp at hh
  · rw [h, defaultChunkSize_none (h1.trans h2)] at hh
    rw [← Except.ok.inj hh]
    exact defaultChunk_unique (halveChunk_default _ _) hd

theorem cross_background {C : Type} [Zero C] (cplx : Bool) (cc : CrossFn C)
    (data : List (Cx ℝ × Cx ℝ)) (t1 t2 : Option (List Int)) (o : MultiOpts)
    (env : IterEnv) (c : Nat) (hc : IsChunk t1 t2 env.dataLen o c) (b1 b2 : Cx ℝ)
    (h1 : b1 = (1 / (c : ℝ)) • ((data.map Prod.fst).take c).sum)
    (h2 : b2 = (1 / (c : ℝ)) • ((data.map Prod.snd).take c).sum) :
    crossIterOf cplx cc data t1 t2 { o with autoBackground := true } env
      = crossIterOf cplx cc (data.map fun x => (x.1 - b1, x.2 - b2)) t1 t2
          { o with autoBackground := false } env := by
  have hb := iterParams_bg t1 t2 env.dataLen o.period o.levelSize o.chunkSize o.binning o.method
    o.count o.nlevel o.mode true
  cases hp : iterParams t1 t2 env.dataLen o.period o.levelSize o.chunkSize o.binning o.method
    o.count false o.nlevel o.mode with
  | error err =>
    rw [hp] at hb
    unfold crossIterOf crossIter
    simp only [hp, hb, Except.map, bind, Except.bind]
  | ok x =>
    obtain ⟨T1, T2, cfg⟩ := x
    have hh := isChunk_half hc hp
    rw [hp] at hb
    simp only [Except.map] at hb
    by_cases hne : data = []
    · subst hne
      unfold crossIterOf crossIter
      simp only [hp, hb, bind, Except.bind, List.map_nil]
      rfl
    cases hn : defaultNorm o.norm cfg.method true with
    | error err =>
      unfold crossIterOf crossIter
      simp only [hp, hb, hn, bind, Except.bind]
      rw [if_neg (by simpa using hne), if_neg (by simpa using hne)]
    | ok nv =>
      have e1 := crossIter_eq cplx cc data env.dataLen t1 t2 o.period o.levelSize o.chunkSize
        o.binning o.method o.count true o.nlevel o.norm o.mode env.junk env.junkSq env.aligned
        env.aligned' env.rand T1 T2 { cfg with autoBackground := true } nv
        (frameAt (data.map Prod.fst)) (frameAt (data.map Prod.snd)) hb hne hn
        (fun i x hx => ⟨getElem?_frameAt _ hx, getElem?_frameAt _ hx⟩)
      have e2 := crossIter_eq cplx cc (data.map fun x => (x.1 - b1, x.2 - b2)) env.dataLen t1 t2
        o.period o.levelSize o.chunkSize
        o.binning o.method o.count false o.nlevel o.norm o.mode env.junk env.junkSq env.aligned
        env.aligned' env.rand T1 T2 cfg nv
        (fun i => frameAt (data.map Prod.fst) i - b1) (fun i => frameAt (data.map Prod.snd) i - b2)
        hp (by simpa using hne) hn
        (fun i x hx => by
          rw [List.getElem?_map, Option.map_eq_some_iff] at hx
          obtain ⟨y, hy, rfl⟩ := hx
          rw [getElem?_frameAt _ hy, getElem?_frameAt _ hy]
          exact ⟨rfl, rfl⟩)
      unfold crossIterOf
      refine e1.trans (Eq.trans ?_ e2.symm)
      rw [List.length_map]
      have s1 : shown true (frameAt (data.map Prod.fst)) cfg.half
          = shown false (fun i => frameAt (data.map Prod.fst) i - b1) cfg.half := by
        funext i
        simp only [shown, if_true, Bool.false_eq_true, if_false]
        rw [bgOf_frameAt, hh, h1]
      have s2 : shown true (frameAt (data.map Prod.snd)) cfg.half
          = shown false (fun i => frameAt (data.map Prod.snd) i - b2) cfg.half := by
        funext i
        simp only [shown, if_true, Bool.false_eq_true, if_false]
        rw [bgOf_frameAt, hh, h2]
      rw [s1, s2]
      exact crossRun_bg cplx cc { cfg with norm := nv } true _ _ _ _ _ _ _ _

theorem auto_background {C : Type} [Zero C] [Add C] (ac : AutoFn C) (cc : CrossFn C)
    (data : List (Cx ℝ)) (t : Option (List Int)) (o : MultiOpts)
    (env : IterEnv) (c : Nat) (hc : IsChunk t none env.dataLen o c) (b : Cx ℝ)
    (h : b = (1 / (c : ℝ)) • (data.take c).sum) :
    autoIterOf ac cc data t { o with autoBackground := true } env
      = autoIterOf ac cc (data.map fun x => x - b) t { o with autoBackground := false } env := by
  have hb := iterParams_bg t none env.dataLen o.period o.levelSize o.chunkSize o.binning o.method
    o.count o.nlevel o.mode true
  cases hp : iterParams t none env.dataLen o.period o.levelSize o.chunkSize o.binning o.method
    o.count false o.nlevel o.mode with
  | error err =>
    rw [hp] at hb
    unfold autoIterOf autoIter
    simp only [hp, hb, Except.map, bind, Except.bind]
  | ok x =>
    obtain ⟨T1, T2, cfg⟩ := x
    have hh := isChunk_half hc hp
    rw [hp] at hb
    simp only [Except.map] at hb
    by_cases hne : data = []
    · subst hne
      unfold autoIterOf autoIter
      simp only [hp, hb, bind, Except.bind, List.map_nil]
      rfl
    cases hn : defaultNorm o.norm cfg.method false with
    | error err =>
      unfold autoIterOf autoIter
      simp only [hp, hb, hn, bind, Except.bind]
      rw [if_neg (by simpa using hne), if_neg (by simpa using hne)]
    | ok nv =>
      have hid : data.map id = data := List.map_id data
      have e1 := autoIter_eq ac cc data env.dataLen t o.period o.levelSize o.chunkSize
        o.binning o.method o.count true o.nlevel o.norm o.mode (fun j k => (env.junk j k).1)
        (fun j k => (env.junkSq j k).1) env.aligned
        env.aligned' env.rand T1 T2 { cfg with autoBackground := true } nv
        (frameAt data) hb hne hn
        (fun i x hx => by have := getElem?_frameAt id hx; rwa [hid] at this)
      have e2 := autoIter_eq ac cc (data.map fun x => x - b) env.dataLen t
        o.period o.levelSize o.chunkSize
        o.binning o.method o.count false o.nlevel o.norm o.mode (fun j k => (env.junk j k).1)
        (fun j k => (env.junkSq j k).1) env.aligned
        env.aligned' env.rand T1 T2 cfg nv
        (fun i => frameAt data i - b)
        hp (by simpa using hne) hn
        (fun i x hx => by
          rw [List.getElem?_map, Option.map_eq_some_iff] at hx
          obtain ⟨y, hy, rfl⟩ := hx
          have := getElem?_frameAt id hy
          rw [hid] at this
          rw [this]
          rfl)
      unfold autoIterOf
      refine e1.trans (Eq.trans ?_ e2.symm)
      rw [List.length_map]
      have s1 : shown true (frameAt data) cfg.half
          = shown false (fun i => frameAt data i - b) cfg.half := by
        funext i
        simp only [shown, if_true, Bool.false_eq_true, if_false]
        rw [bgOf_frameAt, hh, h]
      rw [s1]
      exact autoRun_bg ac cc { cfg with norm := nv } true _ _ _ _ _ _

end Cddm
