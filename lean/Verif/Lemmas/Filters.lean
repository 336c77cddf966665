import Verif.Model.Filters
import Verif.Lemmas.Acc
import Mathlib.Tactic.Linarith
import Mathlib.Tactic.Module
import Mathlib.Tactic.FieldSimp

/-! # Loops of the filters in closed form -/

namespace Cddm

theorem forRange'_inv {σ : Type} (P : Nat → σ → Prop) (a n : Nat) (s : σ)
    (body : σ → Nat → Option σ) (han : a ≤ n) (h0 : P a s)
    (hstep : ∀ i s, a ≤ i → i < n → P i s → ∃ s', body s i = some s' ∧ P (i + 1) s') :
    ∃ s', forRange' a n s body = some s' ∧ P n s' := by
  unfold forRange'
  obtain ⟨m, rfl⟩ := Nat.exists_eq_add_of_le han
  rw [Nat.add_sub_cancel_left]
  clear han
  induction m generalizing a s with
  | zero => exact ⟨s, rfl, h0⟩
  | succ m ih =>
    obtain ⟨s1, e1, h1⟩ := hstep a s (le_refl _) (by omega) h0
    obtain ⟨s2, e2, h2⟩ := ih (a + 1) s1 h1 (fun i s hi hn hp => hstep i s (by omega) (by omega) hp)
    refine ⟨s2, ?_, by rwa [show a + (m + 1) = a + 1 + m by omega]⟩
    rw [List.range'_succ, List.foldlM_cons, e1]
    exact e2

theorem forRange_inv {σ : Type} (P : Nat → σ → Prop) (n : Nat) (s : σ)
    (body : σ → Nat → Option σ) (h0 : P 0 s)
    (hstep : ∀ i s, i < n → P i s → ∃ s', body s i = some s' ∧ P (i + 1) s') :
    ∃ s', forRange n s body = some s' ∧ P n s' := by
  have := forRange'_inv P 0 n s body (Nat.zero_le _) h0 (fun i s _ h hp => hstep i s h hp)
  simpa [forRange', forRange, List.range_eq_range'] using this

section
variable {M : Type}

theorem pyGet_nat (x : List M) (k : Nat) : pyGet x (k : Int) = x[k]? := by
  unfold pyGet pyIdx
  by_cases h : k < x.length
  · simp [h]
  · simp [h]

theorem pyGet_pred (x : List M) (k : Nat) (hk : 1 ≤ k) : pyGet x ((k : Int) - 1) = x[k - 1]? := by
  rw [show ((k : Int) - 1) = ((k - 1 : Nat) : Int) by omega, pyGet_nat]

theorem pyGet_succ (x : List M) (k : Nat) : pyGet x ((k : Int) + 1) = x[k + 1]? := by
  rw [show ((k : Int) + 1) = ((k + 1 : Nat) : Int) by omega, pyGet_nat]

theorem pyGet_zero (x : List M) : pyGet x 0 = x[0]? := pyGet_nat x 0

theorem pyGet_last (x : List M) (h : x ≠ []) : pyGet x (-1) = x[x.length - 1]? := by
  have : 1 ≤ x.length := List.length_pos_of_ne_nil h
  unfold pyGet pyIdx
  rw [if_neg (by omega), if_pos (by omega)]
  simp only [Option.bind_some]
  congr 1
  omega

theorem setAt_nat (x : List M) (k : Nat) (v : M) (h : k < x.length) :
    setAt x (k : Int) v = some (x.set k v) := by
  unfold setAt pyIdx
  simp [h]

theorem setAt_pred (x : List M) (k : Nat) (v : M) (hk : 1 ≤ k) (h : k - 1 < x.length) :
    setAt x ((k : Int) - 1) v = some (x.set (k - 1) v) := by
  rw [show ((k : Int) - 1) = ((k - 1 : Nat) : Int) by omega, setAt_nat _ _ _ h]

theorem setAt_last (x : List M) (v : M) (h : x ≠ []) :
    setAt x (-1) v = some (x.set (x.length - 1) v) := by
  have : 1 ≤ x.length := List.length_pos_of_ne_nil h
  unfold setAt pyIdx
  rw [if_neg (by omega), if_pos (by omega)]
  simp only [Option.bind_some, Option.some.injEq]
  congr 1
  omega

/-- The result of a three-sample filter: ends kept, `f` of the neighbourhood elsewhere. -/
def stencil (f : M → M → M → M) (a : List M) : List M :=
  a.mapIdx fun k v =>
    match a[k - 1]?, a[k + 1]? with
    | some p, some q => if k = 0 then v else f p v q
    | _, _ => v

@[simp] theorem stencil_length (f : M → M → M → M) (a : List M) :
    (stencil f a).length = a.length := by simp [stencil]

theorem stencil_zero (f : M → M → M → M) (a : List M) : (stencil f a)[0]? = a[0]? := by
  cases a with
  | nil => rfl
  | cons x l => cases l <;> simp [stencil]

theorem stencil_last (f : M → M → M → M) (a : List M) :
    (stencil f a)[a.length - 1]? = a[a.length - 1]? := by
  rcases Nat.eq_zero_or_pos a.length with h | h
  · rw [List.length_eq_zero_iff.mp h]; rfl
  · have h1 : a[a.length - 1 + 1]? = none := List.getElem?_eq_none (by omega)
    simp only [stencil, List.getElem?_mapIdx, h1]
    cases a[a.length - 1]? <;> simp

theorem stencil_mid (f : M → M → M → M) (a : List M) (k : Nat) (hk : 1 ≤ k)
    (h : k + 1 < a.length) :
    (stencil f a)[k]? = some (f a[k - 1] a[k] a[k + 1]) := by
  simp [stencil, List.getElem?_mapIdx, List.getElem?_eq_getElem (show k - 1 < a.length by omega),
    List.getElem?_eq_getElem h, List.getElem?_eq_getElem (show k < a.length by omega),
    show k ≠ 0 by omega]

theorem ext_stencil (f : M → M → M → M) (a r : List M) (hl : r.length = a.length)
    (h0 : r[0]? = a[0]?) (hlast : r[a.length - 1]? = a[a.length - 1]?)
    (hm : ∀ k (_ : 1 ≤ k) (h : k + 1 < a.length), r[k]? = some (f a[k - 1] a[k] a[k + 1])) :
    r = stencil f a := by
  apply List.ext_getElem?
  intro k
  by_cases hk : k < a.length
  · by_cases h1 : k = 0
    · rw [h1, h0, stencil_zero]
    · by_cases h2 : k = a.length - 1
      · rw [h2, hlast, stencil_last]
      · rw [hm k (by omega) (by omega), stencil_mid f a k (by omega) (by omega)]
  · rw [List.getElem?_eq_none (by omega), List.getElem?_eq_none (by simp; omega)]

end

section median
variable {K : Type} [LinearOrder K]

/-- `_median`, with output in another array or in place. -/
theorem medianKernel_eq (src : List K → List K) (a out : List K) (hl : out.length = a.length)
    (hn : 2 < a.length) (hs : (∀ o, src o = a) ∨ (src = id ∧ out = a)) :
    medianKernel src out = some (stencil med3 a) := by
  have hane : a ≠ [] := by rintro rfl; simp at hn
  have hone : out ≠ [] := by rintro rfl; simp at hl; omega
  have hsrc : src out = a := by
    rcases hs with h | ⟨h, h'⟩
    · exact h out
    · rw [h, h']; rfl
  obtain ⟨s', e, hp⟩ := forRange'_inv
    (fun i (s : List K × K) => s.1.length = a.length ∧ s.1[a.length - 1]? = a[a.length - 1]? ∧
      (∀ k, k + 1 < i → s.1[k]? = (stencil med3 a)[k]?) ∧
      some s.2 = (stencil med3 a)[i - 1]? ∧
      (∀ k, i - 1 ≤ k → (src s.1)[k]? = a[k]?))
    1 (a.length - 1) (out.set (a.length - 1) a[a.length - 1], a[0])
    (fun s i => do
      let b ← pyGet (src s.1) i
      let c ← pyGet (src s.1) (i + 1)
      let p ← pyGet (src s.1) (i - 1)
      let out ← setAt s.1 (i - 1) s.2
      some (out, med3 p b c)) (by omega)
    (by
      refine ⟨by simp [hl], by simp [hl, show a.length - 1 < a.length by omega],
        fun k hk => by omega, ?_, ?_⟩
      · rw [stencil_zero]; simp
      · intro k _
        rcases hs with h | ⟨h, h'⟩
        · rw [h]
        · subst h h'; simp)
    (by
      rintro i ⟨o, r⟩ hi hin ⟨h1, h2, h3, h4, h5⟩
      simp only at h1 h2 h3 h4 h5
      simp only [pyGet_nat, pyGet_succ, pyGet_pred _ i hi, setAt_pred o i r hi (by omega)]
      rw [h5 i (by omega), h5 (i + 1) (by omega), h5 (i - 1) (by omega),
        List.getElem?_eq_getElem (show i < a.length by omega),
        List.getElem?_eq_getElem (show i + 1 < a.length by omega),
        List.getElem?_eq_getElem (show i - 1 < a.length by omega)]
      refine ⟨_, rfl, by simp [h1], ?_, ?_, ?_, ?_⟩
      · simp only
        rw [List.getElem?_set_ne (by omega), h2]
      · intro k hk
        simp only
        by_cases hki : k = i - 1
        · subst hki
          rw [List.getElem?_set_self (by omega), ← h4]
        · rw [List.getElem?_set_ne (by omega), h3 k (by omega)]
      · simp only [Nat.add_sub_cancel]
        rw [stencil_mid med3 a i hi (by omega)]
      · intro k hk
        simp only
        rcases hs with h | ⟨h, h'⟩
        · rw [h]
        · subst h
          rw [id, List.getElem?_set_ne (by omega)]
          exact h5 k (by omega))
  obtain ⟨h1, h2, h3, h4, h5⟩ := hp
  unfold medianKernel
  simp only [pyGet_zero, hsrc, pyGet_last a hane, setAt_last out _ hone]
  rw [List.getElem?_eq_getElem (show 0 < a.length by omega),
    List.getElem?_eq_getElem (show a.length - 1 < a.length by omega)]
  simp only [Option.bind_eq_bind, Option.bind_some, hl]
  simp only [Option.bind_eq_bind] at e
  rw [e]
  simp only [Option.bind_some]
  rw [setAt_nat _ _ _ (by omega)]
  congr 1
  apply ext_stencil
  · simp [h1]
  · by_cases h0 : a.length - 2 = 0
    · omega
    · rw [List.getElem?_set_ne (by omega), h3 0 (by omega), stencil_zero]
  · rw [List.getElem?_set_ne (by omega), h2]
  · intro k hk hk1
    by_cases hka : k = a.length - 2
    · subst hka
      rw [List.getElem?_set_self (by omega), h4, show a.length - 1 - 1 = a.length - 2 by omega,
        stencil_mid med3 a _ hk hk1]
    · rw [List.getElem?_set_ne (by omega), h3 k (by omega), stencil_mid med3 a k hk hk1]

theorem medianInto_eq (a out : List K) (hl : out.length = a.length) (hn : 2 < a.length) :
    medianInto a out = .ok (stencil med3 a) := by
  rw [medianInto, if_pos hn, medianKernel_eq _ a out hl hn (Or.inl fun _ => rfl)]
  rfl

theorem medianInPlace_eq (a : List K) (hn : 2 < a.length) :
    medianInPlace a = .ok (stencil med3 a) := by
  rw [medianInPlace, if_pos hn, medianKernel_eq _ a a rfl hn (Or.inr ⟨rfl, rfl⟩)]
  rfl

theorem med3_sorted (a b c : K) : ([a, b, c].insertionSort (· ≤ ·))[1]? = some (med3 a b c) := by
  unfold med3
  by_cases h1 : b ≤ c <;> by_cases h2 : a ≤ b <;> by_cases h3 : a ≤ c <;>
    simp [List.insertionSort, List.orderedInsert, h1, h2, h3] <;>
    (try split_ifs) <;> (try simp) <;> order

theorem medianSlow_eq (a out : List K) (hl : out.length = a.length) (hn : 2 < a.length) :
    medianSlow a out = .ok (stencil med3 a) := by
  have hane : a ≠ [] := by rintro rfl; simp at hn
  obtain ⟨s', e, hp⟩ := forRange'_inv
    (fun i (s : List K) => s.length = a.length ∧
      (∀ k, 1 ≤ k → k < i → s[k]? = (stencil med3 a)[k]?))
    1 (a.length - 1) out
    (fun s i => do
      let m ← pyGet (((a.drop (i - 1)).take 3).insertionSort (· ≤ ·)) 1
      setAt s i m) (by omega) ⟨hl, fun k h h' => by omega⟩
    (by
      rintro i s hi hin ⟨h1, h2⟩
      have hd : (a.drop (i - 1)).take 3 = [a[i - 1], a[i], a[i + 1]] := by
        rw [List.drop_eq_getElem_cons (by omega), List.drop_eq_getElem_cons (by omega),
          List.drop_eq_getElem_cons (by omega)]
        simp only [List.take_succ_cons, List.take_zero, List.cons.injEq, and_true]
        refine ⟨trivial, ?_, ?_⟩ <;> congr 1 <;> omega
      rw [hd, show (1 : Int) = ((1 : Nat) : Int) from rfl, pyGet_nat, med3_sorted]
      refine ⟨_, setAt_nat s i _ (by omega), by simp [h1], ?_⟩
      intro k hk hki
      by_cases h : k = i
      · subst h
        rw [List.getElem?_set_self (by omega), stencil_mid med3 a k hk (by omega)]
      · rw [List.getElem?_set_ne (by omega), h2 k hk (by omega)])
  obtain ⟨h1, h2⟩ := hp
  rw [medianSlow, if_pos hn]
  simp only [Option.bind_eq_bind] at e
  simp only [Option.bind_eq_bind, e, Option.bind_some, pyGet_zero, pyGet_last a hane]
  rw [List.getElem?_eq_getElem (show 0 < a.length by omega),
    List.getElem?_eq_getElem (show a.length - 1 < a.length by omega)]
  simp only [Option.bind_some]
  rw [show (0 : Int) = ((0 : Nat) : Int) from rfl, setAt_nat s' 0 _ (by omega)]
  simp only [Option.bind_some]
  rw [setAt_last _ _ (by intro h; have := congrArg List.length h; simp at this; subst this; simp at h1; omega)]
  simp only [orUB]
  congr 1
  apply ext_stencil
  · simp [h1]
  · rw [List.getElem?_set_ne (by simp; omega), List.getElem?_set_self (by omega)]
    simp [show 0 < a.length by omega]
  · simp only [List.length_set, h1]
    rw [List.getElem?_set_self (by simp; omega),
      List.getElem?_eq_getElem (show a.length - 1 < a.length by omega)]
  · intro k hk hk1
    rw [List.getElem?_set_ne (by simp; omega), List.getElem?_set_ne (by omega),
      h2 k hk (by omega), stencil_mid med3 a k hk hk1]

end median

section convolve
variable {V : Type} (K : Type) [Field K] [AddCommGroup V] [Module K V]

/-- The weights of `convolve`. -/
def conv3 (a b c : V) : V := (1 / 4 : K) • (a + (2 : K) • b + c)

theorem convolveKernel_eq (a out : List V) (hl : out.length = a.length) (hn : 2 < a.length) :
    convolveKernel K (fun _ => a) out = some (stencil (conv3 K) a) := by
  have hane : a ≠ [] := by rintro rfl; simp at hn
  obtain ⟨s', e, hp⟩ := forRange'_inv
    (fun i (s : List V × V) => s.1.length = a.length ∧
      (∀ k, k + 1 < i → s.1[k]? = (stencil (conv3 K) a)[k]?) ∧
      some s.2 = (stencil (conv3 K) a)[i - 1]?)
    1 (a.length - 1) (out, a[0])
    (fun s i => do
      let out ← setAt s.1 (i - 1) s.2
      let p ← pyGet a (i - 1)
      let b ← pyGet a i
      let c ← pyGet a (i + 1)
      some (out, (1 / 4 : K) • (p + (2 : K) • b + c))) (by omega)
    (by
      refine ⟨by simp [hl], fun k hk => by omega, ?_⟩
      rw [stencil_zero]; simp)
    (by
      rintro i ⟨o, r⟩ hi hin ⟨h1, h3, h4⟩
      simp only at h1 h3 h4
      simp only [pyGet_nat, pyGet_succ, pyGet_pred _ i hi, setAt_pred o i r hi (by omega)]
      rw [List.getElem?_eq_getElem (show i < a.length by omega),
        List.getElem?_eq_getElem (show i + 1 < a.length by omega),
        List.getElem?_eq_getElem (show i - 1 < a.length by omega)]
      refine ⟨_, rfl, by simp [h1], ?_, ?_⟩
      · intro k hk
        simp only
        by_cases hki : k = i - 1
        · subst hki
          rw [List.getElem?_set_self (by omega), ← h4]
        · rw [List.getElem?_set_ne (by omega), h3 k (by omega)]
      · simp only [Nat.add_sub_cancel]
        rw [stencil_mid (conv3 K) a i hi (by omega)]
        rfl)
  obtain ⟨h1, h3, h4⟩ := hp
  unfold convolveKernel
  simp only [pyGet_zero, pyGet_last a hane]
  rw [List.getElem?_eq_getElem (show 0 < a.length by omega)]
  simp only [Option.bind_eq_bind, Option.bind_some, hl]
  simp only [Option.bind_eq_bind] at e
  rw [e]
  simp only [Option.bind_some]
  rw [setAt_nat _ _ _ (by omega),
    List.getElem?_eq_getElem (show a.length - 1 < a.length by omega)]
  simp only [Option.bind_some]
  rw [setAt_last _ _ (by
    intro h; have := congrArg List.length h; rw [List.length_set, List.length_nil] at this; omega)]
  congr 1
  simp only [List.length_set, h1]
  apply ext_stencil
  · simp [h1]
  · rw [List.getElem?_set_ne (by omega), List.getElem?_set_ne (by omega), h3 0 (by omega),
      stencil_zero]
  · rw [List.getElem?_set_self (by simp; omega),
      List.getElem?_eq_getElem (show a.length - 1 < a.length by omega)]
  · intro k hk hk1
    rw [List.getElem?_set_ne (by omega)]
    by_cases hka : k = a.length - 2
    · subst hka
      rw [List.getElem?_set_self (by omega), h4, show a.length - 1 - 1 = a.length - 2 by omega,
        stencil_mid (conv3 K) a _ hk hk1]
    · rw [List.getElem?_set_ne (by omega), h3 k (by omega), stencil_mid (conv3 K) a k hk hk1]

theorem convolveInto_eq (a out : List V) (hl : out.length = a.length) (hn : 2 < a.length) :
    convolveInto K a out = .ok (stencil (conv3 K) a) := by
  rw [convolveInto, if_pos (by omega), convolveKernel_eq K a out hl hn]
  rfl

end convolve

section monotone
variable {K : Type} [LinearOrder K]

theorem decreasing_eq (a out : List K) (hl : out.length = a.length) :
    ∃ r, decreasing a out = some r ∧ r.length = a.length ∧
      r[0]? = a[0]? ∧ ∀ i (h : i + 1 < a.length), ∃ p, r[i]? = some p ∧
        r[i + 1]? = some (min p a[i + 1]) := by
  obtain ⟨r, e, h1, h2, h3⟩ := forRange_inv
    (fun i (s : List K) => s.length = a.length ∧ (0 < i → s[0]? = a[0]?) ∧
      ∀ k (h : k + 1 < a.length), k + 1 < i → ∃ p, s[k]? = some p ∧
        s[k + 1]? = some (min p a[k + 1]))
    a.length out
    (fun out i => do
      let x ← pyGet a i
      if i = 0 then setAt out 0 x else do
        let p ← pyGet out (i - 1)
        if x < p then setAt out i x else setAt out i p)
    ⟨hl, fun h => absurd h (by omega), fun k _ h => absurd h (by omega)⟩
    (by
      rintro i s hi ⟨h1, h2, h3⟩
      simp only [pyGet_nat]
      rw [List.getElem?_eq_getElem hi]
      by_cases hi0 : i = 0
      · subst hi0
        simp only [Option.bind_eq_bind, Option.bind_some, if_true]
        refine ⟨_, setAt_nat s 0 _ (by omega), by simp [h1], ?_,
          fun k _ h => absurd h (by omega)⟩
        intro _
        rw [List.getElem?_set_self (by omega), List.getElem?_eq_getElem hi]
      · simp only [Option.bind_eq_bind, Option.bind_some, if_neg hi0, pyGet_pred s i (by omega)]
        rw [List.getElem?_eq_getElem (show i - 1 < s.length by omega)]
        simp only [Option.bind_some]
        have hm : (if a[i] < s[i - 1] then setAt s i a[i] else setAt s i s[i - 1])
            = some (s.set i (min s[i - 1] a[i])) := by
          split_ifs with h
          · rw [setAt_nat s i _ (by omega), min_eq_right h.le]
          · rw [setAt_nat s i _ (by omega), min_eq_left (not_lt.mp h)]
        refine ⟨_, hm, by simp [h1], ?_, ?_⟩
        · intro _
          rw [List.getElem?_set_ne (by omega), h2 (by omega)]
        · intro k hk hki
          by_cases hk' : k + 1 = i
          · subst hk'
            refine ⟨s[k], ?_, ?_⟩
            · rw [List.getElem?_set_ne (by omega),
                List.getElem?_eq_getElem (show k < s.length by omega)]
            · rw [List.getElem?_set_self (by omega)]
              rfl
          · obtain ⟨p, e1, e2⟩ := h3 k hk (by omega)
            exact ⟨p, by rw [List.getElem?_set_ne (by omega), e1],
              by rw [List.getElem?_set_ne (by omega), e2]⟩)
  refine ⟨r, e, h1, ?_, fun i h => h3 i h (by omega)⟩
  rcases Nat.eq_zero_or_pos a.length with h | h
  · rw [List.getElem?_eq_none (by omega), List.getElem?_eq_none (by omega)]
  · exact h2 h

theorem increasing_eq (a out : List K) (hl : out.length = a.length) (hne : a ≠ []) :
    ∃ r, increasing a out = some r ∧ r.length = a.length ∧
      r[0]? = out[0]? ∧ ∀ i (h : i + 1 < a.length), ∃ p, r[i]? = some p ∧
        r[i + 1]? = some (max p a[i + 1]) := by
  have hpos : 1 ≤ a.length := List.length_pos_of_ne_nil hne
  obtain ⟨r, e, h1, h2, h3⟩ := forRange'_inv
    (fun i (s : List K) => s.length = a.length ∧ (s[0]? = out[0]?) ∧
      ∀ k (h : k + 1 < a.length), k + 1 < i → ∃ p, s[k]? = some p ∧
        s[k + 1]? = some (max p a[k + 1]))
    1 a.length out
    (fun out i => do
      let x ← pyGet a i
      if i = 0 then setAt out 0 x else do
        let p ← pyGet out (i - 1)
        if x > p then setAt out i x else setAt out i p)
    hpos
    ⟨hl, rfl, fun k _ h => absurd h (by omega)⟩
    (by
      rintro i s hi1 hi ⟨h1, h2, h3⟩
      simp only [pyGet_nat]
      rw [List.getElem?_eq_getElem hi]
      have hi0 : i ≠ 0 := by omega
      simp only [Option.bind_eq_bind, Option.bind_some, if_neg hi0, pyGet_pred s i (by omega)]
      rw [List.getElem?_eq_getElem (show i - 1 < s.length by omega)]
      simp only [Option.bind_some]
      have hm : (if a[i] > s[i - 1] then setAt s i a[i] else setAt s i s[i - 1])
          = some (s.set i (max s[i - 1] a[i])) := by
        split_ifs with h
        · rw [setAt_nat s i _ (by omega), max_eq_right h.le]
        · rw [setAt_nat s i _ (by omega), max_eq_left (not_lt.mp h)]
      refine ⟨_, hm, by simp [h1], ?_, ?_⟩
      · rw [List.getElem?_set_ne (by omega), h2]
      · intro k hk hki
        by_cases hk' : k + 1 = i
        · subst hk'
          refine ⟨s[k], ?_, ?_⟩
          · rw [List.getElem?_set_ne (by omega),
              List.getElem?_eq_getElem (show k < s.length by omega)]
          · rw [List.getElem?_set_self (by omega)]
            rfl
        · obtain ⟨p, e1, e2⟩ := h3 k hk (by omega)
          exact ⟨p, by rw [List.getElem?_set_ne (by omega), e1],
            by rw [List.getElem?_set_ne (by omega), e2]⟩)
  exact ⟨r, e, h1, h2, fun i h => h3 i h (by omega)⟩

end monotone

end Cddm
