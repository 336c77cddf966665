import Verif.Lemmas.MultiAny
import Verif.Lemmas.IterBuf
import Verif.Lemmas.KeepLen
import Verif.Model.IterAny

/-! # The buffers of the iterative functions, pixel by pixel -/

namespace Cddm
open Spec

/-- The buffer of one pixel. -/
def bufAt {V : Type} (p : List Nat) (b : List (List (List Nat → V))) : List (List V) := b.map (List.map fun x => x p)

theorem along_stack {V : Type} [Zero V] (shape : List Nat) (l : List (List Nat → V)) (p : List Nat) :
    along (stackFrames shape l) 0 p = l.map fun x => x p := by
  unfold along stackFrames
  simp only [List.getD_cons_zero, List.take_zero, List.nil_append, List.drop_zero, List.headD_cons, List.tail_cons]
  refine List.ext_getElem (by simp) fun i h1 h2 => ?_
  have hi : i < l.length := by simpa using h1
  simp only [List.getElem_map, List.getElem_range]
  rw [List.getD, List.getElem?_eq_getElem hi]
  rfl

theorem sum_at {V : Type} [AddCommMonoid V] (l : List (List Nat → V)) (p : List Nat) : l.sum p = (l.map fun x => x p).sum := by
  induction l with
  | nil => rfl
  | cons a l ih => rw [List.sum_cons, List.map_cons, List.sum_cons, ← ih]; rfl

theorem bind_at {A B A' B' : Type} {f : A → A'} {g : B → B'} {x : Py A} {x' : Py A'} {k : A → Py B} {k' : A' → Py B'}
    (hx : x' = x.map f) (hk : ∀ a, x = .ok a → k' (f a) = (k a).map g) : (x' >>= k') = (x >>= k).map g := by
  subst hx
  rcases x with e | a
  · rfl
  · exact hk a rfl

section buffer
variable {V : Type} [AddCommGroup V] [Module ℝ V]

theorem setBuf_at (out : List (List (List Nat → V))) (j k : Nat) (x : List Nat → V) (p : List Nat) :
    setBuf (bufAt p out) j k (x p) = (setBuf out j k x).map (bufAt p) := by
  unfold setBuf bufAt
  rw [List.getElem?_map]
  rcases out[j]? with _ | row
  · rfl
  · simp only [Option.map_some, List.length_map]
    by_cases hk : k < row.length
    · simp only [if_pos hk, Except.map, List.map_set]
    · simp only [if_neg hk, Except.map]

theorem pyGet_map {A B : Type} (f : A → B) (l : List A) (k : Int) : pyGet (l.map f) k = (pyGet l k).map f := by
  unfold pyGet
  rw [List.length_map]
  rcases pyIdx l.length k with _ | i
  · rfl
  · simp

theorem getBuf_at (out : List (List (List Nat → V))) (j : Nat) (k : Int) (p : List Nat) :
    getBuf (bufAt p out) j k = (getBuf out j k).map fun x => x p := by
  unfold getBuf bufAt
  rw [List.getElem?_map]
  rcases out[j]? with _ | row
  · rfl
  · simp only [Option.map_some, pyGet_map]
    rcases pyGet row k with _ | v <;> rfl

theorem bufSlice_at (out : List (List (List Nat → V))) (j start len : Nat) (p : List Nat) :
    bufSlice (bufAt p out) j start len = (bufSlice out j start len).map fun l => l.map fun x => x p := by
  unfold bufSlice bufAt
  rw [List.getElem?_map]
  rcases out[j]? with _ | row
  · rfl
  · simp [Except.map, List.map_drop, List.map_take]

theorem combineBin_at (binning : Int) (r : ℚ) (out : List (List (List Nat → V))) (j top : Nat) (x : List Nat → V) (p : List Nat) :
    combineBin binning r (bufAt p out) j top (x p) = (combineBin binning r out j top x).map fun y => y p := by
  unfold combineBin
  by_cases h1 : binning = 1
  · simp only [if_pos h1]
    refine bind_at (getBuf_at _ _ _ _) fun y _ => rfl
  · simp only [if_neg h1]
    by_cases h2 : binning = 2
    · simp only [if_pos h2]
      by_cases h3 : r > 1 / 2
      · simp only [if_pos h3]
        rfl
      · simp only [if_neg h3]
        exact getBuf_at _ _ _ _
    · simp only [if_neg h2]
      rfl

theorem addLevels_at (binning : Int) (r : ℚ) (i c : Nat) (p : List Nat) :
    ∀ (k j top : Nat) (x : List Nat → V) (out : List (List (List Nat → V))),
      addLevels binning r i c k j top (x p) (bufAt p out) = (addLevels binning r i c k j top x out).map (bufAt p) := by
  intro k
  induction k with
  | zero => intros; rfl
  | succ k ih =>
    intro j top x out
    unfold addLevels
    by_cases h : (i + 1) % 2 ^ j = 0
    · simp only [if_pos h]
      exact bind_at (combineBin_at _ _ _ _ _ _ _) fun y _ => bind_at (setBuf_at _ _ _ _ _) fun o _ => ih _ _ _ _
    · simp only [if_neg h]
      rfl

theorem addData_at (i : Nat) (x : List Nat → V) (out : List (List (List Nat → V))) (binning : Int) (r : ℚ) (p : List Nat) :
    addData i (x p) (bufAt p out) binning r = (addData i x out binning r).map (bufAt p) := by
  unfold addData
  have hc : ((bufAt p out).headD []).length = (out.headD []).length := by
    rcases out with _ | ⟨a, l⟩
    · rfl
    · simp [bufAt]
  simp only [hc]
  by_cases h : (out.headD []).length = 0
  · simp only [if_pos h]
    rfl
  · simp only [if_neg h]
    refine bind_at (setBuf_at _ _ _ _ _) fun o _ => ?_
    have : (bufAt p o).length = o.length := by simp [bufAt]
    rw [this]
    exact addLevels_at _ _ _ _ _ _ _ _ _ _

end buffer

/-! ### The shapes of the buffers -/

section shapes
variable {V : Type}

theorem setBuf_shape {D c : Nat} {out out' : List (List V)} {j k : Nat} {x : V} (h : Shape D c out)
    (e : setBuf out j k x = .ok out') : Shape D c out' := by
  unfold setBuf at e
  rcases hj : out[j]? with _ | row
  · rw [hj] at e
    cases e
  · rw [hj] at e
    simp only at e
    split at e
    · cases e
      exact h.set j _ (by rw [List.length_set]; exact h.cols j row hj)
    · cases e

theorem addLevels_shape [AddCommGroup V] [Module ℝ V] (binning : Int) (r : ℚ) (i c' : Nat) {D c : Nat} :
    ∀ (k j top : Nat) (x : V) (out out' : List (List V)), Shape D c out →
      addLevels binning r i c' k j top x out = .ok out' → Shape D c out' := by
  intro k
  induction k with
  | zero =>
    intro j top x out out' h e
    cases e
    exact h
  | succ k ih =>
    intro j top x out out' h e
    unfold addLevels at e
    split at e
    · obtain ⟨y, -, e⟩ := bind_ok e
      obtain ⟨o, ho, e⟩ := bind_ok e
      exact ih _ _ _ _ _ (setBuf_shape h ho) e
    · cases e
      exact h

theorem addData_shape [AddCommGroup V] [Module ℝ V] {i : Nat} {x : V} {out out' : List (List V)} {binning : Int} {r : ℚ} {D c : Nat}
    (h : Shape D c out) (e : addData i x out binning r = .ok out') : Shape D c out' := by
  unfold addData at e
  simp only at e
  split at e
  · cases e
  · obtain ⟨o, ho, e⟩ := bind_ok e
    exact addLevels_shape _ _ _ _ _ _ _ _ _ _ (setBuf_shape h ho) e

end shapes

/-! ### A channel -/

/-- The channel of one pixel. -/
def chanAt (p : List Nat) (ch : ChanAny) : Chan :=
  ⟨bufAt p ch.f, ch.sq.map (bufAt p), ch.bg.map fun x => x p, ch.sum p, ch.sqsum p, ch.stat.map fun s => (s.1 p, s.2 p)⟩

/-- The sizes of its buffers. -/
def ChanSized (D c : Nat) (ch : ChanAny) : Prop := Shape D c ch.f ∧ ∀ s, ch.sq = some s → Shape D c s

theorem addBoth_at (i : Nat) (x : List Nat → Cx ℝ) (binning : Int) (r : ℚ) (ch : ChanAny) (p : List Nat) :
    addBoth i (x p) binning r (chanAt p ch) = (addBothAny i x binning r ch).map (chanAt p) := by
  unfold addBoth addBothAny
  refine bind_at (addData_at _ _ _ _ _ _) fun f _ => ?_
  rcases ch with ⟨f0, _ | sq, bg, sm, ss, st⟩
  · rfl
  · exact bind_at (addData_at (V := ℝ) i (fun p => (x p).abs2) sq binning r p) fun s _ => rfl

theorem addBothAny_ok {i : Nat} {x : List Nat → Cx ℝ} {binning : Int} {r : ℚ} {ch ch' : ChanAny} {D c : Nat} (h : ChanSized D c ch)
    (e : addBothAny i x binning r ch = .ok ch') : ChanSized D c ch' := by
  unfold addBothAny at e
  obtain ⟨f, hf, e⟩ := bind_ok e
  have h1 := addData_shape h.1 hf
  rcases ch with ⟨f0, _ | sq, bg, sm, ss, st⟩
  · cases e
    exact ⟨h1, fun s hs => by cases hs⟩
  · obtain ⟨s, hs, e⟩ := bind_ok e
    cases e
    exact ⟨h1, fun s' hs' => by cases hs'; exact addData_shape (h.2 sq rfl) hs⟩

theorem removeBackground_at (bg : List Nat → Cx ℝ) (binning : Int) (r : Nat → ℚ) (p : List Nat) :
    ∀ (k i : Nat) (ch : ChanAny), removeBackground (bg p) binning r k i (chanAt p ch)
      = (removeBackgroundAny bg binning r k i ch).map (chanAt p) := by
  intro k
  induction k with
  | zero => intros; rfl
  | succ k ih =>
    intro i ch
    unfold removeBackground removeBackgroundAny
    exact bind_at (getBuf_at _ _ _ _) fun y _ => bind_at (addBoth_at i (y - bg) binning (r i) ch p) fun c _ => ih _ _

theorem removeBackgroundAny_ok (bg : List Nat → Cx ℝ) (binning : Int) (r : Nat → ℚ) {D c : Nat} :
    ∀ (k i : Nat) (ch ch' : ChanAny), ChanSized D c ch → removeBackgroundAny bg binning r k i ch = .ok ch' → ChanSized D c ch' := by
  intro k
  induction k with
  | zero =>
    intro i ch ch' h e
    cases e
    exact h
  | succ k ih =>
    intro i ch ch' h e
    unfold removeBackgroundAny at e
    obtain ⟨y, -, e⟩ := bind_ok e
    obtain ⟨c', hc, e⟩ := bind_ok e
    exact ih _ _ _ (addBothAny_ok h hc) e

theorem storeFrame_at (ab : Bool) (half : Nat) (binning : Int) (r : Nat → ℚ) (i : Nat) (x : List Nat → Cx ℝ) (ch : ChanAny)
    (p : List Nat) : storeFrame ab half binning r i (x p) (chanAt p ch) = (storeFrameAny ab half binning r i x ch).map (chanAt p) := by
  unfold storeFrame storeFrameAny
  by_cases h : i < half ∧ ab = true
  · simp only [if_pos h]
    refine bind_at (setBuf_at _ _ _ _ _) fun f _ => ?_
    by_cases h2 : i = half - 1
    · simp only [if_pos h2]
      refine bind_at (bufSlice_at _ _ _ _ _) fun s _ => ?_
      rw [← sum_at]
      exact removeBackground_at ((1 / (half : ℝ)) • s.sum) binning r p half 0 { ch with f := f, bg := some ((1 / (half : ℝ)) • s.sum) }
    · simp only [if_neg h2]
      rfl
  · simp only [if_neg h]
    have : subtractBg (chanAt p ch).bg (x p) = subtractBgAny ch.bg x p := by
      rcases ch with ⟨f0, sq, _ | bg, sm, ss, st⟩ <;> rfl
    rw [this]
    exact addBoth_at _ _ _ _ _ _

theorem storeFrameAny_ok {ab : Bool} {half : Nat} {binning : Int} {r : Nat → ℚ} {i : Nat} {x : List Nat → Cx ℝ} {ch ch' : ChanAny}
    {D c : Nat} (h : ChanSized D c ch) (e : storeFrameAny ab half binning r i x ch = .ok ch') : ChanSized D c ch' := by
  unfold storeFrameAny at e
  split at e
  · obtain ⟨f, hf, e⟩ := bind_ok e
    have h1 := setBuf_shape h.1 hf
    split at e
    · obtain ⟨s, -, e⟩ := bind_ok e
      refine removeBackgroundAny_ok _ _ _ _ _ _ _ ?_ e
      exact ⟨h1, h.2⟩
    · cases e
      exact ⟨h1, h.2⟩
  · exact addBothAny_ok h e

theorem chunkStats_at (half q : Nat) (ch : ChanAny) (p : List Nat) :
    chunkStats half q (chanAt p ch) = (chunkStatsAny half q ch).map (chanAt p) := by
  unfold chunkStats chunkStatsAny
  refine bind_at (bufSlice_at _ _ _ _ _) fun s _ => ?_
  have e1 : (chanAt p ch).sum + (s.map fun x => x p).sum = (ch.sum + s.sum) p := by
    rw [← sum_at]
    rfl
  have e2 : (chanAt p ch).sqsum + ((s.map fun x => x p).map Cx.abs2).sum
      = (ch.sqsum + (s.map fun x p => (x p).abs2).sum) p := by
    show _ = ch.sqsum p + (s.map fun x p => (x p).abs2).sum p
    rw [sum_at, List.map_map, List.map_map]
    rfl
  simp only [e1, e2]
  rfl

theorem chunkStatsAny_ok {half q : Nat} {ch ch' : ChanAny} {D c : Nat} (h : ChanSized D c ch)
    (e : chunkStatsAny half q ch = .ok ch') : ChanSized D c ch' := by
  unfold chunkStatsAny at e
  obtain ⟨s, -, e⟩ := bind_ok e
  cases e
  exact h

theorem feedChan_at (ab : Bool) (half : Nat) (binning : Int) (r : Nat → ℚ) (i : Nat) (x : List Nat → Cx ℝ) (ch : ChanAny)
    (p : List Nat) : feedChan ab half binning r i (x p) (chanAt p ch) = (feedChanAny ab half binning r i x ch).map (chanAt p) := by
  unfold feedChan feedChanAny
  refine bind_at (storeFrame_at _ _ _ _ _ _ _ _) fun c _ => ?_
  by_cases h : i % half = half - 1
  · simp only [if_pos h]
    exact chunkStats_at _ _ _ _
  · simp only [if_neg h]
    rfl

theorem feedChanAny_ok {ab : Bool} {half : Nat} {binning : Int} {r : Nat → ℚ} {i : Nat} {x : List Nat → Cx ℝ} {ch ch' : ChanAny}
    {D c : Nat} (h : ChanSized D c ch) (e : feedChanAny ab half binning r i x ch = .ok ch') : ChanSized D c ch' := by
  unfold feedChanAny at e
  obtain ⟨c', hc, e⟩ := bind_ok e
  have := storeFrameAny_ok h hc
  split at e
  · exact chunkStatsAny_ok this e
  · cases e
    exact this

theorem junkBuf_at {V : Type} (junk : Nat → Nat → List Nat → V) (rows len : Nat) (p : List Nat) :
    bufAt p (junkBuf junk rows len) = junkBuf (fun j k => junk j k p) rows len := by
  simp only [bufAt, junkBuf, List.map_map]
  exact List.map_congr_left fun j _ => by simp only [Function.comp, List.map_map]; rfl

theorem initChan_at (junk : Nat → Nat → List Nat → Cx ℝ) (junkSq : Nat → Nat → List Nat → ℝ) (nd half : Nat) (squares : Bool)
    (p : List Nat) : chanAt p (initChanAny junk junkSq nd half squares)
      = initChan (fun j k => junk j k p) (fun j k => junkSq j k p) nd half squares := by
  unfold chanAt initChanAny initChan
  simp only [junkBuf_at]
  cases squares
  · rfl
  · simp only [if_true, Option.map_some, junkBuf_at]
    rfl

theorem initChanAny_ok (junk : Nat → Nat → List Nat → Cx ℝ) (junkSq : Nat → Nat → List Nat → ℝ) (nd half : Nat) (squares : Bool) :
    ChanSized (if nd > 0 then nd else 1) (if nd > 0 then half * 2 else half) (initChanAny junk junkSq nd half squares) := by
  refine ⟨junkBuf_shape _ _ _, fun s hs => ?_⟩
  unfold initChanAny at hs
  cases squares
  · cases hs
  · cases hs
    exact junkBuf_shape _ _ _

/-- From an equation for every pixel. -/
theorem PW.of_map {A B : Type} {frame : List Nat} {sel : List Nat → A → B} {P : A → Prop} {res : Py A} {one : List Nat → Py B}
    (h : ∀ p, one p = res.map (sel p)) (hP : ∀ a, res = .ok a → P a) : PW frame sel P res one := by
  unfold PW
  rcases res with e | a
  · exact fun p _ => h p
  · exact ⟨hP a rfl, fun p _ => h p⟩

end Cddm
