import Verif.Props.Laws

/-!
# C12: accumulation of sums and counts of signed delays; processing in blocks with every function
-/

namespace Cddm
open Spec

/-- C12, `cross_sum(complex = True)` into an array of length `2m-1`. -/
theorem C12_sums_complex {M : Type} [AddCommGroup M] (f : List M) (t1 t2 : Option (List Int))
    (n : Option Nat) (inv : Bool) (m : Nat) (o : List M) (hm : 0 < m) (ho : o.length = 2 * m - 1)
    (hv : ValidSum f.length t1 t2) (hfast : t1 = none → m ≤ f.length + 1) :
    AddsTo o (crossSumApi f t1 t2 (some m) true inv none) (crossSumApi f t1 t2 n true inv (some o)) := by
  have h2 := crossSumApi_full_ok f t1 t2 n inv (some o) hv (by simp only [outLenFull]; omega)
    (fun a => by have := hfast a; simp only [outLenFull]; omega)
  have h1 := crossSumApi_full_ok f t1 t2 (some m) inv none hv
    (by simp only [outLenFull]; omega)
    (fun a => by have := hfast a; simp only [outLenFull]; omega)
  simp only [outLenFull, startOut, Option.getD_none, Option.getD_some, ← ho] at h1 h2
  exact additive_of h1 h2

/-- C12, `cross_count(complex = True)`. -/
theorem C12_counts_complex (t1 : TimeArg) (t2 : Option TimeArg) (n : Option Nat) (m : Nat) (o : List Nat)
    (hm : 0 < m) (ho : o.length = 2 * m - 1) :
    AddsTo o (crossCount t1 t2 (some m) true none) (crossCount t1 t2 n true (some o)) := by
  have h2 := crossCountComplex_ok t1 t2 n (some o) (by simp) (by simp only [outLenFull]; omega)
  have h1 := crossCountComplex_ok t1 t2 (some m) none (by simp) (by simp only [outLenFull]; omega)
  simp only [outLenFull, startOut, Option.getD_none, Option.getD_some, ← ho] at h1 h2
  exact additive_of h1 h2

section
variable {R : Type} [CommRing R]

/-- Process the listed pairs of blocks one after the other with any function, accumulating into `o`. -/
def Spec.inBlocks {M : Type} (call : Block R → Block R → List M → Py (List M)) (l : List (Block R × Block R)) (o : List M) :
    Py (List M) := l.foldlM (fun o b => call b.1 b.2 o) o

omit [CommRing R] in
theorem inBlocks_ok {M : Type} [AddCommMonoid M] (call : Block R → Block R → List M → Py (List M))
    (δ : Stream (Cx R) → Stream (Cx R) → Nat → M) (p : Nat) (L : Nat)
    (hcall : ∀ b1 b2 : Block R, b1.1.length = b1.2.length → b2.1.length = b2.2.length → b1.1.length = b2.1.length →
      b1.2 ≠ [] → ∀ o : List M, o.length = L → call b1 b2 o = .ok (addSeq o (δ (b1.1.zip b1.2) (b2.1.zip b2.2))))
    (hδ : ∀ (A B : List (Stream (Cx R))) k, δ A.flatten B.flatten k = ((A ×ˢ B).map fun q => δ q.1 q.2 k).sum)
    (B1 B2 : List (Block R)) (hp : p ≠ 0)
    (h1 : ∀ b ∈ B1, b.1.length = p ∧ b.2.length = p) (h2 : ∀ b ∈ B2, b.1.length = p ∧ b.2.length = p)
    (hlen : B1.length = B2.length) (h0 : B1 ≠ [])
    (l : List (Block R × Block R)) (hl : l.Perm (B1 ×ˢ B2)) (o : List M) (ho : o.length = L) :
    inBlocks call l o = call (concat B1) (concat B2) o := by
  have c1 := concat_length B1 p h1
  have c2 := concat_length B2 p h2
  have hne : B1.length * p ≠ 0 := Nat.mul_ne_zero (by simpa using h0) hp
  have hne' : (concat B1).2 ≠ [] := by
    intro h
    rw [h] at c1
    exact hne c1.2.symm
  have key : ∀ (l : List (Block R × Block R)), (∀ q ∈ l, q.1 ∈ B1 ∧ q.2 ∈ B2) → ∀ o : List M, o.length = L →
      inBlocks call l o = .ok (addSeq o fun k => (l.map fun q => δ (q.1.1.zip q.1.2) (q.2.1.zip q.2.2) k).sum) := by
    intro l
    induction l with
    | nil =>
      intro _ o _
      show Except.ok o = _
      congr 1
      apply List.ext_getElem <;> simp [addSeq]
    | cons q l ih =>
      intro hm o ho
      have hq := hm q (by simp)
      have g1 := h1 _ hq.1
      have g2 := h2 _ hq.2
      unfold inBlocks at ih ⊢
      rw [List.foldlM_cons, hcall _ _ (by rw [g1.1, g1.2]) (by rw [g2.1, g2.2]) (by rw [g1.1, g2.1])
        (by intro h; rw [h] at g1; exact hp g1.2.symm) o ho]
      refine (ih (fun q hq => hm q (List.mem_cons_of_mem _ hq)) _ (by simpa using ho)).trans ?_
      congr 1
      apply List.ext_getElem
      · simp
      · intro k _ _
        simp [addSeq]
  rw [key l (fun q hq => List.pair_mem_product.mp (hl.mem_iff.mp hq)) o ho,
    hcall _ _ (by rw [c1.1, c1.2]) (by rw [c2.1, c2.2]) (by rw [c1.1, c2.1, hlen]) hne' o ho]
  congr 2
  funext k
  rw [concat_stream B1 (fun b hb => by rw [(h1 b hb).1, (h1 b hb).2]),
    concat_stream B2 (fun b hb => by rw [(h2 b hb).1, (h2 b hb).2]), hδ, sum_perm hl, sum_product, sum_product]
  simp [Function.comp_def]

omit [CommRing R] in
theorem stamps_zip {t : List Int} {f : List (Cx R)} (h : t.length = f.length) :
    stamps t = (t.zip f).map fun p => (p.1, ()) := by
  apply List.ext_getElem <;> simp [stamps, h]

theorem pairSum_other {α β M : Type} [AddCommMonoid M] (g : α → M) (s1 : Stream α) (s2 : Stream β) (k : Nat) (d : Int) :
    pairSum (fun a _ => g a) s1 (s2.map fun p => (p.1, ())) k = pairSum (fun a _ => g a) s1 s2 k ∧
    pairSumAt (fun a _ => g a) s1 (s2.map fun p => (p.1, ())) d = pairSumAt (fun a _ => g a) s1 s2 d := by
  rw [pairSum_eq, pairSum_eq, pairSumAt_eq, pairSumAt_eq]
  simp only [List.map_map, Function.comp_def, and_self]

/-- **C12, block processing.**  Both streams cut into blocks of `p` samples, every pair of blocks processed in any order,
accumulating: the result of one call on the whole streams.  Squared differences, complex correlations, the sums of the first
stream and of the second (with signed delays or not), and the counts. -/
theorem C12_blocks_all (B1 B2 : List (Block R)) (p : Nat) (hp : p ≠ 0)
    (h1 : ∀ b ∈ B1, b.1.length = p ∧ b.2.length = p)
    (h2 : ∀ b ∈ B2, b.1.length = p ∧ b.2.length = p)
    (hlen : B1.length = B2.length) (h0 : B1 ≠ [])
    (l : List (Block R × Block R)) (hl : l.Perm (B1 ×ˢ B2)) (al : Bool) :
    (∀ o : List R, ∀ call, (call = fun (a b : Block R) o => crossDifference a.2 b.2 (some a.1) (some b.1) none al (some o)) →
      inBlocks call l o = call (concat B1) (concat B2) o) ∧
    (∀ o : List (Cx R), o.length % 2 = 1 → ∀ call,
      (call = fun (a b : Block R) o => crossCorrelateComplex a.2 b.2 (some a.1) (some b.1) none al (some o)) →
      inBlocks call l o = call (concat B1) (concat B2) o) ∧
    (∀ (complex inv : Bool) (o : List (Cx R)), (complex = true → o.length % 2 = 1) → ∀ call,
      ((call = fun (a b : Block R) o => crossSumApi a.2 (some a.1) (some b.1) none complex inv (some o)) ∨
       (call = fun (a b : Block R) o => crossSumApi b.2 (some b.1) (some a.1) none complex inv (some o))) →
      inBlocks call l o = call (concat B1) (concat B2) o) ∧
    (∀ (complex : Bool) (o : List Nat), (complex = true → o.length % 2 = 1) → ∀ call,
      (call = fun (a b : Block R) o => crossCount (.array a.1) (some (.array b.1)) none complex (some o)) →
      inBlocks call l o = call (concat B1) (concat B2) o) := by
  have val : ∀ b1 b2 : Block R, b1.1.length = b1.2.length → b2.1.length = b2.2.length → b1.1.length = b2.1.length →
      b1.2 ≠ [] → ValidCross b1.2.length b2.2.length (some b1.1) (some b2.1) := by
    intro b1 b2 e1 e2 e3 e4
    exact ⟨by omega, e1, e2, by simpa using e4⟩
  refine ⟨?_, ?_, ?_, ?_⟩
  · rintro o call rfl
    refine inBlocks_ok _ (fun s1 s2 k => pairSum dist2 s1 s2 k) p o.length ?_ (fun A B k => pairSum_flatten _ _ _ _)
      B1 B2 hp h1 h2 hlen h0 l hl o rfl
    intro b1 b2 e1 e2 e3 e4 o' _
    exact crossDifference_ok _ _ _ _ none al (some o') (val b1 b2 e1 e2 e3 e4) (by simp)
  · rintro o ho call rfl
    refine inBlocks_ok _ (fun s1 s2 k => pairSumAt cxProd s1 s2 (cellDelay o.length k)) p o.length ?_
      (fun A B k => pairSumAt_flatten _ _ _ _) B1 B2 hp h1 h2 hlen h0 l hl o rfl
    intro b1 b2 e1 e2 e3 e4 o' ho'
    have := crossCorrelateComplex_ok b1.2 b2.2 (some b1.1) (some b2.1) none al (some o') (val b1 b2 e1 e2 e3 e4)
      (by simp only [outLenFull]; omega) (by simp)
    simp only [outLenFull, startOut, stream, Option.getD_some, ho'] at this
    exact this
  · intro complex inv o ho call hc
    have hval : ∀ b1 b2 : Block R, b1.1.length = b1.2.length → b1.1.length = b2.1.length →
        b1.2 ≠ [] → ValidSum b1.2.length (some b1.1) (some b2.1) := by
      intro b1 b2 e1 e3 e4
      have : b1.2.length ≠ 0 := by simpa using e4
      refine ⟨e1, this, ?_⟩
      intro h
      rw [h, e1] at e3
      exact this e3
    have one : ∀ b1 b2 : Block R, b1.1.length = b1.2.length → b2.1.length = b2.2.length → b1.1.length = b2.1.length →
        b1.2 ≠ [] → ∀ o' : List (Cx R), o'.length = o.length →
        crossSumApi b1.2 (some b1.1) (some b2.1) none complex inv (some o')
          = .ok (addSeq o' fun k => if complex then
              pairSumAt (fun a _ => a) (b1.1.zip b1.2) (b2.1.zip b2.2)
                (if inv then -cellDelay o.length k else cellDelay o.length k)
            else pairSum (fun a _ => a) (b1.1.zip b1.2) (b2.1.zip b2.2) k) := by
      intro b1 b2 e1 e2 e3 e4 o' ho'
      cases complex with
      | true =>
        have := crossSumApi_full_ok b1.2 (some b1.1) (some b2.1) none inv (some o') (hval b1 b2 e1 e3 e4)
          (by have := ho rfl; simp only [outLenFull]; omega) (by simp)
        simp only [outLenFull, startOut, stream, otherStream, Option.getD_some, ho', stamps_zip e2,
          (pairSum_other _ _ _ 0 _).2] at this
        simpa using this
      | false =>
        have := crossSumApi_real_ok b1.2 (some b1.1) (some b2.1) none inv (some o') (hval b1 b2 e1 e3 e4) (by simp)
        simp only [outLen, startOut, stream, otherStream, Option.getD_some, ho', stamps_zip e2,
          (pairSum_other _ _ _ _ 0).1] at this
        simpa using this
    rcases hc with rfl | rfl
    · refine inBlocks_ok _ (fun s1 s2 k => if complex then
          pairSumAt (fun a _ => a) s1 s2 (if inv then -cellDelay o.length k else cellDelay o.length k)
        else pairSum (fun a _ => a) s1 s2 k) p o.length one ?_ B1 B2 hp h1 h2 hlen h0 l hl o rfl
      intro A B k
      cases complex with
      | true =>
        simp only [if_true]
        exact pairSumAt_flatten _ _ _ _
      | false =>
        simp only [Bool.false_eq_true, if_false]
        exact pairSum_flatten _ _ _ _
    · refine inBlocks_ok _ (fun s1 s2 k => if complex then
          pairSumAt (fun _ b => b) s1 s2 (-(if inv then -cellDelay o.length k else cellDelay o.length k))
        else pairSum (fun _ b => b) s1 s2 k) p o.length ?_ ?_ B1 B2 hp h1 h2 hlen h0 l hl o rfl
      · intro b1 b2 e1 e2 e3 e4 o' ho'
        have := one b2 b1 e2 e1 e3.symm (by
          intro h
          rw [h] at e2
          simp at e2
          rw [e2] at e3
          simp at e3
          rw [e3] at e1
          exact e4 (by simpa using e1.symm)) o' ho'
        refine this.trans ?_
        congr 2
        funext k
        rw [pairSumAt_swap, pairSum_swap]
      · intro A B k
        cases complex with
        | true =>
          simp only [if_true]
          exact pairSumAt_flatten _ _ _ _
        | false =>
          simp only [Bool.false_eq_true, if_false]
          exact pairSum_flatten _ _ _ _
  · rintro complex o ho call rfl
    refine inBlocks_ok _ (fun s1 s2 k => if complex then pairSumAt (fun _ _ => 1) s1 s2 (cellDelay o.length k)
      else pairSum (fun _ _ => 1) s1 s2 k) p o.length ?_ ?_ B1 B2 hp h1 h2 hlen h0 l hl o rfl
    · intro b1 b2 e1 e2 e3 e4 o' ho'
      cases complex with
      | true =>
        have := crossCountComplex_ok (.array b1.1) (some (.array b2.1)) none (some o') (by simp)
          (by have := ho rfl; simp only [outLenFull]; omega)
        simp only [outLenFull, startOut, Option.getD_some, ho', TimeArg.times] at this
        rw [this]
        congr 2
        funext k
        rw [if_pos rfl, stamps_zip e1, stamps_zip e2, pairSumAt_eq, pairSumAt_eq]
        simp only [List.map_map, Function.comp_def]
      | false =>
        have := crossCount_ok (.array b1.1) (some (.array b2.1)) none (some o') (by simp)
        simp only [outLen, startOut, Option.getD_some, TimeArg.times] at this
        rw [this]
        congr 2
        funext k
        rw [if_neg (by simp), stamps_zip e1, stamps_zip e2, pairSum_eq, pairSum_eq]
        simp only [List.map_map, Function.comp_def]
    · intro A B k
      cases complex with
      | true =>
        simp only [if_true]
        exact pairSumAt_flatten _ _ _ _
      | false =>
        simp only [Bool.false_eq_true, if_false]
        exact pairSum_flatten _ _ _ _

/-- Two blocks of one sample each of both streams, the four pairs in another order: signed counts, and squared differences. -/
example : inBlocks (R := Int) (fun a b o => crossCount (.array a.1) (some (.array b.1)) none true (some o))
      [(([7], [⟨3, 4⟩]), ([5], [⟨5, 6⟩])), (([0], [⟨1, 2⟩]), ([-3], [⟨0, 1⟩])),
       (([0], [⟨1, 2⟩]), ([5], [⟨5, 6⟩])), (([7], [⟨3, 4⟩]), ([-3], [⟨0, 1⟩]))]
      [0, 0, 0, 0, 0, 0, 0] = .ok [0, 0, 0, 0, 1, 1, 0] := rfl
example : inBlocks (R := Int) (fun a b o => crossDifference a.2 b.2 (some a.1) (some b.1) none true (some o))
      [(([7], [⟨3, 4⟩]), ([5], [⟨5, 6⟩])), (([0], [⟨1, 2⟩]), ([-3], [⟨0, 1⟩])),
       (([0], [⟨1, 2⟩]), ([5], [⟨5, 6⟩])), (([7], [⟨3, 4⟩]), ([-3], [⟨0, 1⟩]))]
      [0, 0, 1, 0] = .ok [0, 0, 9, 2] := rfl

end
end Cddm
