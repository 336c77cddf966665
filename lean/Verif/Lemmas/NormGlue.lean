import Verif.Lemmas.NormApi
import Verif.Spec.NormCall

/-!
# The tuples of `ccorr` and `acorr` as sums over pairs, ready for `normalize`
-/

namespace Cddm
open Spec

theorem added_range {M : Type} [AddCommMonoid M] {full : Bool} {n L : Nat} {δ : Nat → Nat → M}
    {out : List M} (h : Added full n none δ out) (hL : L = if full then 2 * n - 1 else n) :
    out = (List.range L).map fun k => δ L k := by
  obtain ⟨h1, h2⟩ := h
  have hl : out.length = L := by rw [h1, hL]; rfl
  apply List.ext_getElem
  · simp [hl]
  · intro k hk _
    rw [h2 k hk, hl]
    simp [start]

theorem cellSum_abs2 (full : Bool) (f1 f2 : List (Cx ℝ)) (t1 t2 : Option (List Int)) (L k : Nat) :
    cellSum full (fun a b => a + b) (stream (f1.map Cx.abs2) t1) (stream (f2.map Cx.abs2) t2) L k
      = total (fun a b => a.abs2 + b.abs2) (pairsAt full (stream f1 t1) (stream f2 t2) L k) := by
  rw [stream_map, stream_map, cellSum_map, cellSum_total]

theorem selfSum_abs2 (f : List (Cx ℝ)) (t : Option (List Int)) (k : Nat) :
    selfSum (fun a b => a + b) (stream (f.map Cx.abs2) t) k
      = total (fun a b => a.abs2 + b.abs2) (selfPairsAt (stream f t) k) := by
  rw [stream_map, selfSum_map, selfSum_total']

theorem cellSum_one {α β : Type} (full : Bool) (s1 : Stream α) (s2 : Stream β) (L k : Nat) :
    cellSum full (fun _ _ => 1) s1 s2 L k = (pairsAt full s1 s2 L k).length := by
  rw [cellSum_total, total_count]

/-- The tuple of `ccorr` (no `aout`). -/
theorem ccorr_pairs (f1 f2 : List (Cx ℝ)) (t1 t2 : Option (List Int)) (n : Option Nat)
    (norm : Option Int) (method : Option String) (aligned : Bool) (m : String) (v : Int) (n' : Nat)
    (hm : m = effMethod method n) (hnv : v = effNorm norm m true)
    (hn' : n' = n.getD (defaultN f1.length t1 t2))
    (h : ¬ CcorrRefused false method norm n f1.length f2.length t1 t2)
    (hs : Manageable false m f1.length f2.length t1 t2 n' none none ({} : CorrAout ℝ)) :
    ∃ r, ccorr f1 f2 t1 t2 n norm method aligned none none {} = .ok r ∧
      r.cor = (List.range n').map (fun k => total (if m = "diff" then dist2 else reProd)
        (pairsAt false (stream f1 t1) (stream f2 t2) n' k)) ∧
      r.count = (List.range n').map (fun k =>
        (pairsAt false (stream f1 t1) (stream f2 t2) n' k).length) ∧
      (WantsSquares v ∧ m ≠ "diff" → r.sq = some ((List.range n').map fun k =>
        total (fun a b => a.abs2 + b.abs2)
          (pairsAt false (stream f1 t1) (stream f2 t2) n' k))) ∧
      (¬ (WantsSquares v ∧ m ≠ "diff") → r.sq = none) ∧
      (WantsSums v → r.ds1 = some ((List.range n').map fun k => total (fun a _ => a)
          (pairsAt false (stream f1 t1) (stream f2 t2) n' k)) ∧
        r.ds2 = some ((List.range n').map fun k => total (fun _ b => b)
          (pairsAt false (stream f1 t1) (stream f2 t2) n' k))) ∧
      (¬ WantsSums v → r.ds1 = none ∧ r.ds2 = none) := by
  obtain ⟨r, hr, h1, h2, h3, h4, h5, h6, h7, h8⟩ := C18_ccorr_fields f1 f2 t1 t2 n norm method
    aligned none none {} m v n' hm hnv (by rw [hn']; rfl) h hs
  refine ⟨r, hr, ?_, ?_, ?_, ?_, ?_, h8⟩
  · rw [added_range (L := n') h1 rfl]; simp only [cellSum_total]
  · rw [added_range (L := n') h2 rfl]; simp only [cellSum_one]
  · intro hw
    obtain ⟨s, e, ha⟩ := h3 hw
    rw [e, added_range (L := n') ha rfl]
    simp only [Option.getD_none, cellSum_abs2]
  · intro hw
    by_cases hd : m = "diff"
    · exact h5 hd
    · exact h4 (fun hc => hw ⟨hc, hd⟩) hd
  · intro hw
    obtain ⟨s, e, ha⟩ := h6 hw
    obtain ⟨s', e', ha'⟩ := h7 hw
    rw [e, e', added_range (L := n') ha rfl, added_range (L := n') ha' rfl]
    simp only [cellSum_total]
    exact ⟨trivial, trivial⟩

/-- The tuple of `ccorr(complex = True)`; `L = 2 n' - 1`. -/
theorem ccorrComplex_pairs (f1 f2 : List (Cx ℝ)) (t1 t2 : Option (List Int)) (n : Option Nat)
    (norm : Option Int) (method : Option String) (aligned : Bool) (m : String) (v : Int)
    (n' L : Nat) (hm : m = effMethod method n) (hnv : v = effNorm norm m true)
    (hn' : n' = n.getD (defaultN f1.length t1 t2)) (hL : L = 2 * n' - 1)
    (h : ¬ CcorrRefused true method norm n f1.length f2.length t1 t2)
    (hs : Manageable true m f1.length f2.length t1 t2 n' none none ({} : CorrAout (Cx ℝ))) :
    ∃ r, ccorrComplex f1 f2 t1 t2 n norm method aligned none none {} = .ok r ∧
      r.cor = (List.range L).map (fun k => total cxProd
        (pairsAt true (stream f1 t1) (stream f2 t2) L k)) ∧
      r.count = (List.range L).map (fun k =>
        (pairsAt true (stream f1 t1) (stream f2 t2) L k).length) ∧
      (WantsSquares v → r.sq = some ((List.range L).map fun k =>
        total (fun a b => a.abs2 + b.abs2)
          (pairsAt true (stream f1 t1) (stream f2 t2) L k))) ∧
      (¬ WantsSquares v → r.sq = none) ∧
      (WantsSums v → r.ds1 = some ((List.range L).map fun k => total (fun a _ => a)
          (pairsAt true (stream f1 t1) (stream f2 t2) L k)) ∧
        r.ds2 = some ((List.range L).map fun k => total (fun _ b => b)
          (pairsAt true (stream f1 t1) (stream f2 t2) L k))) ∧
      (¬ WantsSums v → r.ds1 = none ∧ r.ds2 = none) := by
  obtain ⟨r, hr, h1, h2, h3, h4, h6, h7, h8⟩ := C18_ccorr_complex_fields f1 f2 t1 t2 n norm
    method aligned none none {} m v n' hm hnv (by rw [hn']; rfl) h hs
  refine ⟨r, hr, ?_, ?_, ?_, h4, ?_, h8⟩
  · rw [added_range h1 hL]; simp only [cellSum_total]
  · rw [added_range h2 hL]; simp only [cellSum_one]
  · intro hw
    obtain ⟨s, e, ha⟩ := h3 hw
    rw [e, added_range ha hL]
    simp only [Option.getD_none, cellSum_abs2]
  · intro hw
    obtain ⟨s, e, ha⟩ := h6 hw
    obtain ⟨s', e', ha'⟩ := h7 hw
    rw [e, e', added_range ha hL, added_range ha' hL]
    simp only [cellSum_total]
    exact ⟨trivial, trivial⟩

/-- The tuple of `acorr` (no `aout`). -/
theorem acorr_pairs (f : List (Cx ℝ)) (t : Option (List Int)) (n : Option Nat)
    (norm : Option Int) (method : Option String) (aligned : Bool) (m : String) (v : Int) (n' : Nat)
    (hm : m = effMethod method n) (hnv : v = effNorm norm m false)
    (hn' : n' = n.getD (defaultN f.length t t))
    (h : ¬ AcorrRefused method norm n f.length t) (hd : Distinct t)
    (hs : Manageable false m f.length f.length t t n' none none ({} : CorrAout ℝ)) :
    ∃ r, acorr f t n norm method aligned none {} = .ok r ∧
      r.cor = (List.range n').map (fun k => total (if m = "diff" then dist2 else reProd)
        (selfPairsAt (stream f t) k)) ∧
      r.count = (List.range n').map (fun k => (selfPairsAt (stream f t) k).length) ∧
      (WantsSquares v ∧ m ≠ "diff" → r.sq = some ((List.range n').map fun k =>
        total (fun a b => a.abs2 + b.abs2) (selfPairsAt (stream f t) k))) ∧
      (¬ (WantsSquares v ∧ m ≠ "diff") → r.sq = none) ∧
      (WantsSums v ∧ m ≠ "diff" → r.ds1 = some ((List.range n').map fun k =>
        total (fun a b => (1 / 2 : ℝ) • (a + b)) (selfPairsAt (stream f t) k))) ∧
      (¬ (WantsSums v ∧ m ≠ "diff") → r.ds1 = none) ∧ r.ds2 = none := by
  obtain ⟨r, hr, h1, h2, h3, h4, h5, h6, h7, h8⟩ := C18_acorr_fields f t n norm method
    aligned none {} m v n' hm hnv (by rw [hn']; rfl) h hd hs
  refine ⟨r, hr, ?_, ?_, ?_, ?_, ?_, ?_, h8⟩
  · rw [added_range (L := n') h1 rfl]; simp only [selfSum_total']
  · rw [added_range (L := n') h2 rfl]; simp only [selfSum_total', total_count]
  · intro hw
    obtain ⟨s, e, ha⟩ := h3 hw
    rw [e, added_range (L := n') ha rfl]
    simp only [Option.getD_none, selfSum_abs2]
  · intro hw
    by_cases hd : m = "diff"
    · exact (h7 hd).1
    · exact h4 (fun hc => hw ⟨hc, hd⟩) hd
  · intro hw
    obtain ⟨s, e, ha⟩ := h5 hw
    rw [e, added_range (L := n') ha rfl]
    simp only [selfSum_total']
  · intro hw
    by_cases hd : m = "diff"
    · exact (h7 hd).2
    · exact h6 (fun hc => hw ⟨hc, hd⟩) hd

theorem total_fwd_symm {α M : Type} [AddCommMonoid M] (g : α → α → M) (hg : ∀ a b, g a b = g b a)
    (s : Stream α) (k : Nat) : total g (selfPairsFwdAt s k) = total g (selfPairsAt s k) := by
  rw [← selfSumFwd_total, ← selfSum_total', selfSumFwd_symm g hg]

theorem length_fwd {α : Type} (s : Stream α) (k : Nat) :
    (selfPairsFwdAt s k).length = (selfPairsAt s k).length := by
  simp [selfPairsFwdAt, selfPairsAt]

/-- The tuple of `acorr(complex = True)` (no `aout`). -/
theorem acorrComplex_pairs (f : List (Cx ℝ)) (t : Option (List Int)) (n : Option Nat)
    (norm : Option Int) (method : Option String) (aligned : Bool) (m : String) (v : Int) (n' : Nat)
    (hm : m = effMethod method n) (hnv : v = effNorm norm m false) (hdiff : m ≠ "diff")
    (hn' : n' = n.getD (defaultN f.length t t))
    (h : ¬ AcorrRefused method norm n f.length t) (hd : Distinct t)
    (hs : Manageable false m f.length f.length t t n' none none ({} : CorrAout (Cx ℝ))) :
    ∃ r, acorrComplex f t n norm method aligned none {} = .ok r ∧
      r.cor = (List.range n').map (fun k => total cxProd (selfPairsFwdAt (stream f t) k)) ∧
      r.count = (List.range n').map (fun k => (selfPairsFwdAt (stream f t) k).length) ∧
      (WantsSquares v → r.sq = some ((List.range n').map fun k =>
        total (fun a b => a.abs2 + b.abs2) (selfPairsFwdAt (stream f t) k))) ∧
      (¬ WantsSquares v → r.sq = none) ∧
      (WantsSums v → r.ds1 = some ((List.range n').map fun k =>
        total (fun a b => (1 / 2 : ℝ) • (a + b)) (selfPairsFwdAt (stream f t) k))) ∧
      (¬ WantsSums v → r.ds1 = none) ∧ r.ds2 = none := by
  obtain ⟨r, hr, h1, h2, -, -, h8⟩ := C18_acorr_complex_fields f t n norm method
    aligned none {} m v n' hm hnv hdiff (by rw [hn']; rfl) h hs
  obtain ⟨r', hr', h3, h4, h5, h6⟩ := C18_acorr_complex_sums f t n norm method
    aligned none {} m v n' hm hnv hdiff (by rw [hn']; rfl) h hd hs
  obtain rfl : r = r' := Except.ok.inj (hr.symm.trans hr')
  refine ⟨r, hr, ?_, ?_, ?_, h4, ?_, h6, h8⟩
  · rw [added_range (L := n') h1 rfl]; simp only [selfSumFwd_total]
  · rw [added_range (L := n') h2 rfl]; simp only [selfSum_total', total_count, length_fwd]
  · intro hw
    obtain ⟨s, e, ha⟩ := h3 hw
    rw [e, added_range (L := n') ha rfl]
    simp only [Option.getD_none, selfSum_abs2]
    congr 2
    funext k
    exact (total_fwd_symm _ (fun a b => add_comm _ _) _ _).symm
  · intro hw
    obtain ⟨s, e, ha⟩ := h5 hw
    rw [e, added_range (L := n') ha rfl]
    simp only [selfSum_total']
    congr 2
    funext k
    exact (total_fwd_symm _ (fun a b => by rw [add_comm]) _ _).symm

theorem CrossCall.manageable {C : Type} {full : Bool} {N1 N2 : Nat} {t1 t2 : Option (List Int)}
    {n : Option Nat} {norm : Option Int} {method : Option String} {n' : Nat}
    (h : CrossCall full N1 N2 t1 t2 n norm method n') :
    Manageable full (effMethod method n) N1 N2 t1 t2 n' none none ({} : CorrAout C) :=
  ⟨h.lengths, h.lengths, h.lengths, h.lengths, h.lengths, by simp, by simp, h.fft⟩

theorem AutoCall.manageable {C : Type} {N : Nat} {t : Option (List Int)}
    {n : Option Nat} {norm : Option Int} {method : Option String} {n' : Nat}
    (h : AutoCall N t n norm method n') :
    Manageable false (effMethod method n) N N t t n' none none ({} : CorrAout C) :=
  ⟨h.lengths, h.lengths, h.lengths, h.lengths, h.lengths, by simp, by simp,
    fun e => ⟨h.distinct, h.distinct, h.fft e⟩⟩

section cross
variable (f1 f2 : List (Cx ℝ)) (t1 t2 : Option (List Int)) (n : Option Nat) (norm : Option Int)
  (method : Option String) (aligned : Bool) (n' : Nat) (bg : Background) (var : Option Variance)
  (v : Variance)

/-- What reaches `normalize` from `ccorr`. -/
theorem ccorrNormalized_eq (call : CrossCall false f1.length f2.length t1 t2 n norm method n')
    (hd : effMethod method n ≠ "diff") :
    ∃ sq s1 s2, (∀ bg var z mode scale,
      ccorrNormalized f1 f2 t1 t2 n norm method aligned bg var z mode scale
        = (normalize normOpsR (.corr
          ((List.range n').map fun k =>
            total reProd (pairsAt false (stream f1 t1) (stream f2 t2) n' k))
          ((List.range n').map fun k => (pairsAt false (stream f1 t1) (stream f2 t2) n' k).length)
          sq s1 s2) (some bg) var (some z) mode scale none).map Prod.fst) ∧
      (AskSquares norm method n true → sq = some ((List.range n').map fun k =>
        total (fun a b => a.abs2 + b.abs2) (pairsAt false (stream f1 t1) (stream f2 t2) n' k))) ∧
      (AskSums norm method n true → s1 = some ((List.range n').map fun k =>
          total (fun a _ => a) (pairsAt false (stream f1 t1) (stream f2 t2) n' k)) ∧
        s2 = (some fun k => total (fun _ b => b)
          (pairsAt false (stream f1 t1) (stream f2 t2) n' k)).map
            fun f => (List.range n').map f) := by
  obtain ⟨r, hr, h1, h2, h3, -, h5, -⟩ := ccorr_pairs f1 f2 t1 t2 n norm method aligned _ _ n'
    rfl rfl call.number call.accepted call.manageable
  refine ⟨r.sq, r.ds1, r.ds2, ?_, fun h => h3 ⟨h, hd⟩, h5⟩
  intro bg var z mode scale
  rw [ccorrNormalized, hr]
  simp only [bind, Except.bind, CorrTuple.toData, if_neg hd, h1, h2]
  rfl

/-- The same with complex output. -/
theorem ccorrNormalizedC_eq (call : CrossCall true f1.length f2.length t1 t2 n norm method n')
    (L : Nat) (hL : L = 2 * n' - 1) :
    ∃ sq s1 s2, (∀ bg var z mode scale,
      ccorrNormalizedC f1 f2 t1 t2 n norm method aligned bg var z mode scale
        = (normalize normOpsC (.corr
          ((List.range L).map fun k =>
            total cxProd (pairsAt true (stream f1 t1) (stream f2 t2) L k))
          ((List.range L).map fun k => (pairsAt true (stream f1 t1) (stream f2 t2) L k).length)
          sq s1 s2) (some bg) var (some z) mode scale none).map Prod.fst) ∧
      (AskSquares norm method n true → sq = some ((List.range L).map fun k =>
        total (fun a b => a.abs2 + b.abs2) (pairsAt true (stream f1 t1) (stream f2 t2) L k))) ∧
      (AskSums norm method n true → s1 = some ((List.range L).map fun k =>
          total (fun a _ => a) (pairsAt true (stream f1 t1) (stream f2 t2) L k)) ∧
        s2 = (some fun k => total (fun _ b => b)
          (pairsAt true (stream f1 t1) (stream f2 t2) L k)).map
            fun f => (List.range L).map f) := by
  have hd : effMethod method n ≠ "diff" := fun h => (not_refused call.accepted).2.2.1 ⟨h, rfl⟩
  obtain ⟨r, hr, h1, h2, h3, -, h5, -⟩ := ccorrComplex_pairs f1 f2 t1 t2 n norm method aligned _ _
    n' L rfl rfl call.number hL call.accepted call.manageable
  refine ⟨r.sq, r.ds1, r.ds2, ?_, h3, h5⟩
  intro bg var z mode scale
  rw [ccorrNormalizedC, hr]
  simp only [bind, Except.bind, CorrTuple.toData, if_neg hd, h1, h2]
  rfl

end cross

section auto
variable (f : List (Cx ℝ)) (t : Option (List Int)) (n : Option Nat) (norm : Option Int)
  (method : Option String) (aligned : Bool) (n' : Nat)

/-- What reaches `normalize` from `acorr`. -/
theorem acorrNormalized_eq (call : AutoCall f.length t n norm method n')
    (hd : effMethod method n ≠ "diff") :
    ∃ sq s1, (∀ bg var z mode scale,
      acorrNormalized f t n norm method aligned bg var z mode scale
        = (normalize normOpsR (.corr
          ((List.range n').map fun k => total reProd (selfPairsAt (stream f t) k))
          ((List.range n').map fun k => (selfPairsAt (stream f t) k).length)
          sq s1 ((none : Option (Nat → Cx ℝ)).map fun f => (List.range n').map f))
          (some bg) var (some z) mode scale none).map Prod.fst) ∧
      (AskSquares norm method n false → sq = some ((List.range n').map fun k =>
        total (fun a b => a.abs2 + b.abs2) (selfPairsAt (stream f t) k))) ∧
      (AskSums norm method n false → s1 = some ((List.range n').map fun k =>
          total (fun a b => (1 / 2 : ℝ) • (a + b)) (selfPairsAt (stream f t) k))) := by
  obtain ⟨r, hr, h1, h2, h3, -, h5, -, h7⟩ := acorr_pairs f t n norm method aligned _ _ n'
    rfl rfl call.number call.accepted call.distinct call.manageable
  refine ⟨r.sq, r.ds1, ?_, fun h => h3 ⟨h, hd⟩, fun h => h5 ⟨h, hd⟩⟩
  intro bg var z mode scale
  rw [acorrNormalized, hr]
  simp only [bind, Except.bind, CorrTuple.toData, if_neg hd, h1, h2, h7]
  rfl

/-- The same with complex output. -/
theorem acorrNormalizedC_eq (call : AutoCall f.length t n norm method n')
    (hd : effMethod method n ≠ "diff") :
    ∃ sq s1, (∀ bg var z mode scale,
      acorrNormalizedC f t n norm method aligned bg var z mode scale
        = (normalize normOpsC (.corr
          ((List.range n').map fun k => total cxProd (selfPairsFwdAt (stream f t) k))
          ((List.range n').map fun k => (selfPairsFwdAt (stream f t) k).length)
          sq s1 ((none : Option (Nat → Cx ℝ)).map fun f => (List.range n').map f))
          (some bg) var (some z) mode scale none).map Prod.fst) ∧
      (AskSquares norm method n false → sq = some ((List.range n').map fun k =>
        total (fun a b => a.abs2 + b.abs2) (selfPairsFwdAt (stream f t) k))) ∧
      (AskSums norm method n false → s1 = some ((List.range n').map fun k =>
          total (fun a b => (1 / 2 : ℝ) • (a + b)) (selfPairsFwdAt (stream f t) k))) := by
  obtain ⟨r, hr, h1, h2, h3, -, h5, -, h7⟩ := acorrComplex_pairs f t n norm method aligned _ _ n'
    rfl rfl hd call.number call.accepted call.distinct call.manageable
  refine ⟨r.sq, r.ds1, ?_, h3, h5⟩
  intro bg var z mode scale
  rw [acorrNormalizedC, hr]
  simp only [bind, Except.bind, CorrTuple.toData, if_neg hd, h1, h2, h7]
  rfl

end auto

end Cddm
