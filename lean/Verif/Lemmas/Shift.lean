import Verif.Lemmas.Laws

/-! # Shifting the time axis does not change the argument handling -/

namespace Cddm
open Spec

theorem min?_map_add (c : Int) (t : List Int) : (t.map (· + c)).min? = t.min?.map (· + c) := by
  rcases eq_or_ne t [] with rfl | h
  · rfl
  obtain ⟨m, hm⟩ : ∃ m, t.min? = some m := by
    rw [← Option.isSome_iff_exists, List.isSome_min?_iff]; exact h
  rw [hm, Option.map_some, List.min?_eq_some_iff]
  refine ⟨List.mem_map.mpr ⟨m, List.min?_mem hm, rfl⟩, fun b hb => ?_⟩
  obtain ⟨a, ha, rfl⟩ := List.mem_map.mp hb
  have := (List.le_min?_iff hm).mp le_rfl a ha
  omega

theorem max?_map_add (c : Int) (t : List Int) : (t.map (· + c)).max? = t.max?.map (· + c) := by
  rcases eq_or_ne t [] with rfl | h
  · rfl
  obtain ⟨m, hm⟩ : ∃ m, t.max? = some m := by
    rw [← Option.isSome_iff_exists, List.isSome_max?_iff]; exact h
  rw [hm, Option.map_some, List.max?_eq_some_iff]
  refine ⟨List.mem_map.mpr ⟨m, List.max?_mem hm, rfl⟩, fun b hb => ?_⟩
  obtain ⟨a, ha, rfl⟩ := List.mem_map.mp hb
  have := (List.max?_le_iff hm).mp le_rfl a ha
  omega

theorem npMin_shift (c : Int) (t : List Int) :
    npMin (t.map (· + c)) = (npMin t).map (· + c) := by
  unfold npMin; rw [min?_map_add]; cases t.min? <;> rfl

theorem npMax_shift (c : Int) (t : List Int) :
    npMax (t.map (· + c)) = (npMax t).map (· + c) := by
  unfold npMax; rw [max?_map_add]; cases t.max? <;> rfl

/-- Shift an optional time array. -/
def shiftT (c : Int) (t : Option (List Int)) : Option (List Int) := t.map (List.map (· + c))

theorem fullLengthCross_shift (N : Nat) (c : Int) (a b : List Int) :
    fullLengthCross N (some (a.map (· + c), b.map (· + c))) = fullLengthCross N (some (a, b)) := by
  simp only [fullLengthCross, npMin_shift, npMax_shift]
  cases npMin a <;> cases npMax a <;> cases npMin b <;> cases npMax b <;>
    simp [Except.map, bind, Except.bind]

theorem fullLengthAuto_shift (N : Nat) (c : Int) (a : List Int) :
    fullLengthAuto N (some (a.map (· + c))) = fullLengthAuto N (some a) := by
  simp only [fullLengthAuto, npMin_shift, npMax_shift]
  cases npMin a <;> cases npMax a <;> simp [Except.map, bind, Except.bind, ← add_assoc]

theorem map_shift_sub (c m : Int) (a : List Int) :
    (a.map (· + c)).map (· - (m + c)) = a.map (· - m) := by
  simp [Function.comp_def]

theorem inspectCross_shift (N1 N2 : Nat) (c : Int) (t1 t2 : Option (List Int)) (n L : Option Nat)
    (full : Bool) :
    inspectCross N1 N2 (shiftT c t1) (shiftT c t2) n L full
      = inspectCross N1 N2 t1 t2 n L full := by
  rcases t1 with _ | a <;> rcases t2 with _ | b <;> try rfl
  simp only [inspectCross, shiftT, Option.map_some, bind, Except.bind]
  split
  · rfl
  · rcases n with _ | n <;> rcases L with _ | L <;> simp only [fullLengthCross_shift]
    · cases fullLengthCross N1 (some (a, b)) with
      | error e => rfl
      | ok v =>
        simp only [npMin_shift]
        cases npMin a <;> cases npMin b <;>
          simp only [Except.map, min_add_add_right, map_shift_sub]
    all_goals
      simp only [npMin_shift]
      cases npMin a <;> cases npMin b <;>
        simp only [Except.map, min_add_add_right, map_shift_sub]

theorem inspectAuto_shift (N : Nat) (c : Int) (t : Option (List Int)) (n L : Option Nat) :
    inspectAuto N (shiftT c t) n L = inspectAuto N t n L := by
  rcases t with _ | a
  · rfl
  simp only [inspectAuto, shiftT, Option.map_some, bind, Except.bind]
  rcases n with _ | n <;> rcases L with _ | L <;> simp only [fullLengthAuto_shift]
  · cases fullLengthAuto N (some a) with
    | error e => rfl
    | ok v =>
      simp only [npMin_shift]
      cases npMin a <;> simp only [Except.map, map_shift_sub]
  all_goals
    simp only [npMin_shift]
    cases npMin a <;> simp only [Except.map, map_shift_sub]

theorem defaultCount_shift (c : Int) (a b : List Int) (n : Option Nat) (out : Option (List Nat))
    (cx : Bool) : defaultCount (a.map (· + c)) (b.map (· + c)) n out cx = defaultCount a b n out cx := by
  simp only [defaultCount, npMin_shift, npMax_shift]
  rcases out with _ | o <;> rcases n with _ | n <;> try rfl
  cases npMin a <;> cases npMax a <;> cases npMin b <;> cases npMax b <;>
    simp [Except.map, bind, Except.bind]

theorem stamps_shift (c : Int) (t : List Int) :
    stamps (t.map (· + c)) = shiftStream c (stamps t) := by
  simp [stamps, shiftStream]

end Cddm
