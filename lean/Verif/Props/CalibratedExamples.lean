import Verif.Props.Calibrated
import Verif.Props.MakeProcExamples

/-!
Cases that meet the hypotheses of C121, and what happens without them.
-/

namespace Pizza

/-- The files of `exProcWorld` with SE image `a` in units that are 4 times smaller and on a higher background, and with
a slope in the image and in the background of SE image `b`. -/
def exUnitsWorld : ProcWorld Unit Nat Unit Unit :=
  { exProcWorld with
    files := fun k =>
      if k.2 = ['m'] then exProcWorld.files k
      else if k.1 = ['a'] then
        if k.2 = ['w'] then .ok (.num ⟨8, 8, fun r c => (1 + r + c) / 16⟩) else
        if k.2 = ['s'] then .ok (.num ⟨8, 8, fun r c => 4 * (r * c) + 7⟩) else .ok (.num ⟨8, 8, fun _ _ => 11⟩)
      else
        if k.2 = ['w'] then .ok (.num ⟨8, 8, fun r c => 1 + r + c⟩) else
        if k.2 = ['s'] then .ok (.num ⟨8, 8, fun r c => r * c + r⟩) else .ok (.num ⟨8, 8, fun r _ => 1 + r⟩) }

/-- The tile with the zero point of these units. -/
def exUnits : Tile Unit Unit Unit :=
  { exBumps with
    entries := [{ exProcEntry ['a'] 0 (.file (['a'], ['m'])) with magzp := 1 / 2 }, exProcEntry ['b'] 1 (.mem 0)] }

theorem exUnits_sky : SameSky exProcWorld exUnitsWorld exBumps exUnits where
  world := rfl
  tile := rfl
  entries := by
    refine .cons ⟨rfl, ?_, ?_, .inr ⟨_, _, rfl, rfl, rfl⟩, .inr ⟨_, _, rfl, rfl, rfl⟩, .inr ⟨_, _, rfl, rfl, rfl⟩, rfl, ?_, ?_⟩
      (.cons ⟨rfl, ?_, ?_, .inr ⟨_, _, rfl, rfl, rfl⟩, .inr ⟨_, _, rfl, rfl, rfl⟩, .inr ⟨_, _, rfl, rfl, rfl⟩, rfl, ?_, ?_⟩ .nil)
    · show (2 : ℚ) ≠ 0; norm_num
    · show (1 / 2 : ℚ) ≠ 0; norm_num
    · intro a b a' b' h1 h2 h3 h4 r c
      cases h1; cases h2; cases h3; cases h4
      show ((4 * (r * c) + 7 : ℚ) - 11) * (1 / 2) = ((r * c : ℚ) - 1) * 2
      ring
    · intro a a' h1 h2 r c
      cases h1; cases h2
      show ((1 + r + c : ℚ) / 16) / (1 / 2) ^ 2 = (1 + r + c : ℚ) / 2 ^ 2
      ring
    · show (2 : ℚ) ≠ 0; norm_num
    · show (2 : ℚ) ≠ 0; norm_num
    · intro a b a' b' h1 h2 h3 h4 r c
      cases h1; cases h2; cases h3; cases h4
      show ((r * c + r : ℚ) - (1 + r)) * 2 = ((r * c : ℚ) - 1) * 2
      ring
    · intro a a' h1 h2 r c
      cases h1; cases h2
      rfl

/-- The pixel of the coadd that is compared. -/
def exFirstPixel (r : Except Err (SliceRes Flt EpochRow)) : Option (List ℚ × List Flt) :=
  match r with
  | .ok r => some (r.weights, match r.pix with | some p => p.image.take 2 | none => [])
  | .error _ => none

/-- C121: the two tiles have the same slices; with the zero point left as it was, other pixels come out. -/
theorem C121_zero_point_needed : SameSky exProcWorld exUnitsWorld exBumps exUnits ∧
    exFirstPixel (coaddSingleSlice (freshEnv exUnitsWorld exUnits) 2 7) =
      exFirstPixel (coaddSingleSlice (freshEnv exProcWorld exBumps) 2 7) ∧
    (exFirstPixel (coaddSingleSlice (freshEnv exProcWorld exBumps) 2 7)).isSome ∧
    exFirstPixel (coaddSingleSlice (freshEnv exUnitsWorld exBumps) 2 7) ≠
      exFirstPixel (coaddSingleSlice (freshEnv exProcWorld exBumps) 2 7) := by
  refine ⟨exUnits_sky, by rw [C121_slice exUnits_sky], ?_, ?_⟩ <;> decide +kernel

/-- C121_background: SE image `b`. -/
example : SameFlux exProcWorld exUnitsWorld (exProcEntry ['b'] 1 (.mem 0)) (exProcEntry ['b'] 1 (.mem 0)) := by
  refine C121_background (by show (2 : ℚ) ≠ 0; norm_num) rfl rfl rfl _ _ _ _ rfl rfl rfl rfl rfl rfl (fun r _ => r)
    fun r c => ⟨?_, ?_⟩
  · show ((r * c + r : ℚ)) = r * c + r; rfl
  · show (1 + r : ℚ) = 1 + r; rfl

/-- SE image `a` of `exProcWorld` in units that are 3 times smaller. -/
def exThirdWorld : ProcWorld Unit Nat Unit Unit :=
  { exProcWorld with
    files := fun k =>
      if k.2 = ['m'] then exProcWorld.files k
      else if k.2 = ['w'] then .ok (.num ⟨8, 8, fun r c => (1 + r + c) / 3 ^ 2⟩)
      else if k.2 = ['s'] then .ok (.num ⟨8, 8, fun r c => 3 * (r * c)⟩)
      else .ok (.num ⟨8, 8, fun _ _ => 3 * 1⟩) }

/-- C121_units: an image in other units. -/
example : SameFlux exProcWorld exThirdWorld (exProcEntry ['a'] 0 (.file (['a'], ['m'])))
    { exProcEntry ['a'] 0 (.file (['a'], ['m'])) with magzp := 2 / 3 } := by
  refine C121_units 3 ?_ (by norm_num) ?_ rfl rfl _ _ _ _ _ _ rfl rfl rfl rfl rfl rfl rfl rfl rfl fun r c => ⟨rfl, rfl, rfl⟩
  · show (2 / 3 : ℚ) ≠ 0
    norm_num
  · show (2 / 3 * 3 : ℚ) = 2
    norm_num

/-- C121_process: also the tile in the new units can be worked on by a process. -/
theorem exUnits_orderly : Orderly exUnitsWorld (· = exUnits) where
  maskOnly := by
    rintro t e t' e' rfl he rfl he' -
    simp only [exUnits, List.mem_cons, List.not_mem_nil, or_false] at he he'
    rcases he with rfl | rfl <;> rcases he' with rfl | rfl <;> refine ⟨?_, ?_, ?_⟩ <;> simp [exProcEntry]
  sameMasking := by
    rintro t e t' e' rfl he rfl he' - -
    simp only [exUnits, List.mem_cons, List.not_mem_nil, or_false] at he he'
    rcases he with rfl | rfl <;> rcases he' with rfl | rfl <;> exact ⟨rfl, rfl⟩
  seHash := by
    rintro n t e n' t' e' rfl he rfl he' h
    simp only [exUnits, List.mem_cons, List.not_mem_nil, or_false] at he he'
    rcases he with rfl | rfl <;> rcases he' with rfl | rfl <;>
      first | exact ⟨rfl, rfl⟩ | (simp [exUnitsWorld, exProcWorld, exUnits, exBumps, exProcEntry] at h)
  coaddHash := by rintro t t' rfl rfl -; exact ⟨rfl, rfl, rfl⟩

/-- `C121_process`: both tiles in processes that are orderly. -/
example := C121_process exUnits_sky exSeeded_orderly exUnits_orderly

/-- A call for this tile. -/
def exUnitsCall : MakeP Unit Nat Unit Unit Nat Nat where
  args := exMakeP.args
  world := exUnitsWorld
  tile := exUnits
  same := rfl

/-- C121_call and C121_process_call: the calls are made alike, and the call in a process comes to an end. -/
example : SameSkyCall exMakeP exUnitsCall ∧ (∃ p, prepare exMakeP.fresh = .ok p ∧ prepare exUnitsCall.fresh = .ok p ∧
    ∃ ss r st', FitsBodyP exMakeP p (Proc.fresh (fun _ => 1) exProcWorld.arrays 0) ss r st') ∧
    Orderly exProcWorld exSeeded ∧ exMakeP.Within exProcWorld exSeeded ∧
    Reached exProcWorld exSeeded (Proc.fresh (fun _ => 1) exProcWorld.arrays 0) := by
  obtain ⟨p, hp, -⟩ := exMakeP_prepare
  have hw : exMakeP.Within exProcWorld exSeeded := exMakeP_within _ _ _
  refine ⟨⟨exUnits_sky, rfl⟩, ⟨p, hp, hp, C116_ends exSeeded_orderly exMakeP hw 3 3 exMakeP_sound p hp _ (.fresh _ _)⟩,
    exSeeded_orderly, hw, .fresh _ _⟩

/-- `C121_slice`: the slices of the two tiles are the same. -/
example := C121_slice exUnits_sky 2 7

end Pizza
