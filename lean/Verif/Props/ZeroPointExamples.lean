import Mathlib.NumberTheory.Padics.PadicVal.Basic
import Verif.Props.CalibratedExamples
import Verif.Props.ZeroPoint

/-!
Cases that meet the hypotheses of C154.
-/

namespace Pizza

/-- A power of two in place of the square root of `1 / v`, half as large for a `v` that is 4 times as large. -/
def exInvSqrt (v : ℚ) : ℚ := (2 : ℚ) ^ (-(padicValRat 2 v / 2))

theorem exInvSqrt_quarter (v : ℚ) (hv : 0 < v) : exInvSqrt (v / 2 ^ 2) = 2 * exInvSqrt v := by
  have h : padicValRat 2 (v / 2 ^ 2) = padicValRat 2 v - 2 := by
    have h1 : padicValRat 2 (2 : ℚ) = 1 := by simpa using padicValRat.self (p := 2) (by norm_num)
    rw [padicValRat.div (by positivity) (by norm_num), sq, padicValRat.mul (by norm_num) (by norm_num), h1]
    norm_num
  unfold exInvSqrt
  rw [h, show -((padicValRat 2 v - 2) / 2) = 1 + -(padicValRat 2 v / 2) by omega, zpow_add₀ (by norm_num), zpow_one]

/-- Interpolation by the mean of the good pixels. -/
def exLinear : Ext Unit Nat :=
  { exExt with interp := fun _ vals => .ok fun _ => vals.sum / vals.length, invSqrt := exInvSqrt }

theorem exLinear_follows : exLinear.Follows 2 where
  interp := by
    intro pts vals
    show Except.ok _ = Except.ok _
    congr 1
    funext p
    have : (vals.map (2 * ·)).sum = 2 * vals.sum := by
      induction vals with
      | nil => simp
      | cons a l ih => rw [List.map_cons, List.sum_cons, List.sum_cons, ih, mul_add]
    rw [this, List.length_map, mul_div_assoc]
  invSqrt := exInvSqrt_quarter
  outliers := by
    intro ims wts
    show Except.ok _ = Except.ok _
    congr 1
    funext i
    beta_reduce
    rw [List.getD_eq_getElem?_getD, List.getD_eq_getElem?_getD, List.getElem?_map]
    cases wts[i]? with
    | none =>
      unfold Img.map
      simp
    | some a => rfl

/-- The files of `exProcWorld` with these functions and with noise from the weights. -/
def exNoiseWorld : ProcWorld Unit Nat Unit Unit :=
  { exProcWorld with
    ext := exLinear
    memNoise := fun s a => ⟨a.nrow, a.ncol, fun r c => exInvSqrt (a.px r c) * (if r = c then s else 1)⟩ }

theorem exNoiseWorld_follows : exNoiseWorld.NoiseFollows 2 := by
  intro seed a h
  show (⟨_, _, _⟩ : Img ℚ) = ⟨_, _, _⟩
  congr 1
  funext r c
  show exInvSqrt (a.px r c / 2 ^ 2) * _ = 2 * (exInvSqrt (a.px r c) * _)
  rw [exInvSqrt_quarter _ (h r c), mul_assoc]

/-- The tile with zero points by which fluxes are twice as large. -/
def exTwice : Tile Unit Unit Unit :=
  { exBumps with
    entries := [{ exProcEntry ['a'] 0 (.file (['a'], ['m'])) with magzp := 4 }, { exProcEntry ['b'] 1 (.mem 0) with magzp := 4 }] }

theorem exTwice_units : OtherZeroPoint 2 exNoiseWorld exNoiseWorld exBumps exTwice where
  world := rfl
  tile := rfl
  entries := by
    refine .cons ⟨rfl, ?_, ?_⟩ (.cons ⟨rfl, ?_, ?_⟩ .nil)
    · show (0 : ℚ) < 2
      norm_num
    · show (4 : ℚ) = 2 * 2
      norm_num
    · show (0 : ℚ) < 2
      norm_num
    · show (4 : ℚ) = 2 * 2
      norm_num

/-- The same with another reference zero point. -/
theorem exReference_units :
    OtherZeroPoint 2 exNoiseWorld { exNoiseWorld with zpScale := fun m => 2 * m } exBumps exBumps where
  world := rfl
  tile := rfl
  entries := by
    refine .cons ⟨rfl, ?_, rfl⟩ (.cons ⟨rfl, ?_, rfl⟩ .nil) <;>
    · show (0 : ℚ) < 2
      norm_num

/-- `C154_slice`: the sources of the tile and of the tile with other zero points. -/
example := C154_slice (k := 2) (by norm_num) (freshEnv exNoiseWorld exBumps) (freshEnv exNoiseWorld exTwice) exLinear_follows rfl
  (fun ra dec a b => by
    show List.Forall₂ _ (exBumps.entries.map _) (exTwice.entries.map _)
    rw [List.forall₂_map_left_iff, List.forall₂_map_right_iff]
    exact exTwice_units.entries.imp fun e e' he => freshSrc_units exNoiseWorld_follows rfl rfl he.1 he.2.1 he.2.2 ra dec a b)
  2 7

/-- `C154_tile`: the slices of the tile with other zero points. -/
example := C154_tile (by norm_num) exTwice_units exLinear_follows exNoiseWorld_follows 2 7

/-- `C154_tile`: the slices with another reference zero point. -/
example := C154_tile (by norm_num) exReference_units exLinear_follows exNoiseWorld_follows 2 7

/-- The slice of the tile is computed without an error, from two SE images. -/
example : ((exFirstPixel (coaddSingleSlice (freshEnv exNoiseWorld exBumps) 2 7)).map fun p => p.1) = some [6 / 11, 5 / 11] := by
  decide +kernel

theorem exNoiseWorld_orderly : Orderly exNoiseWorld (· = exBumps) where
  maskOnly := exProcWorld_orderly.maskOnly
  sameMasking := exProcWorld_orderly.sameMasking
  seHash := by
    rintro n t e n' t' e' rfl he rfl he' h
    rcases exBumps_entries he with rfl | rfl <;> rcases exBumps_entries he' with rfl | rfl <;>
      first | exact ⟨rfl, rfl⟩ | (simp [exNoiseWorld, exProcWorld, exBumps, exProcEntry] at h)
  coaddHash := exProcWorld_orderly.coaddHash

theorem exTwice_orderly : Orderly exNoiseWorld (· = exTwice) where
  maskOnly := by
    rintro t e t' e' rfl he rfl he' -
    simp only [exTwice, List.mem_cons, List.not_mem_nil, or_false] at he he'
    rcases he with rfl | rfl <;> rcases he' with rfl | rfl <;> refine ⟨?_, ?_, ?_⟩ <;> simp [exProcEntry]
  sameMasking := by
    rintro t e t' e' rfl he rfl he' - -
    simp only [exTwice, List.mem_cons, List.not_mem_nil, or_false] at he he'
    rcases he with rfl | rfl <;> rcases he' with rfl | rfl <;> exact ⟨rfl, rfl⟩
  seHash := by
    rintro n t e n' t' e' rfl he rfl he' h
    simp only [exTwice, List.mem_cons, List.not_mem_nil, or_false] at he he'
    rcases he with rfl | rfl <;> rcases he' with rfl | rfl <;>
      first | exact ⟨rfl, rfl⟩ | (simp [exNoiseWorld, exProcWorld, exTwice, exBumps, exProcEntry] at h)
  coaddHash := by rintro t t' rfl rfl -; exact ⟨rfl, rfl, rfl⟩

/-- `C154_process`: both tiles in processes that are orderly. -/
example := C154_process (by norm_num) exTwice_units exLinear_follows exNoiseWorld_follows exNoiseWorld_orderly exTwice_orderly

end Pizza
