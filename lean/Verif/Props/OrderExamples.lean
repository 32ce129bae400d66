import Verif.Props.Order
import Verif.Props.OneSkyExamples

/-!
Cases that meet the hypotheses of C123, and the role of its hypothesis.
-/

namespace Pizza

theorem exOne : ∀ k < 32, (1 : BitVec 32).getLsbD k = true → k = 0 := by decide

/-- C123_tile: two SE images with other weights and other masks, in another order. -/
example : ∃ r entries, SoundEnv (freshEnv exSkyWorld exSkyTile) 3 3 ∧ exSkyTile.cfg.rejectOutliers = false ∧
    (∀ e ∈ exSkyTile.entries, ∀ bm, freshMask exSkyWorld exSkyTile e = .ok bm →
      Unflagged exSkyTile.cfg.noiseFlags bm) ∧
    exSkyTile.entries.Perm entries ∧ entries ≠ exSkyTile.entries ∧
    coaddSingleSlice (freshEnv exSkyWorld exSkyTile) 3 8 = .ok r ∧ (usedRows r).map EpochRow.weight = [1 / 3, 2 / 3] := by
  obtain ⟨r, h1, h2, _⟩ := exSkyCheck_ok exSky_checks.2.1
  refine ⟨r, exSkyTile.entries.reverse, exSky_sound exObjects 3 (by norm_num) { exCfg with fracBuffer := 4 }
    (by show (1 : ℚ) ≤ 4; norm_num) (C93_boxes 1 1 4 3 3 _ _ 0 _ (by norm_num) exObjects_eq), rfl, ?_,
    (List.reverse_perm _).symm, ?_, h1, h2⟩
  · intro e he bm hb r _ c _ hc
    rcases exBumps_entries he with rfl | rfl <;> cases hb <;> obtain ⟨k, k1, k2, k3⟩ := hc
    · have : k = 0 := exOne k k1 k3
      subst this
      revert k2
      show (if r = c ∧ (r = 6 ∨ r = 16) then (2 : BitVec 32) else 0).getLsbD 0 = true → False
      split <;> decide
    · revert k2
      show (0 : BitVec 32).getLsbD k = true → False
      simp
  · intro h
    have := congrArg (fun l => l.map Entry.imageId) h
    revert this
    decide

/-- SE images with a flagged pixel inside the slices. -/
def exNoisyWorld : ProcWorld Unit Nat Unit Unit :=
  { exSkyWorld with
    files := fun k =>
      if k.2 = ['m'] then .ok (.bits ⟨24, 24, fun r c => if r = 11 ∧ c = 11 then 2 else 0⟩) else exSkyWorld.files k }

/-- Both SE images have a flagged pixel that is filled with noise. -/
def exNoisyTile : Tile Unit Unit Unit :=
  { exSkyTile with
    entries := [exProcEntry ['a'] 0 (.file (['a'], ['m'])), exProcEntry ['b'] 1 (.file (['b'], ['m']))]
    cfg := { exCfg with fracBuffer := 4, noiseFlags := 2, splineFlags := 4 } }

/-- The pixels of the image of a slice. -/
def pixelsOf (r : Except Err (SliceRes Flt EpochRow)) : Option (List Flt) :=
  match r with
  | .ok r => r.pix.map SlicePix.image
  | .error _ => none

theorem exNoisy_pixels :
    (pixelsOf (coaddSingleSlice (freshEnv exNoisyWorld exNoisyTile) 3 8)).isSome = true ∧
    pixelsOf (coaddSingleSlice (freshEnv exNoisyWorld { exNoisyTile with entries := exNoisyTile.entries.reverse }) 3 8) ≠
      pixelsOf (coaddSingleSlice (freshEnv exNoisyWorld exNoisyTile) 3 8) ∧
    pixelsOf (coaddSingleSlice (freshEnv exNoisyWorld exNoisyTile) 3 9) ≠
      pixelsOf (coaddSingleSlice (freshEnv exNoisyWorld exNoisyTile) 3 8) := by
  refine ⟨?_, ?_, ?_⟩ <;> decide +kernel

/-- C123: without the hypothesis, both the order and the seed change pixels: the noise that is filled in depends on the
images before. -/
theorem C123_noise_matters : ∃ r r1 r2,
    coaddSingleSlice (freshEnv exNoisyWorld exNoisyTile) 3 8 = .ok r ∧
    coaddSingleSlice (freshEnv exNoisyWorld { exNoisyTile with entries := exNoisyTile.entries.reverse }) 3 8 = .ok r1 ∧
    coaddSingleSlice (freshEnv exNoisyWorld exNoisyTile) 3 9 = .ok r2 ∧ r1.pix ≠ r.pix ∧ r2.pix ≠ r.pix := by
  obtain ⟨h1, h2, h3⟩ := exNoisy_pixels
  have hs : (pixelsOf (coaddSingleSlice (freshEnv exNoisyWorld
        { exNoisyTile with entries := exNoisyTile.entries.reverse }) 3 8)).isSome = true ∧
      (pixelsOf (coaddSingleSlice (freshEnv exNoisyWorld exNoisyTile) 3 9)).isSome = true := by
    constructor <;> decide +kernel
  have ok : ∀ x : Except Err (SliceRes Flt EpochRow), (pixelsOf x).isSome = true →
      ∃ r, x = .ok r ∧ pixelsOf x = r.pix.map SlicePix.image := by
    intro x hx
    cases x with
    | error e => cases hx
    | ok r => exact ⟨r, rfl, rfl⟩
  obtain ⟨r, a1, a2⟩ := ok _ h1
  obtain ⟨r1, b1, b2⟩ := ok _ hs.1
  obtain ⟨r2, c1, c2⟩ := ok _ hs.2
  refine ⟨r, r1, r2, a1, b1, c1, fun h => h2 ?_, fun h => h3 ?_⟩
  · rw [a2, b2, h]
  · rw [a2, c2, h]

end Pizza
