import Verif.Props.Looser
import Verif.Props.MoreMaskedExamples
import Verif.Props.BuildExamples

/-!
Cases that meet the hypotheses of C153 and of `C47_late`.
-/

namespace Pizza

/-- Stricter cuts than those of `exSkyTile`. -/
def exStrict (flags : BitVec 32) : BuildCfg Unit :=
  { exSkyTile.cfg with maxMaskedFraction := 1 / 4, edgeBuffer := 1, badImageFlags := flags }

theorem exStrict_looser : LooserCuts (exStrict 6) exSkyTile.cfg ∧ LooserCuts (exStrict 4) exSkyTile.cfg := by
  refine ⟨⟨rfl, ?_, ?_, ?_, id⟩, ⟨rfl, ?_, ?_, fun _ _ h => h, id⟩⟩
  · show (1 / 4 : ℚ) ≤ 1 / 2; norm_num
  · show (0 : ℤ) ≤ 1; norm_num
  · show ∀ k < 32, (4 : BitVec 32).getLsbD k = true → (6 : BitVec 32).getLsbD k = true; decide
  · show (1 / 4 : ℚ) ≤ 1 / 2; norm_num
  · show (0 : ℤ) ≤ 1; norm_num

/-- The SE images that a slice uses, with their weights. -/
def weightsIn (r : Except Err (SliceRes Flt EpochRow)) : Option (List (ℤ × ℚ)) :=
  match r with
  | .ok r => some (usedWeights r)
  | .error _ => none

theorem weightsIn_ok {x : Except Err (SliceRes Flt EpochRow)} {l : List (ℤ × ℚ)} (h : weightsIn x = some l) :
    ∃ r, x = .ok r ∧ usedWeights r = l := by
  cases x with
  | error e => cases h
  | ok r => exact ⟨r, rfl, Option.some.inj h⟩

theorem exStrict_used :
    weightsIn (coaddSingleSlice (freshEnv exSkyWorld { exSkyTile with cfg := exStrict 6 }) 3 8) = some [(1, 1)] ∧
    weightsIn (coaddSingleSlice (freshEnv exSkyWorld exSkyTile) 3 9) = some [(0, 1 / 3), (1, 2 / 3)] := by
  constructor <;> decide +kernel

theorem exStrict_same :
    weightsIn (coaddSingleSlice (freshEnv exSkyWorld { exSkyTile with cfg := exStrict 4 }) 3 8) =
      some [(0, 1 / 3), (1, 2 / 3)] := by
  decide +kernel

theorem exStrict_sound (f : BitVec 32) : SoundEnv (freshEnv exSkyWorld { exSkyTile with cfg := exStrict f }) 3 3 :=
  exSky_sound exObjects 3 (by norm_num) (exStrict f) (by show (1 : ℚ) ≤ 4; norm_num)
    (C93_boxes 1 1 4 3 3 _ _ 0 _ (by norm_num) exObjects_eq)

/-- C153_slice, C153_tile: with stricter cuts image 0, which has flagged pixels, is not used. -/
example : ∃ r r', SoundEnv (freshEnv exSkyWorld { exSkyTile with cfg := exStrict 6 }) 3 3 ∧
    (exStrict 6).rejectOutliers = false ∧ LooserCuts (exStrict 6) exSkyTile.cfg ∧
    coaddSingleSlice (freshEnv exSkyWorld { exSkyTile with cfg := exStrict 6 }) 3 8 = .ok r ∧
    coaddSingleSlice (freshEnv exSkyWorld exSkyTile) 3 9 = .ok r' ∧
    usedWeights r = [(1, 1)] ∧ usedWeights r' = [(0, 1 / 3), (1, 2 / 3)] := by
  obtain ⟨r, a1, a2⟩ := weightsIn_ok exStrict_used.1
  obtain ⟨r', b1, b2⟩ := weightsIn_ok exStrict_used.2
  exact ⟨r, r', exStrict_sound 6, rfl, exStrict_looser.1, a1, b1, a2, b2⟩

/-- C153_tile_pixels, C153_pixels: both images are used with both cuts. -/
example : ∃ r r', SoundEnv (freshEnv exSkyWorld { exSkyTile with cfg := exStrict 4 }) 3 3 ∧
    (exStrict 4).rejectOutliers = false ∧ LooserCuts (exStrict 4) exSkyTile.cfg ∧
    (∀ e ∈ exSkyTile.entries, ∀ bm, freshMask exSkyWorld { exSkyTile with cfg := exStrict 4 } e = .ok bm →
      Unflagged (exStrict 4).noiseFlags bm) ∧
    exSkyTile.cfg.copyEdges = (exStrict 4).copyEdges ∧
    coaddSingleSlice (freshEnv exSkyWorld { exSkyTile with cfg := exStrict 4 }) 3 8 = .ok r ∧
    coaddSingleSlice (freshEnv exSkyWorld exSkyTile) 3 9 = .ok r' ∧
    (usedWeights r').length = (usedWeights r).length ∧ (usedWeights r).length = 2 := by
  obtain ⟨r, a1, a2⟩ := weightsIn_ok exStrict_same
  obtain ⟨r', b1, b2⟩ := weightsIn_ok exStrict_used.2
  exact ⟨r, r', exStrict_sound 4, rfl, exStrict_looser.2, exSky_unflagged, rfl, a1, b1, by rw [a2, b2], by rw [a2]; rfl⟩

/-- A source of which only two corners of the window of five by five pixels are not flagged. -/
def exCorners : Src :=
  { exSrc 0 1 0 false with
    reads := { (exSrc 0 1 0 false).reads with bmask := .ok ⟨8, 8, fun r c => if r = c ∧ (r = 2 ∨ r = 6) then 0 else 2⟩ } }

theorem exCorners_run : exView (buildSliceInputs exExt { exCfg with boxSize := 5, maxMaskedFraction := 1 } [exCorners] 0) =
    some ⟨[], [], 1, [16]⟩ := by
  decide +kernel

/-- C47_late: an image with two pixels left to interpolate from passes the initial cuts, as any fraction below one may be masked, and
has flag 4. -/
example : ∃ (out : Inputs) (e : Epoch), Sane exExt { exCfg with boxSize := 5, maxMaskedFraction := 1 } [exCorners] ∧
    buildSliceInputs exExt { exCfg with boxSize := 5, maxMaskedFraction := 1 } [exCorners] 0 = .ok out ∧
    (e, (16 : BitVec 32)) ∈ out.notUsed.zip out.flags := by
  obtain ⟨out, h1, h2⟩ := exView_some exCorners_run
  have hf := congrArg ExView.flags h2
  have hu := congrArg ExView.notUsed h2
  simp only [exViewOf] at hf hu
  obtain ⟨e, l, he⟩ : ∃ e l, out.notUsed = e :: l := by
    cases h : out.notUsed with
    | nil => rw [h] at hu; cases hu
    | cons e l => exact ⟨e, l, rfl⟩
  refine ⟨out, e, ⟨by decide, le_refl _, ?_, exSrcs_sane.keeps⟩, h1, by rw [he, hf]; simp⟩
  intro s hs
  rw [List.mem_singleton] at hs
  subst hs
  refine ⟨?_, ?_, ?_, ?_⟩ <;> intro a ha <;> cases ha
  · exact ⟨rfl, rfl⟩
  · exact ⟨rfl, rfl⟩
  · exact ⟨rfl, rfl⟩
  · simp

end Pizza
