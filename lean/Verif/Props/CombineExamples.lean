import Verif.Props.Combine
import Verif.Props.OrderExamples

/-!
Cases that meet the hypotheses of C124.
-/

namespace Pizza

/-- The tile with one of its SE images. -/
def exSkyPart (k : Nat) : Tile Unit Unit Unit := { exSkyTile with entries := (exSkyTile.entries.drop k).take 1 }

theorem exSky_parts :
    (pixelsOf (coaddSingleSlice (freshEnv exSkyWorld exSkyTile) 3 8)).isSome = true ∧
    (pixelsOf (coaddSingleSlice (freshEnv exSkyWorld (exSkyPart 0)) 3 5)).isSome = true ∧
    (pixelsOf (coaddSingleSlice (freshEnv exSkyWorld (exSkyPart 1)) 3 6)).isSome = true ∧
    pixelsOf (coaddSingleSlice (freshEnv exSkyWorld (exSkyPart 0)) 3 5) ≠
      pixelsOf (coaddSingleSlice (freshEnv exSkyWorld (exSkyPart 1)) 3 6) := by
  refine ⟨?_, ?_, ?_, ?_⟩ <;> decide +kernel

theorem exSky_unflagged : ∀ e ∈ exSkyTile.entries, ∀ bm, freshMask exSkyWorld exSkyTile e = .ok bm →
    Unflagged exSkyTile.cfg.noiseFlags bm := by
  intro e he bm hb r _ c _ hc
  rcases exBumps_entries he with rfl | rfl <;> cases hb <;> obtain ⟨k, k1, k2, k3⟩ := hc
  · have : k = 0 := exOne k k1 k3
    subst this
    revert k2
    show (if r = c ∧ (r = 6 ∨ r = 16) then (2 : BitVec 32) else 0).getLsbD 0 = true → False
    split <;> decide
  · revert k2
    show (0 : BitVec 32).getLsbD k = true → False
    simp

theorem pixelsOf_some {x : Except Err (SliceRes Flt EpochRow)} (h : (pixelsOf x).isSome = true) :
    ∃ r p, x = .ok r ∧ r.pix = some p ∧ pixelsOf x = some p.image := by
  cases x with
  | error e => cases h
  | ok r =>
    cases hp : r.pix with
    | none =>
      have h : (r.pix.map SlicePix.image).isSome = true := h
      rw [hp] at h
      cases h
    | some p =>
      refine ⟨r, p, rfl, hp, ?_⟩
      show r.pix.map SlicePix.image = _
      rw [hp]
      rfl

/-- C124_tile, C124_slice, C124_parts: two SE images of other weights and other masks, and the coadds of each alone,
which differ. -/
example : ∃ r r1 r2 p1 p2, SoundEnv (freshEnv exSkyWorld exSkyTile) 3 3 ∧ exSkyTile.cfg.rejectOutliers = false ∧
    (∀ e ∈ exSkyTile.entries, ∀ bm, freshMask exSkyWorld exSkyTile e = .ok bm →
      Unflagged exSkyTile.cfg.noiseFlags bm) ∧
    exSkyTile.entries.Perm ((exSkyPart 0).entries ++ (exSkyPart 1).entries) ∧
    coaddSingleSlice (freshEnv exSkyWorld exSkyTile) 3 8 = .ok r ∧
    coaddSingleSlice (freshEnv exSkyWorld (exSkyPart 0)) 3 5 = .ok r1 ∧
    coaddSingleSlice (freshEnv exSkyWorld (exSkyPart 1)) 3 6 = .ok r2 ∧
    r1.pix = some p1 ∧ r2.pix = some p2 ∧ p1.image ≠ p2.image := by
  obtain ⟨h0, h1, h2, h3⟩ := exSky_parts
  obtain ⟨r, p, a1, -, -⟩ := pixelsOf_some h0
  obtain ⟨r1, p1, b1, b2, b3⟩ := pixelsOf_some h1
  obtain ⟨r2, p2, c1, c2, c3⟩ := pixelsOf_some h2
  refine ⟨r, r1, r2, p1, p2, exSky_sound exObjects 3 (by norm_num) { exCfg with fracBuffer := 4 }
    (by show (1 : ℚ) ≤ 4; norm_num) (C93_boxes 1 1 4 3 3 _ _ 0 _ (by norm_num) exObjects_eq), rfl, exSky_unflagged,
    List.Perm.refl _, a1, b1, c1, b2, c2, fun h => h3 ?_⟩
  rw [b3, c3, h]

end Pizza
