import Verif.Props.Turned
import Verif.Props.CalibratedExamples

/-! A case that meets the hypotheses of C158: pixels of one degree, a tile across right ascension 0 and the same tile at 100. -/

namespace Pizza

/-- The angle between 0 and 360. -/
def exAngle (r : ℚ) : ℚ := r - 360 * ⌊r / 360⌋

/-- The angle between -180 and 180. -/
def exSignedAngle (r : ℚ) : ℚ := r - 360 * ⌊(r + 180) / 360⌋

theorem exSignedAngle_periodic {a b : ℚ} (h : ∃ k : ℤ, b = a + 360 * k) : exSignedAngle b = exSignedAngle a := by
  obtain ⟨k, rfl⟩ := h
  unfold exSignedAngle
  rw [show (a + 360 * (k : ℚ) + 180) / 360 = (a + 180) / 360 + (k : ℤ) by ring, Int.floor_add_intCast]
  push_cast
  ring

/-- The WCS of an image with its origin `d` pixels outside of the tile. -/
def exTurnedWcs (δ d : ℚ) : WcsObj :=
  ⟨.esutil, fun x y => (exAngle (x - d + δ), y - d), fun ra dec => (exSignedAngle (ra - δ) + d, dec + d), fun _ _ => (1, 0, 0, 1)⟩

theorem exTurnedWcs_turned (d : ℚ) : TurnedWcs 100 (exTurnedWcs 0 d) (exTurnedWcs 100 d) where
  cls := rfl
  celestial := .inl rfl
  fwd := ⟨fun x y => ⟨⌊(x - d + 0) / 360⌋ - ⌊(x - d + 100) / 360⌋, by simp only [exTurnedWcs, exAngle]; push_cast; ring⟩, fun _ _ => rfl⟩
  notHalf := by
    intro x y
    refine ⟨fun ⟨k, hk⟩ => ?_, fun ⟨k, hk⟩ => ?_⟩
    · simp only [exTurnedWcs, exAngle] at hk
      have h : (178 : ℤ) = 360 * (⌊(x - 1 - d + 0) / 360⌋ - k - ⌊(x + 1 - d + 0) / 360⌋) := by
        have : (178 : ℚ) = 360 * (⌊(x - 1 - d + 0) / 360⌋ - k - ⌊(x + 1 - d + 0) / 360⌋) := by linarith
        exact_mod_cast this
      omega
    · simp only [exTurnedWcs] at hk
      have h : (0 : ℤ) = 180 + 360 * k := by
        have : (0 : ℚ) = 180 + 360 * k := by linarith
        exact_mod_cast this
      omega
  inv := by
    rintro ra _ dec ⟨k, rfl⟩
    simp only [exTurnedWcs]
    rw [exSignedAngle_periodic ⟨k, show ra + 100 + 360 * (k : ℚ) - 100 = ra - 0 + 360 * k by ring⟩]

/-- The files, turned by `δ`. -/
def exTurnedWorld (δ : ℚ) : ProcWorld Unit Nat Unit Unit :=
  { exProcWorld with
    disk :=
      { exProcWorld.disk with
        imageWcs := fun p _ => if p = ['a'] then .ok (exTurnedWcs δ 3) else if p = ['b'] then .ok (exTurnedWcs δ 2) else .error .ioError
        skyBounds := fun s f _ => roughSkyBoundsCel (fun ra dec ra0 dec0 => (exSignedAngle (ra - ra0), dec - dec0)) (fun _ => 1) s.1 s.2 2 f 0 1 }
    gaia := fun _ => .ok [⟨1 + δ, 2, some 18⟩]
    toUV := fun ra dec ra0 dec0 => (exSignedAngle (ra - ra0), dec - dec0) }

/-- The tile, turned by `δ`. -/
def exTurnedTile (δ : ℚ) : Tile Unit Unit Unit :=
  { exBumps with
    fwd := (exTurnedWcs δ 0).fwd
    inv := (exTurnedWcs δ 0).inv
    celestial := true
    objects := exObjects.map fun r => { r with ra := r.ra + δ } }

theorem exTurned_sky : TurnedSky 100 (exTurnedWorld 0) (exTurnedWorld 100) (exTurnedTile 0) (exTurnedTile 100) where
  world := rfl
  toUV := by
    rintro ra _ dec ra0 _ dec0 ⟨k, rfl⟩ ⟨l, rfl⟩
    show (exSignedAngle _, _) = (exSignedAngle _, _)
    rw [exSignedAngle_periodic ⟨k - l, show ra + 100 + 360 * (k : ℚ) - (ra0 + 100 + 360 * l) = ra - ra0 + 360 * ((k - l : ℤ) : ℚ) by push_cast; ring⟩]
  imageWcs := by
    intro p e
    show BothOk _ (if p = ['a'] then .ok (exTurnedWcs 0 3) else if p = ['b'] then .ok (exTurnedWcs 0 2) else .error .ioError)
      (if p = ['a'] then .ok (exTurnedWcs 100 3) else if p = ['b'] then .ok (exTurnedWcs 100 2) else .error .ioError)
    split
    · exact .ok _ _ (exTurnedWcs_turned 3)
    split
    · exact .ok _ _ (exTurnedWcs_turned 2)
    · exact .error _
  headWcs := fun _ _ _ => .error _
  piff := fun _ _ => .error _
  disk := rfl
  bounds := ⟨fun _ => 1, 2, 1, fun _ _ => rfl⟩
  psfSize := fun _ _ _ _ _ _ _ => rfl
  psfDraw := fun _ _ _ _ _ _ _ _ _ _ => rfl
  gaia := fun _ => .ok _ _ (.cons ⟨⟨0, by norm_num⟩, rfl, rfl⟩ .nil)
  tile := rfl
  request := .named _ (by decide)
  celestial := rfl
  fwd := (exTurnedWcs_turned 0).fwd
  notHalf := (exTurnedWcs_turned 0).notHalf
  inv := (exTurnedWcs_turned 0).inv
  objects := by
    show List.Forall₂ _ (exObjects.map _) (exObjects.map _)
    rw [List.forall₂_map_left_iff, List.forall₂_map_right_iff, List.forall₂_same]
    exact fun r _ => ⟨⟨0, by norm_num⟩, rfl⟩

/-- `C158_slice`: a slice with pixels, from SE images across right ascension 0. -/
example : coaddSingleSlice (freshEnv (exTurnedWorld 100) (exTurnedTile 100)) 0 7 = coaddSingleSlice (freshEnv (exTurnedWorld 0) (exTurnedTile 0)) 0 7 ∧
    (exFirstPixel (coaddSingleSlice (freshEnv (exTurnedWorld 0) (exTurnedTile 0)) 0 7)).any (fun p => p.2.length == 2) = true ∧
    ((exTurnedWcs 0 3).fwd 2 0).1 = 359 ∧ ((exTurnedWcs 0 3).fwd 4 0).1 = 1 :=
  ⟨C158_slice _ _ _ _ exTurned_sky 0 7, by decide +kernel, by decide +kernel, by decide +kernel⟩

/-- `C158_process`: a process can work on the tile. -/
example (δ : ℚ) : Orderly (exTurnedWorld δ) (· = exTurnedTile δ) where
  maskOnly := by
    rintro t e t' e' rfl he rfl he' -
    exact exProcWorld_orderly.maskOnly exBumps e exBumps e' rfl he rfl he' rfl
  sameMasking := by
    rintro t e t' e' rfl he rfl he' - hm
    exact exProcWorld_orderly.sameMasking exBumps e exBumps e' rfl he rfl he' rfl hm
  seHash := by
    rintro n t e n' t' e' rfl he rfl he' h
    rcases exBumps_entries he with rfl | rfl <;> rcases exBumps_entries he' with rfl | rfl
    · exact ⟨rfl, rfl⟩
    · simp [exTurnedWorld, exProcWorld, exTurnedTile, exBumps, exProcEntry] at h
    · simp [exTurnedWorld, exProcWorld, exTurnedTile, exBumps, exProcEntry] at h
    · exact ⟨rfl, rfl⟩
  coaddHash := by rintro t t' rfl rfl -; exact ⟨rfl, rfl, rfl⟩

/-- `C158_objects`, `C158_area` and `C158_jacobian`. -/
example : BothOk (List.Forall₂ (TurnedRow 100))
      (buildObjectData 1 1 4 3 (exTurnedWcs 0 0).fwd (fun x y => getJacobian (exTurnedWcs 0 0).fwd (fun _ => 1) x y 1) 0)
      (buildObjectData 1 1 4 3 (exTurnedWcs 100 0).fwd (fun x y => getJacobian (exTurnedWcs 100 0).fwd (fun _ => 1) x y 1) 0) ∧
    computeWcsArea true (exTurnedWcs 100 0).fwd (fun _ => 1) 0 0 1 = computeWcsArea true (exTurnedWcs 0 0).fwd (fun _ => 1) 0 0 1 :=
  ⟨C158_objects _ _ (exTurnedWcs_turned 0).fwd (exTurnedWcs_turned 0).notHalf _ _ _ _ _ _,
    C158_area _ _ (exTurnedWcs_turned 0).fwd (exTurnedWcs_turned 0).notHalf _ _ _⟩

end Pizza
