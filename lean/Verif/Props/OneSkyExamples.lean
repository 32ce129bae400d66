import Verif.Props.OneSky
import Verif.Props.ProcessExamples

/-!
Cases that meet the hypotheses of C122.
-/

namespace Pizza

/-- SE images of 24 x 24 pixels with a slope; two pixels of image `a` are flagged. -/
def exSkyWorld : ProcWorld Unit Nat Unit Unit :=
  { exProcWorld with
    disk := { exProcWorld.disk with
      imageWcs := fun p _ => if p = ['a'] then .ok (exProcShift 10) else
        if p = ['b'] then .ok (exProcShift 9) else .error .ioError
      header := fun _ _ => .ok fun k => if k = "naxis1" ∨ k = "naxis2" then some 24 else none }
    files := fun k =>
      if k.2 = ['m'] then .ok (.bits ⟨24, 24, fun r c => if r = c ∧ (r = 6 ∨ r = 16) then 2 else 0⟩) else
      if k.2 = ['w'] then .ok (.num ⟨24, 24, fun _ _ => if k.1 = ['a'] then 1 else 2⟩) else
      if k.2 = ['s'] then .ok (.num ⟨24, 24, fun r c => r * c⟩) else .ok (.num ⟨24, 24, fun _ _ => 1⟩)
    arrays := fun _ => .bits ⟨24, 24, fun _ _ => 0⟩ }

/-- A tile with four slices of 3 x 3 pixels that overlap. -/
def exSkyTile : Tile Unit Unit Unit :=
  { exBumps with tapeBumps := false, seDelta := 24, cfg := { exCfg with fracBuffer := 4 } }

/-- One slice of 4 x 4 pixels. -/
def exBigObjects : List ObjRow :=
  match buildObjectData 2 1 4 3 (fun x y => (x, y)) (fun _ _ => (1, 0, 0, 1)) 0 with
  | .ok l => l
  | .error _ => []

theorem exBigObjects_eq : buildObjectData 2 1 4 3 (fun x y => (x, y)) (fun _ _ => (1, 0, 0, 1)) 0 =
    .ok exBigObjects := by
  have h : exBigObjects.length = 1 := by decide +kernel
  unfold exBigObjects at h ⊢
  split at h
  · rename_i l hl; rw [hl]
  · cases h

/-- The same part of the sky with one larger slice, other flags and another margin. -/
def exBigTile : Tile Unit Unit Unit :=
  { exSkyTile with objects := exBigObjects, cfg := { exCfg with fracBuffer := 3, noiseFlags := 8 } }

theorem exSky_sound (objs : List ObjRow) (box : Nat) (hb : 1 ≤ box) (cfg : BuildCfg Unit) (hf : 1 ≤ cfg.fracBuffer)
    (ho : ∀ row ∈ objs, row.boxSize = box ∧ row.psfBoxSize = ((3 : Nat) : ℤ)) :
    SoundEnv (freshEnv exSkyWorld { exSkyTile with objects := objs, cfg := cfg }) box 3 := by
  refine C113_sound exSkyWorld { exSkyTile with objects := objs, cfg := cfg } box 3 hb rfl ho hf ?_
    (fun _ _ => ⟨rfl, rfl⟩) ?_ ?_ ?_
  · intro e he con hc
    have : con.shape = (24, 24) := by
      rcases exBumps_entries he with rfl | rfl <;> (cases hc; rfl)
    rw [this]
    rcases exBumps_entries he with rfl | rfl <;> refine ⟨?_, ?_, ?_⟩ <;> intro a ha <;> cases ha <;> rfl
  · intro e he
    rcases exBumps_entries he with rfl | rfl <;> rfl
  · exact exTile_sound.keeps
  · exact exTile_sound.fwhm

/-- A check of `Undefected`. -/
def exUndefected (w : ProcWorld Unit Nat Unit Unit) (t : Tile Unit Unit Unit) (flags : BitVec 32) (u v : ℚ)
    (e : Entry Unit) (er : EpochRow) : Bool :=
  match (seInit w.disk e.src e.offset t.wcs t.psf).out with
  | .error _ => false
  | .ok con =>
    match buildLookups w.fit w.spl ⟨⟨con.wcs.fwd, con.wcs.inv, e.offset⟩, con.wcs.isCelestial, con.shape.1,
        con.shape.2, t.fwd, t.inv, t.celestial, t.offset, t.shape.1, t.shape.2, w.cosd⟩ t.seDelta t.coaddDelta,
      w.original e.weight, freshMask w t e with
    | .ok lk, .ok wt, .ok bm =>
      match lk.toSe u v with
      | none => false
      | some (x, y) => (List.range 6).all fun i => (List.range 6).all fun j =>
        decide (0 ≤ ⌊y⌋ - 2 + (i : ℤ) ∧ 0 ≤ ⌊x⌋ - 2 + (j : ℤ) ∧
          er.rowStart ≤ ⌊y⌋ - 2 + (i : ℤ) ∧ ⌊y⌋ - 2 + (i : ℤ) < er.rowStart + er.boxSize ∧
          er.colStart ≤ ⌊x⌋ - 2 + (j : ℤ) ∧ ⌊x⌋ - 2 + (j : ℤ) < er.colStart + er.boxSize ∧
          0 < wt.asNum.px (⌊y⌋ - 2 + (i : ℤ)).toNat (⌊x⌋ - 2 + (j : ℤ)).toNat ∧
          bm.px (⌊y⌋ - 2 + (i : ℤ)).toNat (⌊x⌋ - 2 + (j : ℤ)).toNat &&& flags = 0)
    | _, _, _ => false

theorem exUndefected_sound {w : ProcWorld Unit Nat Unit Unit} {t : Tile Unit Unit Unit} {flags : BitVec 32} {u v : ℚ}
    {e : Entry Unit} {er : EpochRow} (h : exUndefected w t flags u v e er = true) :
    Undefected w t flags u v e er := by
  unfold exUndefected at h
  split at h
  · cases h
  · rename_i con hc
    split at h
    · rename_i lk wt bm h1 h2 h3
      split at h
      · cases h
      · rename_i x y hxy
        refine ⟨lk, _, _, wt, bm, x, y, ⟨con, hc, rfl, rfl, h1⟩, h2, h3, hxy, fun i j i1 i2 j1 j2 => ?_⟩
        have bound : ∀ (y : ℚ) (i : ℤ), y - 3 < i → i ≤ y + 3 → ∃ k < 6, i = ⌊y⌋ - 2 + ((k : ℕ) : ℤ) := by
          intro y i h1 h2
          have a1 : i ≤ ⌊y + 3⌋ := Int.le_floor.2 h2
          have a2 : ⌊y - 3⌋ < i := Int.floor_lt.2 h1
          have a3 : ⌊y + 3⌋ = ⌊y⌋ + 3 := by exact_mod_cast Int.floor_add_intCast y 3
          have a4 : ⌊y - 3⌋ = ⌊y⌋ - 3 := by exact_mod_cast Int.floor_sub_intCast y 3
          exact ⟨(i - (⌊y⌋ - 2)).toNat, by omega, by omega⟩
        obtain ⟨k, k1, rfl⟩ := bound y i i1 i2
        obtain ⟨l, l1, rfl⟩ := bound x j j1 j2
        have := List.all_eq_true.1 (List.all_eq_true.1 h k (List.mem_range.2 k1)) l (List.mem_range.2 l1)
        obtain ⟨b1, b2, b3, b4, b5, b6, b7, b8⟩ := of_decide_eq_true this
        refine ⟨(⌊y⌋ - 2 + (k : ℤ)).toNat, (⌊x⌋ - 2 + (l : ℤ)).toNat, by omega, by omega, b3, b4, b5, b6, b7, ?_⟩
        rintro ⟨q, _, q1, q2⟩
        have := congrArg (BitVec.getLsbD · q) b8
        simp [q1, q2] at this
    · cases h

/-- What the check says for the used rows of a slice and the two SE images. -/
def exSkyCheck (t : Tile Unit Unit Unit) (u v : ℚ) (r : Except Err (SliceRes Flt EpochRow)) :
    Option (List ℚ × List ℤ × Bool) :=
  match r with
  | .ok r => some ((usedRows r).map EpochRow.weight, (usedRows r).map EpochRow.imageId,
      t.entries.all fun e => (usedRows r).all fun er => decide (er.imageId ≠ e.imageId) ||
        exUndefected exSkyWorld t (t.cfg.splineFlags ||| t.cfg.noiseFlags) u v e er)
  | .error _ => none

theorem exSkyCheck_ok {t : Tile Unit Unit Unit} {u v : ℚ} {r : Except Err (SliceRes Flt EpochRow)} {ws : List ℚ}
    {ids : List ℤ} (h : exSkyCheck t u v r = some (ws, ids, true)) :
    ∃ q, r = .ok q ∧ (usedRows q).map EpochRow.weight = ws ∧ (usedRows q).map EpochRow.imageId = ids ∧
      ∀ e ∈ t.entries, ∀ er ∈ usedRows q, er.imageId = e.imageId →
        Undefected exSkyWorld t (t.cfg.splineFlags ||| t.cfg.noiseFlags) u v e er := by
  unfold exSkyCheck at h
  split at h
  · rename_i q
    simp only [Option.some.injEq, Prod.mk.injEq, List.all_eq_true] at h
    obtain ⟨h1, h2, h3⟩ := h
    refine ⟨q, rfl, h1, h2, fun e he er her hid => exUndefected_sound ?_⟩
    have := h3 e he er her
    simpa [hid] using this
  · cases h

theorem exSky_checks :
    exSkyCheck exSkyTile 1 1 (coaddSingleSlice (freshEnv exSkyWorld exSkyTile) 0 7) =
      some ([1 / 3, 2 / 3], [0, 1], true) ∧
    exSkyCheck exSkyTile 1 1 (coaddSingleSlice (freshEnv exSkyWorld exSkyTile) 3 8) =
      some ([1 / 3, 2 / 3], [0, 1], true) ∧
    exSkyCheck exBigTile 1 1 (coaddSingleSlice (freshEnv exSkyWorld exBigTile) 0 9) =
      some ([1 / 3, 2 / 3], [0, 1], true) := by
  refine ⟨?_, ?_, ?_⟩ <;> decide +kernel

/-- The places of the slices. -/
theorem exSky_rows : (exSkyTile.objects[3]?).map (fun r => (r.origStartRow, r.origStartCol)) = some (1, 1) ∧
    (exBigTile.objects[0]?).map (fun r => (r.origStartRow, r.origStartCol)) = some (0, 0) := by decide +kernel

/-- C122_sky, C122_overlap: the pixel `(0, 0)` of the fourth slice of one tile and the pixel `(1, 1)` of the larger
slice of the other tile, with two used images one of which has flagged pixels in both of its windows. -/
example : ∃ r r' row row', SameGrid exSkyTile exBigTile ∧ (exSkyTile.entries.map (·.imageId)).Nodup ∧
    SoundEnv (freshEnv exSkyWorld exSkyTile) 3 3 ∧ SoundEnv (freshEnv exSkyWorld exBigTile) 4 3 ∧
    (exSkyTile.cfg.rejectOutliers = false ∧ exBigTile.cfg.rejectOutliers = false) ∧
    (exSkyTile.cfg.symmetrize = .off ∧ exBigTile.cfg.symmetrize = .off) ∧
    (∀ e ∈ exSkyTile.entries, exSkyWorld.zpScale e.magzp ≠ 0) ∧
    coaddSingleSlice (freshEnv exSkyWorld exSkyTile) 3 8 = .ok r ∧
    coaddSingleSlice (freshEnv exSkyWorld exBigTile) 0 9 = .ok r' ∧
    (usedRows r').map (·.imageId) = (usedRows r).map (·.imageId) ∧
    (usedRows r').map EpochRow.weight = (usedRows r).map EpochRow.weight ∧
    exSkyTile.objects[3]? = some row ∧ exBigTile.objects[0]? = some row' ∧
    (1 : ℚ) = ((0 : Nat) : ℚ) + row.origStartCol ∧ (1 : ℚ) = ((0 : Nat) : ℚ) + row.origStartRow ∧
    (1 : ℚ) = ((1 : Nat) : ℚ) + row'.origStartCol ∧ (1 : ℚ) = ((1 : Nat) : ℚ) + row'.origStartRow ∧
    ∀ e ∈ exSkyTile.entries,
      (∀ er ∈ usedRows r, er.imageId = e.imageId → Undefected exSkyWorld exSkyTile
        (exSkyTile.cfg.splineFlags ||| exSkyTile.cfg.noiseFlags) 1 1 e er) ∧
      ∀ er ∈ usedRows r', er.imageId = e.imageId → Undefected exSkyWorld exBigTile
        (exBigTile.cfg.splineFlags ||| exBigTile.cfg.noiseFlags) 1 1 e er := by
  obtain ⟨r, h1, h2, h3, h4⟩ := exSkyCheck_ok exSky_checks.2.1
  obtain ⟨r', h1', h2', h3', h4'⟩ := exSkyCheck_ok exSky_checks.2.2
  obtain ⟨row, r1, r2⟩ := Option.map_eq_some_iff.1 exSky_rows.1
  obtain ⟨row', r1', r2'⟩ := Option.map_eq_some_iff.1 exSky_rows.2
  obtain ⟨p1, p2⟩ := Prod.mk.inj r2
  obtain ⟨p1', p2'⟩ := Prod.mk.inj r2'
  refine ⟨r, r', row, row', ⟨rfl, rfl, rfl, rfl, rfl, rfl, rfl, rfl, rfl, rfl⟩, by decide,
    exSky_sound exObjects 3 (by norm_num) { exCfg with fracBuffer := 4 } (by show (1 : ℚ) ≤ 4; norm_num)
      (C93_boxes 1 1 4 3 3 _ _ 0 _ (by norm_num) exObjects_eq),
    exSky_sound exBigObjects 4 (by norm_num) { exCfg with fracBuffer := 3, noiseFlags := 8 }
      (by show (1 : ℚ) ≤ 3; norm_num)
      (C93_boxes 2 1 4 4 3 _ _ 0 _ (by norm_num) exBigObjects_eq),
    ⟨rfl, rfl⟩, ⟨rfl, rfl⟩, ?_, h1, h1', by rw [h3, h3'], by rw [h2, h2'], r1, r1', ?_, ?_, ?_, ?_, fun e he =>
      ⟨h4 e he, h4' e he⟩⟩
  · intro e he
    rcases exBumps_entries he with rfl | rfl <;> (show (2 : ℚ) ≠ 0; norm_num)
  all_goals simp [p1, p2, p1', p2']

/-- C122_single: image `b` alone. -/
example : ∃ r er, coaddSingleSlice (freshEnv exSkyWorld { exSkyTile with entries := exSkyTile.entries.drop 1 }) 3 8 =
    .ok r ∧ usedRows r = [er] := by
  have h : (match coaddSingleSlice (freshEnv exSkyWorld { exSkyTile with entries := exSkyTile.entries.drop 1 }) 3 8 with
    | .ok r => (usedRows r).length | .error _ => 0) = 1 := by decide +kernel
  split at h
  · rename_i r hr
    obtain ⟨er, her⟩ := List.length_eq_one_iff.1 h
    exact ⟨r, er, hr, her⟩
  · cases h

end Pizza
