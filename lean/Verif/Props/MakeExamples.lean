import Verif.Props.Make
import Verif.Props.SliceExamples
import Verif.Props.FilesExamples

/-!
Cases that meet the hypotheses of C110 and C111.
-/

namespace Pizza

/-- A request for slices of the tile of four slices, in one process. -/
def exMake (shape : Option (Nat × Nat)) (range : RangeSpec) : MakeIn Unit Nat Unit Nat Nat where
  environ := fun k => if k = "MEDS_DIR" then some "/meds".toList else none
  versions := ⟨['1'], ['2'], ['3'], ['4'], ['5'], ['6'], ['7'], ['8'], ['9'], ['a'], ['b']⟩
  config := "x: 1".toList
  json := "{}".toList
  io := exWcsIO
  f4 := id
  coaddNums := ⟨0, 0, 30, 1, 1⟩
  coaddWcs := some 3
  srcs := [exInfoSrc 1 "sci"]
  imageShape := shape
  header := .ok fun k => if k = "naxis1" then some 4 else none
  central := 1
  buffer := 1
  psfBox := 3
  jac := fun _ _ => (1, 0, 0, 1)
  slice := exTile
  sourcesOf := fun _ => exTile.sources
  rows0 := fun n => List.replicate n ⟨0, 0, 0, 0, 0, 0⟩
  range := range
  dist := fun x y => (x + y).toNat
  argsort := exArgsort
  rand := ⟨fun _ _ s => (7, s)⟩
  randState := 0
  ops := exFltOps
  pars := none
  nJobs := 1
  nChunks := none
  digest := 12340000

theorem exMake_sound (shape : Option (Nat × Nat)) (range : RangeSpec) : SoundMake (exMake shape range) 3 3 where
  env := fun _ => ⟨exTile_sound.boxPos, exTile_sound.psfOdd, fun _ h => (by cases h), exTile_sound.frac,
    exTile_sound.shape, exTile_sound.noises, exTile_sound.psf, exTile_sound.keeps, exTile_sound.fwhm⟩
  boxSize := rfl
  psfBoxSize := rfl
  ops := fun _ h => h
  argsort := exArgsort_spec
  rows0 := fun n => List.length_replicate

/-- The tables are made, with and without `image_shape`. -/
theorem exMake_prepare (shape : Option (Nat × Nat)) (range : RangeSpec) (h : shape = some (4, 4) ∨ shape = none) :
    ∃ p, prepare (exMake shape range) = .ok p ∧ p.objects = exObjects := by
  have hii : ∃ ii, buildImageInfo exWcsIO id ⟨0, 0, 30, 1, 1⟩ (some 3) [exInfoSrc 1 "sci"] = .ok ii := by
    have : ((buildImageInfo exWcsIO id ⟨0, 0, 30, 1, 1⟩ (some 3) [exInfoSrc 1 "sci"]).toOption.map
      List.length) = some 2 := by decide +kernel
    cases hb : buildImageInfo exWcsIO id ⟨0, 0, 30, 1, 1⟩ (some 3) [exInfoSrc 1 "sci"] with
    | ok ii => exact ⟨ii, rfl⟩
    | error e => rw [hb] at this; cases this
  obtain ⟨ii, hii⟩ := hii
  have hmd : ∃ md, buildMetadata (exMake shape range).environ (exMake shape range).versions
      (exMake shape range).config (exMake shape range).json = .ok md := ⟨_, rfl⟩
  obtain ⟨md, hmd⟩ := hmd
  have hw : imageWidth (exMake shape range) = .ok 4 := by rcases h with rfl | rfl <;> rfl
  refine ⟨⟨md.1, md.2, ii, exObjects⟩, ?_, rfl⟩
  unfold prepare
  rw [hmd, ok_bind]
  rw [show buildImageInfo (exMake shape range).io (exMake shape range).f4 (exMake shape range).coaddNums
    (exMake shape range).coaddWcs (exMake shape range).srcs = .ok ii from hii, ok_bind, hw, ok_bind]
  rw [show buildObjectData (exMake shape range).central (exMake shape range).buffer 4 (exMake shape range).psfBox
    (exMake shape range).slice.fwd (exMake shape range).jac (exMake shape range).slice.offset = .ok exObjects
    from exObjects_eq]
  rfl

theorem exMake_seeds (shape : Option (Nat × Nat)) (range : RangeSpec) (i : Nat) (hi : i < 4) :
    (seedsFor (exMake shape range) exObjects).slices.getD i 0 = 7 := by
  have h : exObjects.length = 4 := by decide +kernel
  unfold seedsFor
  rw [h]
  interval_cases i <;> rfl

/-- C110, C111: slices 1 and 2 are processed. -/
theorem exMake_processed : ∃ p ss, prepare (exMake (some (4, 4)) (.str "1:3".toList)) = .ok p ∧
    FitsBody (exMake (some (4, 4)) (.str "1:3".toList)) p ss none := by
  obtain ⟨p, hp, ho⟩ := exMake_prepare (some (4, 4)) (.str "1:3".toList) (.inl rfl)
  have hn : exObjects.length = 4 := by decide +kernel
  have hreq : extractSliceRange (.str "1:3".toList) 4 = .ok [1, 2] := by
    have := C57_string 4 1 3
    rw [if_pos (by norm_num)] at this
    exact this
  obtain ⟨⟨ss, h⟩, _⟩ := C111_processed_partial (exMake (some (4, 4)) (.str "1:3".toList)) 3 3 (exMake_sound _ _) p hp
    [1, 2] (by rw [ho, hn]; exact hreq) (by rw [ho, hn]; simp)
    (by
      intro i hi
      rw [ho]
      simp only [List.mem_cons, List.not_mem_nil, or_false] at hi
      rcases hi with rfl | rfl
      · obtain ⟨r, hr⟩ := exTile_ok 1 (by norm_num)
        exact ⟨r, (sliceGives_iff (i := 1) (by rw [hn]; norm_num)).2
          (by rw [exMake_seeds _ _ _ (by norm_num)]; exact hr)⟩
      · obtain ⟨r, hr⟩ := exTile_ok 2 (by norm_num)
        exact ⟨r, (sliceGives_iff (i := 2) (by rw [hn]; norm_num)).2
          (by rw [exMake_seeds _ _ _ (by norm_num)]; exact hr)⟩)
    (fun e h => by cases h) (fun h => by cases h.not_ge (le_refl _)) (by simp) (4, 4) rfl (by norm_num) (by norm_num)
  exact ⟨p, ss, hp, h⟩

/-- C110: the extensions of the file of slices 1 and 2. -/
example : ∃ p ss, prepare (exMake (some (4, 4)) (.str "1:3".toList)) = .ok p ∧
    FitsBody (exMake (some (4, 4)) (.str "1:3".toList)) p ss none ∧ ss.map Section.name =
      ["image_cutouts", "weight_cutouts", "seg_cutouts", "bmask_cutouts", "ormask_cutouts", "noise_cutouts",
        "mfrac_cutouts", "psf", "object_data", "epochs_info", "metadata", "tile_info", "image_info"] := by
  obtain ⟨p, ss, hp, h⟩ := exMake_processed
  obtain ⟨_, _, _, _, _, _, _, _, _, _, _, _, _, hs, _⟩ := C110_file _ 3 3 (exMake_sound _ _) p hp ss h
  exact ⟨p, ss, hp, h, hs⟩

/-- The tile with a catalog that cannot be read. -/
def exNoCat : MakeIn Unit Nat Unit Nat Nat :=
  { exMake (some (4, 4)) (.str "1:3".toList) with
    slice := { exTile with gaiaFile := some (.error .ioError), gaiaCfg := some ⟨18, [], ()⟩ } }

/-- C110: a catalog that cannot be read: slice 2 fails, so that the block raises. -/
example : SoundMake exNoCat 3 3 ∧ SliceGives exNoCat exObjects 2 (.error .ioError) := by
  refine ⟨⟨fun _ => ⟨exTile_sound.boxPos, exTile_sound.psfOdd, fun _ h => (by cases h), exTile_sound.frac,
    exTile_sound.shape, exTile_sound.noises, exTile_sound.psf, exTile_sound.keeps, exTile_sound.fwhm⟩,
    rfl, rfl, fun _ h => h, exArgsort_spec, fun n => List.length_replicate⟩, ?_⟩
  have hn : exObjects.length = 4 := by decide +kernel
  refine (sliceGives_iff (i := 2) (by rw [hn]; norm_num)).2 ?_
  have hs : SoundEnv (sliceEnvFor exNoCat exObjects) 3 3 :=
    ⟨exTile_sound.boxPos, exTile_sound.psfOdd, exTile_sound.rows, exTile_sound.frac, exTile_sound.shape,
      exTile_sound.noises, exTile_sound.psf, exTile_sound.keeps, exTile_sound.fwhm⟩
  obtain ⟨lay, _, h⟩ := C94_errors (sliceEnvFor exNoCat exObjects) 3 3 hs (fun _ => ⟨1, rfl⟩) 2
    ((seedsFor exNoCat exObjects).slices.getD 2 0) exObjects[2] (List.getElem?_eq_getElem _)
  exact (h .ioError).2 (.inl ⟨rfl, rfl⟩)

/-- C110: with staging, the packed file is at the output path. -/
example : ∃ act, MakeRun (exMake (some (4, 4)) (.str "1:3".toList)) ⟨fun _ => "fits", fun _ _ => ⟨true, some "packed"⟩⟩
    (exEnv true) (["out"] ++ ["x.fits"]) (some ["tmp"]) true (fun _ => true) act ∧
    (act (exFS (some "old") none)).out = .ok () ∧
    (act (exFS (some "old") none)).fs.files ["out", "x.fits.fz"] = some "packed" := by
  obtain ⟨p, ss, hp, h⟩ := exMake_processed
  have hrun := MakeRun.run (st := ⟨fun _ => "fits", fun _ _ => ⟨true, some "packed"⟩⟩) (env := exEnv true)
    (meds := ["out"] ++ ["x.fits"]) (tmpdir := some ["tmp"]) (removeFits := true) (valid := fun _ => true) p ss none hp h
  have hout : (publishRun (exEnv true) (["out"] ++ ["x.fits"]) (some ["tmp"]) ⟨"fits", none⟩ ⟨true, some "packed"⟩ true
    (fun _ => true) (exFS (some "old") none)).out = .ok () := by decide +kernel
  obtain ⟨_, _, x, _, _, hx, _, hf⟩ := C110_published _ _ _ ["out"] "x.fits" _ _ _ _ hrun (exFS (some "old") none)
    (exFS_wf _ _) hout (.inl fun _ => rfl)
  cases hx
  exact ⟨_, hrun, hout, hf⟩

/-- `C111_shape_fails`: without `image_shape` the tables are made and every range is accepted, but the block raises
KeyError. -/
example : ∃ p, prepare (exMake none .none) = .ok p ∧ (∃ req, extractSliceRange .none p.objects.length = .ok req) ∧
    FitsBody (exMake none .none) p [] (some .keyError) := by
  obtain ⟨p, hp, ho⟩ := exMake_prepare none .none (.inr rfl)
  have hn : exObjects.length = 4 := by decide +kernel
  refine ⟨p, hp, ⟨_, C57_none _⟩, .select _ ?_⟩
  rw [ho]
  unfold selectSlices
  rw [hn]
  rfl

/-- `C111_empty_range_fails`: an empty range. -/
example : ∃ p, prepare (exMake (some (4, 4)) (.str "3:3".toList)) = .ok p ∧
    extractSliceRange (exMake (some (4, 4)) (.str "3:3".toList)).range p.objects.length = .ok [] := by
  obtain ⟨p, hp, ho⟩ := exMake_prepare (some (4, 4)) (.str "3:3".toList) (.inl rfl)
  have hn : exObjects.length = 4 := by decide +kernel
  refine ⟨p, hp, ?_⟩
  have := C57_string 4 3 3
  rw [if_pos (by norm_num)] at this
  rw [ho, hn]
  exact this

/-- `C110_outcome`: the block ends. -/
example : ∃ p, prepare (exMake (some (4, 4)) .none) = .ok p ∧ ∃ ss r, FitsBody (exMake (some (4, 4)) .none) p ss r := by
  obtain ⟨p, hp, -⟩ := exMake_prepare (some (4, 4)) .none (.inl rfl)
  exact ⟨p, hp, (C110_outcome _ 3 3 (exMake_sound _ _) p hp).1 fun h => by cases h.not_ge (le_refl _)⟩

/-- `C110_same`: slices 1 and 2 again, with three jobs. -/
example (p p' : Prepared) (hp : prepare (exMake (some (4, 4)) (.str "1:3".toList)) = .ok p)
    (hp' : prepare { exMake (some (4, 4)) (.str "1:3".toList) with nJobs := 3, nChunks := some 5 } = .ok p') (ss ss')
    (h : FitsBody (exMake (some (4, 4)) (.str "1:3".toList)) p ss none)
    (h' : FitsBody { exMake (some (4, 4)) (.str "1:3".toList) with nJobs := 3, nChunks := some 5 } p' ss' none) :=
  C110_same _ 3 3 (exMake_sound _ _) p p' 3 (some 5) hp hp' ss ss' h h'

/-- `C111_processed_partial` gives `exMake_processed`. -/
example := exMake_processed

end Pizza
