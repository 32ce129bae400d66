import Verif.Model.Basic
import Verif.Model.Numerals

/-!
Reserving and writing the cutout images, and `_process_results`
(pizza_cutter/des_pizza_cutter/_pizza_cutter.py:446-504, 686-746).

A FITS file is the list of its image extensions; an image is reserved with all pixels zero (what
cfitsio gives for an image without data).  Pixel values have an abstract type `V`; the conversion to
the type of the extension is a parameter.
-/

namespace Pizza

/-- The data types in use (_constants.py:33-42). -/
inductive DType where
  | f4
  | i4
  deriving DecidableEq

/-- Pixel values: zero, conversion to a data type, `v < 0`. -/
structure PixelOps (V : Type) where
  zero : V
  cast : DType → V → V
  isNeg : V → Bool

/-- An image extension. -/
structure Hdu (V : Type) where
  name : String
  dtype : DType
  dims : Nat
  header : Option (List (String × String))
  px : Nat → V

/-- Names of the cutout extensions (_constants.py:25-32). -/
def IMAGE_EXT : String := "image_cutouts"
/-- (_constants.py:26). -/
def WEIGHT_EXT : String := "weight_cutouts"
/-- (_constants.py:27). -/
def SEG_EXT : String := "seg_cutouts"
/-- (_constants.py:28). -/
def BMASK_EXT : String := "bmask_cutouts"
/-- (_constants.py:29). -/
def ORMASK_EXT : String := "ormask_cutouts"
/-- (_constants.py:30). -/
def NOISE_EXT : String := "noise_cutouts"
/-- (_constants.py:31). -/
def MFRAC_EXT : String := "mfrac_cutouts"
/-- (_constants.py:32). -/
def PSF_EXT : String := "psf"

/-- `"noise%d_cutouts" % n` (_pizza_cutter.py:481, 700). -/
def noiseExt (n : Nat) : String := String.ofList ("noise".toList ++ decimal n ++ "_cutouts".toList)

/-- `CUTOUT_DTYPES[name]` (_constants.py:33-42). -/
def cutoutDtype (name : String) : Except Err DType :=
  if name = IMAGE_EXT ∨ name = WEIGHT_EXT ∨ name = NOISE_EXT ∨ name = PSF_EXT ∨ name = MFRAC_EXT then
    .ok .f4
  else if name = SEG_EXT ∨ name = BMASK_EXT ∨ name = ORMASK_EXT then .ok .i4
  else .error .keyError

/-- `names` without the PSF and the extra noises (_pizza_cutter.py:690-698). -/
def baseNames : List String :=
  [IMAGE_EXT, WEIGHT_EXT, SEG_EXT, BMASK_EXT, ORMASK_EXT, NOISE_EXT, MFRAC_EXT]

/-- `extra_noise_names` (_pizza_cutter.py:699-702). -/
def extraNoiseNames (nExtra : Nat) : List String := (List.range nExtra).map fun i => noiseExt (i + 1)

/-- The header of an extension: the tile size is one cutout unless given (_pizza_cutter.py:718-721). -/
def fpackHeader (pars : Option (List (String × String))) (per : Nat) : Option (List (String × String)) :=
  pars.map fun l =>
    if (l.map Prod.fst).contains "FZTILE" then l
    else l ++ [("FZTILE", String.ofList (['('] ++ decimal per ++ ",1)".toList))]

/-- The loop body of `_reserve_images` (_pizza_cutter.py:712-732). -/
def reserveOne {V : Type} (ops : PixelOps V) (extra : List String) (pars : Option (List (String × String)))
    (fits : List (Hdu V)) (ext : String) (dims per : Nat) : Except Err (List (Hdu V)) := do
  let info := if ext ∈ extra then NOISE_EXT else ext
  let dt ← cutoutDtype info
  pure (fits ++ [⟨ext, dt, dims, fpackHeader pars per, fun _ => ops.zero⟩])

/-- The loop of `_reserve_images` (_pizza_cutter.py:707-732). -/
def reserveLoop {V : Type} (ops : PixelOps V) (extra : List String)
    (pars : Option (List (String × String))) :
    List (Hdu V) → List (String × Nat × Nat) → Except Err (List (Hdu V))
  | fits, [] => .ok fits
  | fits, (ext, dims, per) :: l => do
    let fits ← reserveOne ops extra pars fits ext dims per
    reserveLoop ops extra pars fits l

/-- `_reserve_images` (_pizza_cutter.py:686-732). -/
def reserveImages {V : Type} (ops : PixelOps V) (pars : Option (List (String × String)))
    (nPix nPixPsf nExtra per perPsf : Nat) : Except Err (List (Hdu V)) :=
  let names := baseNames ++ extraNoiseNames nExtra
  reserveLoop ops (extraNoiseNames nExtra) pars []
    (names.map (fun n => (n, nPix, per)) ++ [(PSF_EXT, nPixPsf, perPsf)])

/-- `fits[ext].write(subim, start=start_row)` (_pizza_cutter.py:746): the first extension of that name
gets the values in row-major order.  IOError without such an extension, and (here) for data beyond the
end. -/
def writeExt {V : Type} (ext : String) (data : List V) (start : Nat) :
    List (Hdu V) → Except Err (List (Hdu V))
  | [] => .error .ioError
  | h :: l =>
    if h.name = ext then
      if start + data.length ≤ h.dims then
        .ok ({ h with px := fun k => if start ≤ k then (data[k - start]?).getD (h.px k) else h.px k } :: l)
      else .error .ioError
    else do
      let l ← writeExt ext data start l
      pure (h :: l)

/-- `_write_single_image` (_pizza_cutter.py:735-746).  The array filled with defaults is overwritten
completely (line 741). -/
def writeSingleImage {V : Type} (ops : PixelOps V) (fits : List (Hdu V)) (data : List V) (ext : String)
    (start : Nat) (info : String) : Except Err (List (Hdu V)) := do
  let dt ← cutoutDtype info
  let sub := data.map (ops.cast dt)
  if (ext = MFRAC_EXT ∨ ext = WEIGHT_EXT) ∧ sub.any ops.isNeg = true then .error .runtimeError
  else writeExt ext sub start fits

/-- The pixel data of a slice (_pizza_cutter.py:405-412), flattened. -/
structure SlicePix (V : Type) where
  image : List V
  bmask : List V
  ormask : List V
  noises : List (List V)
  psf : List V
  weight : List V
  mfrac : List V
  psfSigma : ℚ

/-- The result of a slice (_pizza_cutter.py:296-414); the pixel entries exist only with used epochs. -/
structure SliceRes (V E : Type) where
  i : Nat
  epochs : List E
  weights : List ℚ
  pix : Option (SlicePix V)

/-- The entries of a row of `object_data` that change (_pizza_cutter.py:455-459, 497-504). -/
structure RunRow where
  ncutout : ℤ
  nepoch : ℤ
  nepochEff : ℚ
  psfSigma : ℚ
  startRow : ℤ
  psfStartRow : ℤ
  deriving DecidableEq

/-- What a run has written so far. -/
structure Out (V E : Type) where
  fits : List (Hdu V)
  rows : List RunRow
  epochs : List (List E)

/-- One call of `_write_single_image`. -/
structure Write (V : Type) where
  data : List V
  ext : String
  start : Nat
  info : String

/-- The calls of `_write_single_image` for a slice, in order (_pizza_cutter.py:462-495): IndexError
without noise. -/
def writesOf {V : Type} (p : SlicePix V) (start psfStart : Nat) : Except Err (List (Write V)) :=
  match p.noises with
  | [] => .error .indexError
  | n0 :: ns => .ok (
      [⟨p.image, IMAGE_EXT, start, IMAGE_EXT⟩, ⟨p.bmask, BMASK_EXT, start, BMASK_EXT⟩,
        ⟨p.ormask, ORMASK_EXT, start, ORMASK_EXT⟩, ⟨n0, NOISE_EXT, start, NOISE_EXT⟩] ++
      ns.mapIdx (fun k d => ⟨d, noiseExt (k + 1), start, NOISE_EXT⟩) ++
      [⟨p.weight, WEIGHT_EXT, start, WEIGHT_EXT⟩, ⟨p.mfrac, MFRAC_EXT, start, MFRAC_EXT⟩,
        ⟨p.psf, PSF_EXT, psfStart, PSF_EXT⟩])

/-- The calls made one after the other. -/
def writeAll {V : Type} (ops : PixelOps V) : List (Hdu V) → List (Write V) → Except Err (List (Hdu V))
  | fits, [] => .ok fits
  | fits, w :: l => do
    let fits ← writeSingleImage ops fits w.data w.ext w.start w.info
    writeAll ops fits l

/-- `weights.sum() / weights.max()` (_pizza_cutter.py:457-459) for a non-empty array; a maximum of 0
is not modelled (NaN in numpy). -/
def nepochEff (weights : List ℚ) : ℚ :=
  match weights with
  | [] => 0
  | w :: l => (w :: l).sum / l.foldl max w

/-- `results["image"]` and the other pixel entries: KeyError when missing (_pizza_cutter.py:462). -/
def pixEntries {V E : Type} (r : SliceRes V E) : Except Err (SlicePix V) :=
  match r.pix with
  | some p => .ok p
  | none => .error .keyError

/-- `_process_results` (_pizza_cutter.py:446-504), called with `start_row = i * npix`,
`psf_start_row = i * npix_psf` (lines 613-614, 639-640). -/
def processResults {V E : Type} (ops : PixelOps V) (npix npixPsf : Nat) (o : Out V E) (r : SliceRes V E) :
    Except Err (Out V E) :=
  if r.i < o.rows.length then
    if r.weights.length > 0 then do
      let p ← pixEntries r
      let ws ← writesOf p (r.i * npix) (r.i * npixPsf)
      let fits ← writeAll ops o.fits ws
      pure ⟨fits, o.rows.modify r.i (fun _ =>
        ⟨1, r.weights.length, nepochEff r.weights, p.psfSigma, (r.i * npix : Nat), (r.i * npixPsf : Nat)⟩),
        o.epochs ++ [r.epochs]⟩
    else pure ⟨o.fits, o.rows.modify r.i (fun a => { a with nepoch := 0, nepochEff := 0 }),
        o.epochs ++ [r.epochs]⟩
  else .error .indexError

end Pizza
