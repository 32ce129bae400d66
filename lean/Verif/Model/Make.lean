import Verif.Model.ImageInfo
import Verif.Model.Publish
import Verif.Model.Run
import Verif.Model.Schedule
import Verif.Model.Slice
import Verif.Model.SliceRange

/-!
`make_des_pizza_slices` and `_coadd_and_write_images` as a whole
(pizza_cutter/des_pizza_cutter/_pizza_cutter.py:78-238, 507-648), put together from the models of their parts.

Looking up entries of the configuration is not modelled, nor are keys of the description other than
`image_shape` (`image_path`, `image_ext`, `position_offset`, `tilename`, `band` and the WCS are taken to be
there).
-/

namespace Pizza

/-- An extension of the output file: one of the cutout images, or one of the tables
(_constants.py:18-24). -/
inductive Section where
  | image (h : Hdu Flt)
  | objectData (rows : List (ObjRow × RunRow))
  | epochsInfo (rows : List EpochRow)
  | metadata (m : Metadata)
  | tileInfo (bytes : List Nat)
  | imageInfo (rows : List InfoRow)
  | gaiaStars (rows : List PixStar)

/-- `extname` (_constants.py:18-24, _pizza_cutter.py:205-216, 644, 648). -/
def Section.name : Section → String
  | .image h => h.name
  | .objectData _ => "object_data"
  | .epochsInfo _ => "epochs_info"
  | .metadata _ => "metadata"
  | .tileInfo _ => "tile_info"
  | .imageInfo _ => "image_info"
  | .gaiaStars _ => "gaia_stars"

/-- The arguments of `make_des_pizza_slices` (_pizza_cutter.py:78-94) with what is found outside: the
environment and versions for the metadata; the description of the tile for the image info (`io`, `f4`,
`coaddNums`, `coaddWcs`, `srcs`), its `image_shape` if it has one and the header of the coadd image; the sizes
of the configuration; `slice` has everything else that is used for a slice (its `objects` and `sources` are
not used), `sourcesOf` the SE images given the seeds of their noise; the rows of `object_data` before any
slice is processed (made by `meds.util.get_meds_output_struct`); the range of slices, the curve, the sorting
and the random numbers; pixel operations and fpack parameters; jobs and chunks; the number that the SHA1
digest of tile name and band is. -/
structure MakeIn (A σ S W ρ : Type) where
  environ : String → Option PyStr
  versions : Versions
  config : PyStr
  json : PyStr
  io : WcsIO W
  f4 : ℚ → ℚ
  coaddNums : InfoNums
  coaddWcs : Option W
  srcs : List (InfoSrc W)
  imageShape : Option (Nat × Nat)
  header : Except Err (String → Option ℤ)
  central : ℤ
  buffer : ℤ
  psfBox : ℤ
  jac : ℚ → ℚ → ℚ × ℚ × ℚ × ℚ
  slice : SliceEnv A σ S
  sourcesOf : List SrcSeeds → ℚ → ℚ → ℚ → ℚ → List Src
  rows0 : Nat → List RunRow
  range : RangeSpec
  dist : ℤ → ℤ → Nat
  argsort : List Nat → List Nat
  rand : RandInt ρ
  randState : ρ
  ops : PixelOps Flt
  pars : Option (List (String × String))
  nJobs : Nat
  nChunks : Option Nat
  digest : ℤ

variable {A σ S W ρ : Type}

/-- `_get_image_width` (_pizza_cutter.py:749-756). -/
def getImageWidth (header : Except Err (String → Option ℤ)) : Except Err ℤ := do
  let h ← header
  match h "znaxis1" with
  | some w => pure w
  | none => lookup (h "naxis1")

/-- The width of the coadd image (_pizza_cutter.py:159-165). -/
def imageWidth (m : MakeIn A σ S W ρ) : Except Err ℤ :=
  match m.imageShape with
  | some s => .ok s.2
  | none => getImageWidth m.header

/-- What is made before anything is written. -/
structure Prepared where
  md : Metadata
  json : List Nat
  imageInfo : List InfoRow
  objects : List ObjRow

/-- The tables made before anything is written (_pizza_cutter.py:156-173). -/
def prepare (m : MakeIn A σ S W ρ) : Except Err Prepared := do
  let md ← buildMetadata m.environ m.versions m.config m.json
  let ii ← buildImageInfo m.io m.f4 m.coaddNums m.coaddWcs m.srcs
  let width ← imageWidth m
  let objs ← buildObjectData m.central m.buffer width m.psfBox m.slice.fwd m.jac m.slice.offset
  pure ⟨md.1, md.2, ii, objs⟩

/-- `np.array(list(slices_to_do), dtype=int)` (_pizza_cutter.py:523).  Simplification: numbers below 0 (only
a `range` that counts down can have them) are an error here; in the code they count from the end. -/
def natIndices (l : List ℤ) : Except Err (List Nat) :=
  if l.all (fun i => decide (0 ≤ i)) = true then .ok (l.map Int.toNat) else .error .indexError

/-- The slices to do, ordered (_pizza_cutter.py:519-537): KeyError without `image_shape`. -/
def selectSlices (m : MakeIn A σ S W ρ) (objs : List ObjRow) : Except Err (List Nat) := do
  let l ← extractSliceRange m.range objs.length
  let ns ← natIndices l
  let shape ← lookup m.imageShape
  orderSlices (fun i => (objRow objs i).map fun r => m.slice.inv r.ra r.dec) m.dist m.argsort shape.1 shape.2 ns

/-- `npix`, `npix_psf`, `n_pixels` and `n_pixels_psf` (_pizza_cutter.py:540-543): IndexError without
objects. -/
def pixelCounts (objs : List ObjRow) : Except Err (Nat × Nat × Nat × Nat) :=
  match objs with
  | [] => .error .indexError
  | r :: _ => .ok ((r.boxSize ^ 2).toNat, (r.psfBoxSize ^ 2).toNat,
      ((objs.map fun o : ObjRow => o.boxSize ^ 2).sum).toNat, ((objs.map fun o : ObjRow => o.psfBoxSize ^ 2).sum).toNat)

/-- The seeds (_pizza_cutter.py:549-557). -/
def seedsFor (m : MakeIn A σ S W ρ) (objs : List ObjRow) : Seeds :=
  makeSeeds m.rand m.randState objs.length m.srcs.length m.slice.nExtra

/-- What `_coadd_single_slice` gets (_pizza_cutter.py:590-602, 625-636). -/
def sliceEnvFor (m : MakeIn A σ S W ρ) (objs : List ObjRow) : SliceEnv A σ S :=
  { m.slice with objects := objs, sources := m.sourcesOf (seedsFor m objs).srcs }

/-- The loop over the slices, sequential or parallel (_pizza_cutter.py:514-515, 566-642), from what is
written before to what is written after or an exception.  The parallel run has many outcomes.
Simplification: the number of jobs is not negative (a negative one is like 1). -/
inductive SliceRun (c : RunShape Flt) (compute : Nat → Nat → Except Err (SliceRes Flt EpochRow))
    (nJobs : Nat) (nChunks : Option Nat) (slices seeds : List Nat) (o : Out Flt EpochRow) :
    Except Err (Out Flt EpochRow) → Prop
  | seq : nJobs ≤ 1 →
      SliceRun c compute nJobs nChunks slices seeds o
        (runSeq c compute o (slices.map fun i => (i, seeds.getD i 0)))
  | noChunks (e) : 1 < nJobs → allChunks slices seeds (nChunks.getD nJobs) = .error e →
      SliceRun c compute nJobs nChunks slices seeds o (.error e)
  | parDone (chunks k s) : 1 < nJobs → allChunks slices seeds (nChunks.getD nJobs) = .ok chunks →
      Steps c compute slices.length nJobs (10 * nJobs) k (PState.init chunks o) s → s.status = .done →
      SliceRun c compute nJobs nChunks slices seeds o (.ok s.out)
  | parRaised (chunks k s e) : 1 < nJobs → allChunks slices seeds (nChunks.getD nJobs) = .ok chunks →
      Steps c compute slices.length nJobs (10 * nJobs) k (PState.init chunks o) s → s.status = .raised e →
      SliceRun c compute nJobs nChunks slices seeds o (.error e)

/-- The end of the block that writes the FITS file (_pizza_cutter.py:644-648, 204-216): the extensions, and
the exception if there is one.  `combine_arrlist` of esutil takes the first element of its list, which is an
IndexError for an empty list. -/
def finishFile (m : MakeIn A σ S W ρ) (p : Prepared) (n : Nat) (o : Out Flt EpochRow) :
    List Section × Option Err :=
  let ss := o.fits.map .image ++ [.objectData (p.objects.zip o.rows)]
  if o.epochs.length ≠ n then (ss, some .assertionError)
  else
    match o.epochs with
    | [] => (ss, some .indexError)
    | es =>
      let ss := ss ++ [.epochsInfo es.flatten, .metadata p.md, .tileInfo p.json, .imageInfo p.imageInfo]
      match m.slice.gaiaFile with
      | none => (ss, none)
      | some (.error e) => (ss, some e)
      | some (.ok cat) => (ss ++ [.gaiaStars (readGaiaStars m.slice.inv m.slice.offset cat)], none)

/-- The block `with fitsio.FITS(...)` (_pizza_cutter.py:186-216 with 507-648): the extensions of the closed
file, and the exception if there is one.  What has been written when the loop over the slices raises is left
open. -/
inductive FitsBody (m : MakeIn A σ S W ρ) (p : Prepared) : List Section → Option Err → Prop
  | select (e) : selectSlices m p.objects = .error e → FitsBody m p [] (some e)
  | counts (slices e) : selectSlices m p.objects = .ok slices → pixelCounts p.objects = .error e →
      FitsBody m p [] (some e)
  | reserve (slices n ss e) : selectSlices m p.objects = .ok slices → pixelCounts p.objects = .ok n →
      reserveImages m.ops m.pars n.2.2.1 n.2.2.2 m.slice.nExtra n.1 n.2.1 = .error e → FitsBody m p ss (some e)
  | slices (slices n fits ss e) : selectSlices m p.objects = .ok slices → pixelCounts p.objects = .ok n →
      reserveImages m.ops m.pars n.2.2.1 n.2.2.2 m.slice.nExtra n.1 n.2.1 = .ok fits →
      SliceRun ⟨m.ops, m.pars, p.objects.length, n.1, n.2.1, m.slice.nExtra⟩
        (coaddSingleSlice (sliceEnvFor m p.objects)) m.nJobs m.nChunks slices (seedsFor m p.objects).slices
        ⟨fits, m.rows0 p.objects.length, []⟩ (.error e) → FitsBody m p ss (some e)
  | finish (slices n fits o) : selectSlices m p.objects = .ok slices → pixelCounts p.objects = .ok n →
      reserveImages m.ops m.pars n.2.2.1 n.2.2.2 m.slice.nExtra n.1 n.2.1 = .ok fits →
      SliceRun ⟨m.ops, m.pars, p.objects.length, n.1, n.2.1, m.slice.nExtra⟩
        (coaddSingleSlice (sliceEnvFor m p.objects)) m.nJobs m.nChunks slices (seedsFor m p.objects).slices
        ⟨fits, m.rows0 p.objects.length, []⟩ (.ok o) →
      FitsBody m p (finishFile m p slices.length o).1 (finishFile m p slices.length o).2

/-- How a file with given extensions is stored, and what `fpack` with a seed makes of it. -/
structure Storage (D : Type) where
  plain : List Section → D
  fpack : ℤ → List Section → Fpack D

/-- `make_des_pizza_slices` (_pizza_cutter.py:78-238): the programs on the file system that a call may be. -/
inductive MakeRun {D : Type} (m : MakeIn A σ S W ρ) (st : Storage D) (env : FsEnv D) (meds : FPath)
    (tmpdir : Option FPath) (removeFits : Bool) (valid : D → Bool) : FM D Unit → Prop
  | early (e) : prepare m = .error e → MakeRun m st env meds tmpdir removeFits valid (FM.raise e)
  | run (p ss raised) : prepare m = .ok p → FitsBody m p ss raised →
      MakeRun m st env meds tmpdir removeFits valid
        (publishRun env meds tmpdir ⟨st.plain ss, raised⟩ (st.fpack (hashToInt m.digest) ss) removeFits valid)

end Pizza
