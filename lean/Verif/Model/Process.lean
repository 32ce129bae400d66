import Verif.Model.SEInit
import Verif.Model.SkyBounds
import Verif.Model.Slice
import Verif.Model.SliceMask
import Verif.Model.WcsGrid

/-!
The computation of slices in a Python process, with everything that lives longer than a slice: the caches of
pizza_cutter/des_pizza_cutter/_se_image.py:46-365 and _pizza_cutter.py:651-683 and the arrays in memory that
stand in for files.  Models `_coadd_single_slice` (_pizza_cutter.py:296-414) with all calls of cached functions,
`_process_slice_chunk` (417-443) and `clear_image_and_wcs_caches` (_se_image.py:373-385).

What is done with arrays once they are read is the code of `Model/BuildInputs`, `Model/SEObject`,
`Model/Coadd` and `Model/Slice`.
-/

namespace Pizza

/-- Path and extension of an image (_se_image.py:70-92). -/
abbrev FileKey := PyStr × PyStr

/-- An array: numbers or a bit mask. -/
inductive Arr where
  | num (a : Img ℚ)
  | bits (b : Img (BitVec 32))

/-- An array as numbers; a bit mask is a 32-bit signed integer array. -/
def Arr.asNum : Arr → Img ℚ
  | .num a => a
  | .bits b => b.map fun v => (v.toInt : ℚ)

/-- An array as a bit mask.  Simplified: an array of floats is refused here, in numpy the first bit operation on it
raises the TypeError. -/
def Arr.asMask : Arr → Except Err (Img (BitVec 32))
  | .num _ => .error .typeError
  | .bits b => .ok b

/-- A change in place of a bit mask. -/
def Arr.mapBits (g : Img (BitVec 32) → Img (BitVec 32)) : Arr → Arr
  | .num a => .num a
  | .bits b => .bits (g b)

/-- One entry of `info['src_info']` (_coadd_slices.py:214-236, _se_image.py:540-724): `src` are the keys that the
constructor looks at, the others are always there. -/
structure Entry (P : Type) where
  src : SESource P
  imageFlags : ℤ
  imageId : ℤ
  magzp : ℚ
  offset : ℚ
  noiseSeeds : List Nat
  piffSeed : Nat
  image : Loc FileKey
  bkg : Loc FileKey
  bmask : Loc FileKey
  weight : Loc FileKey

/-- What `_coadd_single_slice` gets for a tile (_pizza_cutter.py:296-299): the SE images, the options of
`single_epoch_config` (`piffCheck` is `grid_size` and `max_abs_T_diff` of `mask_piff_failure`, `kwargs` is the text of
`psf_kwargs` of the band), the coadd WCS with its hash, the star catalog and the table of slices.  The rest of
the options is `cfg`. -/
structure Tile (A S P : Type) where
  entries : List (Entry P)
  wcs : Req WcsObj
  psf : Req P
  kwargs : PyStr
  tapeBumps : Bool
  piffCheck : Option (Nat × ℚ)
  tmpdir : Option PyStr
  seDelta : Nat
  coaddDelta : Nat
  fwd : ℚ → ℚ → ℚ × ℚ
  inv : ℚ → ℚ → ℚ × ℚ
  celestial : Bool
  key : ℤ
  offset : ℚ
  shape : Nat × Nat
  cfg : BuildCfg A
  gaiaPath : Option PyStr
  gaiaCfg : Option (GaiaCfg S)
  nExtra : Nat
  objects : List ObjRow

/-- Everything outside of the process and the libraries: what is in the files, the arrays in memory when the process
starts, and external functions.  `memNoise seed weight` is `MemMappedNoiseImage`, `setupDim` and `drawPsf` are the
drawing calls in `get_psf_image` for a model, a WCS with its type name, its offset, keywords, CCD and
position, `tGrid` is `measure_t_grid_for_piff_model`.  `hash n` is the hash of the text of an SE image object
(_se_image.py:616-651) that is constructed as the `n`-th: the texts of the PSF model and WCS in it can contain
addresses, so that it may differ from one construction to the next. -/
structure ProcWorld (A σ S P : Type) where
  ext : Ext A σ
  seeded : Nat → σ
  draw : List Circle → Nat → S → Img (BitVec 32)
  pow10 : ℚ → ℚ
  f4 : ℚ → ℚ
  disk : SEDisk P
  files : FileKey → Except Err Arr
  arrays : Nat → Arr
  gaia : PyStr → Except Err (List CatStar)
  zpScale : ℚ → ℚ
  memNoise : Nat → Img ℚ → Img ℚ
  toUV : ℚ → ℚ → ℚ → ℚ → ℚ × ℚ
  psfKind : P → PsfKind
  setupDim : P → WcsObj → ℚ → ℚ → ℚ → Nat
  drawPsf : P → WcsObj → Option String → ℚ → PyStr → Option ℤ → ℚ → ℚ → Nat → Except Err (Img ℚ)
  tGrid : P → PyStr → Nat → Nat → Except Err (List Flt)
  fit : Fit
  spl : Spline
  cosd : ℚ → ℚ
  hash : Nat → Tile A S P → Entry P → ℤ

/-! ### the process -/

/-- The caches (_se_image.py:46, 61, 77, 120, 133, 193, 230, 266, 284, 304, 332; _pizza_cutter.py:651). -/
inductive CacheId where
  | bounds
  | shape
  | image
  | noise
  | inverse
  | area
  | piff
  | psfex
  | imageWcs
  | headWcs
  | piffFlag
  | gaia
  deriving DecidableEq

/-- What a cached function is called with, as far as it can differ between calls; objects are compared by their
hashes.  The position offset of `area` is `none` where it is not given as an argument. -/
abbrev CacheId.Key : CacheId → Type
  | .bounds => (Nat × Nat) × ℤ × Bool
  | .shape => FileKey
  | .image => FileKey
  | .noise => FileKey × ℚ × Nat × Option PyStr
  | .inverse => ℤ × ℚ × ℤ × (Nat × Nat) × Nat
  | .area => ℤ × (Nat × Nat) × Nat × Option ℚ
  | .piff => PyStr × ℤ
  | .psfex => PyStr
  | .imageWcs => FileKey
  | .headWcs => PyStr × FileKey
  | .piffFlag => (PyStr × ℤ) × (Nat × Nat) × (PyStr × ℚ)
  | .gaia => PyStr × ℤ × ℚ

/-- What a cached function returns. -/
abbrev CacheId.Val (P : Type) : CacheId → Type
  | .bounds => Bounds ℚ × ℚ × ℚ
  | .shape => Nat × Nat
  | .image => Arr
  | .noise => Img ℚ
  | .inverse => InvInterp × InvInterp
  | .area => ℚ → ℚ → ℚ
  | .piff => P × WcsObj
  | .psfex => P
  | .imageWcs => WcsObj
  | .headWcs => WcsObj
  | .piffFlag => Bool
  | .gaia => List PixStar

/-- Arguments of cached functions can be compared. -/
instance (c : CacheId) : DecidableEq c.Key :=
  match c with
  | .bounds => inferInstanceAs (DecidableEq ((Nat × Nat) × ℤ × Bool))
  | .shape => inferInstanceAs (DecidableEq FileKey)
  | .image => inferInstanceAs (DecidableEq FileKey)
  | .noise => inferInstanceAs (DecidableEq (FileKey × ℚ × Nat × Option PyStr))
  | .inverse => inferInstanceAs (DecidableEq (ℤ × ℚ × ℤ × (Nat × Nat) × Nat))
  | .area => inferInstanceAs (DecidableEq (ℤ × (Nat × Nat) × Nat × Option ℚ))
  | .piff => inferInstanceAs (DecidableEq (PyStr × ℤ))
  | .psfex => inferInstanceAs (DecidableEq PyStr)
  | .imageWcs => inferInstanceAs (DecidableEq FileKey)
  | .headWcs => inferInstanceAs (DecidableEq (PyStr × FileKey))
  | .piffFlag => inferInstanceAs (DecidableEq ((PyStr × ℤ) × (Nat × Nat) × (PyStr × ℚ)))
  | .gaia => inferInstanceAs (DecidableEq (PyStr × ℤ × ℚ))

/-- The state of a process: the caches, the arrays in memory and the number of SE images constructed. -/
structure Proc (P : Type) where
  caches : (c : CacheId) → Lru c.Key (c.Val P)
  arrays : Nat → Arr
  count : Nat

/-- A process that has just started, with any sizes of the caches. -/
def Proc.fresh {P : Type} (sizes : CacheId → Nat) (arrays : Nat → Arr) (count : Nat) : Proc P :=
  ⟨fun c => ⟨sizes c, []⟩, arrays, count⟩

/-- A cache replaced. -/
def Proc.put {P : Type} (st : Proc P) (c : CacheId) (l : Lru c.Key (c.Val P)) : Proc P :=
  { st with caches := Function.update st.caches c l }

/-- A computation in a process; what it did to the caches stays if it raises. -/
def PM (P α : Type) := Proc P → Except Err α × Proc P

instance {P : Type} : Monad (PM P) where
  pure a := fun st => (.ok a, st)
  bind m f := fun st =>
    match m st with
    | (.error e, st) => (.error e, st)
    | (.ok a, st) => f a st

section
variable {A σ S P : Type}

/-- A value or exception that does not depend on the process. -/
def PM.lift {α : Type} (e : Except Err α) : PM P α := fun st => (e, st)

/-- A call of a cached function: `lruCall` with a function that itself uses the process. -/
def PM.cached (c : CacheId) (k : c.Key) (m : PM P (c.Val P)) : PM P (c.Val P) := fun st =>
  match (st.caches c).find? k with
  | some v =>
    (.ok v, st.put c { (st.caches c) with
      entries := (k, v) :: (st.caches c).entries.filter fun e => decide (e.1 ≠ k) })
  | none =>
    match m st with
    | (.error e, st) => (.error e, st)
    | (.ok v, st) => (.ok v, st.put c { (st.caches c) with
        entries := ((k, v) :: (st.caches c).entries).take (st.caches c).maxsize })

/-- `clear_image_and_wcs_caches` (_se_image.py:373-385): not the cache of the star catalog. -/
def clearCaches (st : Proc P) : Proc P :=
  { st with caches := fun c => if c = .gaia then st.caches c else (st.caches c).clear }

/-- `source_info[key]`. -/
def PM.key {α : Type} (o : Option α) : PM P α :=
  PM.lift (match o with | none => .error .keyError | some a => .ok a)

/-! ### reading -/

/-- `_read_image` (_se_image.py:70-92). -/
def readP (w : ProcWorld A σ S P) : Loc FileKey → PM P Arr
  | .mem n => fun st => (.ok (st.arrays n), st)
  | .file k => PM.cached .image k (PM.lift (w.files k))

/-- A change in place of the array that was read from a location. -/
def mutateP (loc : Loc FileKey) (g : Img (BitVec 32) → Img (BitVec 32)) : PM P Unit := fun st =>
  match loc with
  | .mem n => (.ok (), { st with arrays := fun m => if m = n then (st.arrays m).mapBits g else st.arrays m })
  | .file k => (.ok (), st.put .image ((st.caches .image).mutate k (Arr.mapBits g)))

/-- `TAPE_BUMPS[self.source_info['ccdnum']]` (_se_image.py:743-744). -/
def bumpsFor (ccd : Option ℤ) : Except Err (List Bump) :=
  match ccd with
  | none => .error .keyError
  | some n => if n < 0 then .error .keyError else bumpsOf tapeBumps n.toNat

/-- The bit mask in `set_slice` before it is cut (_se_image.py:694-699). -/
def maskP (w : ProcWorld A σ S P) (t : Tile A S P) (e : Entry P) : PM P (Img (BitVec 32)) := do
  let a ← readP w e.bmask
  let m ← PM.lift a.asMask
  if t.tapeBumps then
    let bumps ← PM.lift (bumpsFor e.src.ccdnum)
    mutateP e.bmask (setTapeBumps bumps)
    pure (setTapeBumps bumps m)
  else pure m

/-- `_get_noise_image_impl` after reading the weight (_se_image.py:96-105). -/
def noiseField (w : ProcWorld A σ S P) (wgt : Img ℚ) (scale : ℚ) (seed : Nat) : Except Err (Img ℚ) := do
  let top ← maxPositive wgt
  pure (w.memNoise seed ⟨wgt.nrow, wgt.ncol, fun r c =>
    (if wgt.px r c ≤ 0 then top else wgt.px r c) / scale ^ 2⟩)

/-- `_get_noise_image` (_se_image.py:95-131): arrays in memory are not cached. -/
def noiseP (w : ProcWorld A σ S P) (t : Tile A S P) (e : Entry P) (seed : Nat) : PM P (Img ℚ) :=
  let scale := w.zpScale e.magzp
  let go : PM P (Img ℚ) := do
    let wgt ← readP w e.weight
    PM.lift (noiseField w wgt.asNum scale seed)
  match e.weight with
  | .mem _ => go
  | .file k => PM.cached .noise (k, scale, seed, t.tmpdir) go

/-- The loop over the noise seeds (_se_image.py:713-723). -/
def noisesP (w : ProcWorld A σ S P) (t : Tile A S P) (e : Entry P) : List Nat → PM P (List (Img ℚ))
  | [] => pure []
  | s :: l => do
    let a ← noiseP w t e s
    let b ← noisesP w t e l
    pure (a :: b)

/-- The exception of a change of the object, or the new object. -/
def orRaise : SEObj × Option Err → Except Err SEObj
  | (_, some e) => .error e
  | (o, none) => .ok o

/-- `set_slice` (_se_image.py:661-724): the arrays are read one after the other. -/
def setSliceP (w : ProcWorld A σ S P) (t : Tile A S P) (e : Entry P) (b : Bounds ℤ) : PM P SEObj := do
  if b.colmax - b.colmin + 1 ≠ b.rowmax - b.rowmin + 1 then PM.lift (.error .assertionError)
  else
    let im ← readP w e.image
    let bkg ← readP w e.bkg
    if im.asNum.nrow ≠ bkg.asNum.nrow ∨ im.asNum.ncol ≠ bkg.asNum.ncol then PM.lift (.error .valueError)
    else
      let bm ← maskP w t e
      let wgt ← readP w e.weight
      let ns ← noisesP w t e e.noiseSeeds
      PM.lift (orRaise (({} : SEObj).setSlice
        ⟨.ok im.asNum, .ok bkg.asNum, .ok bm, .ok wgt.asNum, .ok ns⟩ (w.zpScale e.magzp) b))

/-! ### construction -/

/-- `_load_piff_pixmappy` (_se_image.py:230-263). -/
def piffP (w : ProcWorld A σ S P) (p : PyStr) (n : ℤ) : PM P (P × WcsObj) :=
  PM.cached .piff (p, n) (PM.lift (w.disk.piff p n))

/-- The WCS (_se_image.py:540-567). -/
def wcsP (w : ProcWorld A σ S P) (info : SESource P) : Req WcsObj → PM P WcsObj
  | .object o => pure o
  | .named s =>
    if s = "image" then do
      let p ← PM.key info.imagePath
      let e ← PM.key info.imageExt
      PM.cached .imageWcs (p, e) (PM.lift (w.disk.imageWcs p e))
    else if s = "head" then do
      let h ← PM.key info.headPath
      let p ← PM.key info.imagePath
      let e ← PM.key info.imageExt
      PM.cached .headWcs (h, p, e) (PM.lift (w.disk.headWcs h p e))
    else if s = "affine" then PM.key info.affineWcs
    else if s = "pixmappy" then do
      let p ← PM.key info.piffPath
      let n ← PM.key info.ccdnum
      let r ← piffP w p n
      pure r.2
    else PM.lift (.error .runtimeError)

/-- The PSF model (_se_image.py:569-581). -/
def psfP (w : ProcWorld A σ S P) (info : SESource P) : Req P → PM P P
  | .object m => pure m
  | .named s =>
    if s = "galsim" then PM.key info.galsimPsf
    else if s = "psfex" then do
      let p ← PM.key info.psfexPath
      PM.cached .psfex p (PM.lift (w.disk.psfex p))
    else if s = "piff" then do
      let p ← PM.key info.piffPath
      let n ← PM.key info.ccdnum
      let r ← piffP w p n
      pure r.1
    else PM.lift (.error .runtimeError)

/-- The shape of the image (_se_image.py:61-67, 587-594). -/
def shapeP (w : ProcWorld A σ S P) (info : SESource P) : PM P (Nat × Nat) :=
  match info.imageShape with
  | some s => pure s
  | none => do
    let p ← PM.key info.imagePath
    let e ← PM.key info.imageExt
    PM.cached .shape (p, e) (PM.lift (do
      let h ← w.disk.header p e
      headerShape h))

/-- `get_rough_sky_bounds` for an SE image (_se_image.py:46-58, 600-607); see `seInit`. -/
def boundsOf (w : ProcWorld A σ S P) (shape : Nat × Nat) (o : WcsObj) (offset : ℚ) (celestial : Bool) :
    Except Err (Bounds ℚ × ℚ × ℚ) :=
  if shape.1 = 0 ∨ shape.2 = 0 then .error .zeroDivision
  else do
    let f ← o.evaluable offset
    w.disk.skyBounds shape f celestial

/-- An SE image object: the entry it was constructed from, the attributes set by the constructor and its hash. -/
structure SEInst (P : Type) where
  entry : Entry P
  con : SEConstructed P
  hash : ℤ

/-- The text of a new object is made when it is first compared (_se_image.py:616-651), which is when its bounds are
looked up. -/
def hashP (w : ProcWorld A σ S P) (t : Tile A S P) (e : Entry P) : PM P ℤ := fun st =>
  (.ok (w.hash st.count t e), { st with count := st.count + 1 })

/-- `SEImageSlice.__init__` (_se_image.py:519-614). -/
def initP (w : ProcWorld A σ S P) (t : Tile A S P) (e : Entry P) : PM P (SEInst P) := do
  let o ← wcsP w e.src t.wcs
  let m ← psfP w e.src t.psf
  let shape ← shapeP w e.src
  let h ← hashP w t e
  let b ← PM.cached .bounds (shape, h, o.initCelestial) (PM.lift (boundsOf w shape o e.offset o.initCelestial))
  pure ⟨e, ⟨o, match t.wcs with | .named s => some s | .object _ => none, m, shape, o.initCelestial, b.1, b.2.1,
    b.2.2, ⟨0, (shape.1 : ℤ) - 1, 0, (shape.2 : ℤ) - 1⟩⟩, h⟩

/-- The WCS of an object with its position offset. -/
def SEInst.seWcs (s : SEInst P) : SEWcs := ⟨s.con.wcs.fwd, s.con.wcs.inv, s.entry.offset⟩

/-- `ccd_contains_radec` (_se_image.py:944-985). -/
def SEInst.contains (w : ProcWorld A σ S P) (s : SEInst P) (ra dec : ℚ) : Bool :=
  ccdContainsCel w.toUV s.con.celestial (s.con.skyBnds, s.con.raCcd, s.con.decCcd) ra dec

/-! ### the PSF -/

/-- `_compute_bad_piff_model_delta_flag` (_se_image.py:332-365). -/
def piffFlagP (w : ProcWorld A σ S P) (t : Tile A S P) (s : SEInst P) : PM P Bool :=
  match t.piffCheck with
  | none => pure false
  | some (grid, maxDiff) =>
    if w.psfKind s.con.psf = .piff then do
      let p ← PM.key s.entry.src.piffPath
      let n ← PM.key s.entry.src.ccdnum
      PM.cached .piffFlag ((p, n), (grid, s.entry.piffSeed), (t.kwargs, maxDiff)) (do
        let r ← piffP w p n
        let res ← PM.lift (w.tGrid r.1 t.kwargs s.entry.piffSeed grid)
        PM.lift (badPiffFlag res maxDiff))
    else pure false

/-- `get_psf_image` (_se_image.py:1007-1153) of a new object. -/
def psfImageOf (w : ProcWorld A σ S P) (t : Tile A S P) (s : SEInst P) (x y : ℚ) : Except Err (Img ℚ) :=
  getPsfImage (w.psfKind s.con.psf) none (w.setupDim s.con.psf s.con.wcs s.entry.offset x y)
    (w.drawPsf s.con.psf s.con.wcs s.con.wcsType s.entry.offset t.kwargs s.entry.src.ccdnum x y)

/-- `set_psf` (_se_image.py:1225-1283). -/
def setPsfP (w : ProcWorld A σ S P) (t : Tile A S P) (s : SEInst P) (o : SEObj) (ra dec : ℚ) : PM P (SEObj × Bool) := do
  let p := s.seWcs.inv0 ra dec
  let flag ← piffFlagP w t s
  let psf ← PM.lift (psfImageOf w t s p.1 p.2)
  let r := o.setPsf p.1 p.2 (.ok flag) (.ok psf)
  let flag ← PM.lift r.2
  pure (r.1, flag)

/-! ### lookups of positions -/

/-- `_get_wcs_inverse` (_se_image.py:133-167). -/
def inverseP (w : ProcWorld A σ S P) (t : Tile A S P) (s : SEInst P) : PM P (InvInterp × InvInterp) :=
  PM.cached .inverse (t.key, t.offset, s.hash, s.con.shape, t.seDelta)
    (PM.lift (getWcsInverse w.fit t.inv t.offset s.seWcs s.con.shape.1 s.con.shape.2 t.seDelta))

/-- `_get_wcs_area_interp` of the SE image (_se_image.py:193-227, 1465-1467). -/
def areaSeP (w : ProcWorld A σ S P) (t : Tile A S P) (s : SEInst P) : PM P (ℚ → ℚ → ℚ) :=
  PM.cached .area (s.hash, s.con.shape, t.seDelta, none)
    (PM.lift (getWcsAreaInterp w.spl s.con.wcs.isCelestial s.seWcs.fwd0 w.cosd s.con.shape.1 s.con.shape.2
      t.seDelta 0))

/-- `_get_wcs_area_interp` of the coadd (_se_image.py:1475-1478). -/
def areaCoaddP (w : ProcWorld A σ S P) (t : Tile A S P) : PM P (ℚ → ℚ → ℚ) :=
  PM.cached .area (t.key, t.shape, t.coaddDelta, some t.offset)
    (PM.lift (getWcsAreaInterp w.spl t.celestial t.fwd w.cosd t.shape.1 t.shape.2 t.coaddDelta t.offset))

/-- The lookups of `resample` and of `resample_psf` (_se_image.py:1453-1488, 1669-1712). -/
def lookupsP (w : ProcWorld A σ S P) (t : Tile A S P) (s : SEInst P) : PM P Lookups := do
  let inv ← inverseP w t s
  let a ← areaSeP w t s
  let b ← areaCoaddP w t
  pure ⟨fun x y => pairUp (inv.1.call x y), a, b⟩

/-! ### a slice -/

/-- A candidate (_coadd_slices.py:259-263). -/
structure CandP (P : Type) where
  inst : SEInst P
  obj : SEObj
  psfFlag : Bool

/-- The body of the first loop (_coadd_slices.py:216-263). -/
def roughCutP (w : ProcWorld A σ S P) (t : Tile A S P) (c : BuildCfg A) (ra dec raPsf decPsf : ℚ) (e : Entry P) :
    PM P (List (CandP P)) :=
  if e.imageFlags = 0 then do
    let s ← initP w t e
    if s.contains w ra dec then
      let p := s.seWcs.inv0 ra dec
      let bnds := computeSliceBounds p.1 p.2 c.boxSize c.fracBuffer
      if ccdContainsBounds s.con.shape.1 s.con.shape.2 bnds c.edgeBuffer then
        let o ← setSliceP w t e bnds
        let r ← setPsfP w t s o raPsf decPsf
        pure [⟨s, r.1, r.2⟩]
      else pure []
    else pure []
  else pure []

/-- The first loop (_coadd_slices.py:214-263). -/
def possibleSlicesP (w : ProcWorld A σ S P) (t : Tile A S P) (c : BuildCfg A) (ra dec raPsf decPsf : ℚ) :
    List (Entry P) → PM P (List (CandP P))
  | [] => pure []
  | e :: l => do
    let a ← roughCutP w t c ra dec raPsf decPsf e
    let b ← possibleSlicesP w t c ra dec raPsf decPsf l
    pure (a ++ b)

/-- Outlier rejection (_coadd_slices.py:273-278). -/
def rejectOutliersP (w : ProcWorld A σ S P) (c : BuildCfg A) (cands : List (CandP P)) : Except Err (List (CandP P)) :=
  if c.rejectOutliers then do
    let ims ← cands.mapM fun k => attr k.obj.image
    let wts ← cands.mapM fun k => attr k.obj.weight
    let new ← w.ext.outliers ims wts
    pure (cands.mapIdx fun i k => { k with obj := { k.obj with weight := some (new i) } })
  else pure cands

/-- The coadd GAIA mask mapped to the SE slice (_coadd_slices.py:305-315). -/
def seGaiaMaskP (w : ProcWorld A σ S P) (t : Tile A S P) (c : BuildCfg A) (k : CandP P) : PM P (Option (Img Bool)) :=
  match c.gaia with
  | some g => do
    let inv ← inverseP w t k.inst
    let m ← PM.lift (k.obj.mapImage false g c.startCol c.startRow fun x y => pairUp (inv.2.call x y))
    pure (some m)
  | none => pure none

/-- The body of the second loop (_coadd_slices.py:287-543). -/
def processCandP (w : ProcWorld A σ S P) (t : Tile A S P) (c : BuildCfg A) (k : CandP P) (rng : σ) :
    PM P (Outcome × σ) := do
  let badFlags := c.splineFlags ||| c.noiseFlags
  let gaia ← seGaiaMaskP w t c k
  let w0 ← PM.lift (attr k.obj.weight)
  let b0 ← PM.lift (attr k.obj.bmask)
  let wb ← PM.lift (symmetrizeSlice w.ext.rotate c.symmetrize gaia badFlags w0 b0)
  let o : SEObj := { k.obj with weight := some wb.1, bmask := some wb.2 }
  let skipEdge ← PM.lift (edgeCut c.copyEdges wb.1 wb.2 c.splineFlags)
  let skipFlags := sliceHasFlags wb.2 c.badImageFlags
  let skipFrac := (computeMaskedFraction wb.1 wb.2 badFlags gaia).geq c.maxMaskedFraction
  if skipEdge || skipFlags || skipFrac || k.psfFlag then
    pure (.unused o (skipFlagWord skipEdge skipFlags skipFrac k.psfFlag), rng)
  else PM.lift (interpolateCand w.ext c gaia o wb.1 wb.2 rng)

/-- A slice in the output (_coadd_slices.py:402,538). -/
structure EpochP (P : Type) where
  inst : SEInst P
  obj : SEObj

/-- The four lists that are built (_coadd_slices.py:283-286). -/
structure InputsP (P : Type) where
  slices : List (EpochP P) := []
  weights : List ℚ := []
  notUsed : List (EpochP P) := []
  flags : List (BitVec 32) := []

/-- The appends (_coadd_slices.py:402-403,462-463,486-487,519-520,538-543). -/
def InputsP.add (acc : InputsP P) (s : SEInst P) : Outcome → InputsP P
  | .used o wt => { acc with slices := acc.slices ++ [⟨s, o⟩], weights := acc.weights ++ [wt] }
  | .unused o f => { acc with notUsed := acc.notUsed ++ [⟨s, o⟩], flags := acc.flags ++ [f] }

/-- The second loop (_coadd_slices.py:287-543). -/
def processAllP (w : ProcWorld A σ S P) (t : Tile A S P) (c : BuildCfg A) :
    List (CandP P) → InputsP P → σ → PM P (InputsP P)
  | [], acc, _ => pure acc
  | k :: l, acc, rng => do
    let r ← processCandP w t c k rng
    processAllP w t c l (acc.add k.inst r.1) r.2

/-- `_build_slice_inputs` (_coadd_slices.py:45-550). -/
def buildSliceInputsP (w : ProcWorld A σ S P) (t : Tile A S P) (c : BuildCfg A) (ra dec raPsf decPsf : ℚ) (rng : σ) :
    PM P (InputsP P) := do
  let cands ← possibleSlicesP w t c ra dec raPsf decPsf t.entries
  if cands.isEmpty || cands.all (·.psfFlag) then pure {}
  else
    let cands ← PM.lift (rejectOutliersP w c cands)
    let acc ← processAllP w t c cands {} rng
    if acc.weights.isEmpty then pure acc
    else pure { acc with weights := acc.weights.map (· / acc.weights.sum) }

/-- The resampling of one epoch (_coadd_slices.py:658-671); see `resampleEpoch`.  `resample_psf` looks everything up
once more; that it uses what `resample` looked up is the simplification of `SEObj.resample`. -/
def resampleP (w : ProcWorld A σ S P) (t : Tile A S P) (row : ObjRow) (lay : PsfLayout) (e : EpochP P) :
    PM P EpochData := do
  let look ← lookupsP w t e.inst
  let _ ← lookupsP w t e.inst
  let r ← PM.lift (e.obj.resample look row.origStartCol row.origStartRow row.boxSize.toNat
    lay.startCol lay.startRow row.psfBoxSize.toNat)
  pure (r.toEpoch (decide (r.psf.total ≠ 0)))

/-- The loop of `_coadd_slice_inputs` (_coadd_slices.py:652-696). -/
def stackAllP (w : ProcWorld A σ S P) (t : Tile A S P) (row : ObjRow) (lay : PsfLayout) :
    Stacks → List (EpochP P × ℚ) → PM P Stacks
  | st, [] => pure st
  | st, (e, wt) :: l => do
    let d ← resampleP w t row lay e
    let st ← PM.lift (stackStep st d wt)
    stackAllP w t row lay st l

/-- `_coadd_slice_inputs` (_coadd_slices.py:553-710). -/
def coaddSliceInputsP (w : ProcWorld A σ S P) (t : Tile A S P) (row : ObjRow) (lay : PsfLayout) (slices : List (EpochP P))
    (weights : List ℚ) : PM P Coadd := do
  let weights := weights.map (· / weights.sum)
  if slices.length ≠ weights.length then PM.lift (.error .assertionError)
  else if slices.isEmpty then PM.lift (.error .indexError)
  else
    let st ← stackAllP w t row lay ⟨zerosImg row.boxSize.toNat, zerosImg row.boxSize.toNat,
      List.replicate (t.nExtra + 1) (zerosImg row.boxSize.toNat), zerosImg row.psfBoxSize.toNat,
      zerosMask row.boxSize.toNat, zerosMask row.boxSize.toNat⟩ (slices.zip weights)
    let noise0 ← PM.lift (firstNoise st.noises)
    pure ⟨st.image, st.bmask, st.ormask, st.noises, st.psf,
      ⟨noise0.nrow, noise0.ncol, fun _ _ => invVar noise0⟩, st.interpFrac⟩

/-- An SE image of which only `source_info['image_id']` is looked at, as in `_make_epochs_info`
(_pizza_cutter.py:802, 817). -/
def Src.named (imageId : ℤ) : Src where
  imageFlags := 0
  init := .error .keyError
  containsRadec := .error .keyError
  pos := .error .keyError
  nrow := 0
  ncol := 0
  reads := ⟨.error .keyError, .error .keyError, .error .keyError, .error .keyError, .error .keyError⟩
  scale := 0
  psfX := 0
  psfY := 0
  psfFlag := .error .keyError
  psfImage := .error .keyError
  toCoadd := .error .keyError
  lookups := .error .keyError
  imageId := imageId

/-- A slice for the table of epochs. -/
def EpochP.row (e : EpochP P) : Epoch := ⟨Src.named e.inst.entry.imageId, e.obj⟩

/-- `_read_gaia_stars` (_pizza_cutter.py:651-683). -/
def readGaiaP (w : ProcWorld A σ S P) (t : Tile A S P) (path : PyStr) : PM P (List PixStar) :=
  PM.cached .gaia (path, t.key, t.offset) (PM.lift (do
    let cat ← w.gaia path
    pure (readGaiaStars t.inv t.offset cat)))

/-- The star mask of a slice (_pizza_cutter.py:313-331). -/
def gaiaForP (w : ProcWorld A σ S P) (t : Tile A S P) (row : ObjRow) : PM P (Option (Img Bool)) :=
  match t.gaiaPath, t.gaiaCfg with
  | some path, some g => do
    let stars ← readGaiaP w t path
    pure (some (buildGaiaStarMask w.draw w.pow10 w.f4 stars g.maxMag g.coeffs
      ⌊row.origStartCol⌋ ⌊row.origStartRow⌋ row.boxSize.toNat g.symmetrize))
  | _, _ => pure none

/-- The end of the function (_pizza_cutter.py:368-414). -/
def coaddChosenP (w : ProcWorld A σ S P) (t : Tile A S P) (row : ObjRow) (lay : PsfLayout) (i : Nat) (inp : InputsP P) :
    PM P (SliceRes Flt EpochRow) := do
  let epochs ← PM.lift (makeEpochsInfo row.id inp.weights (inp.slices.map EpochP.row) (inp.notUsed.map EpochP.row)
    inp.flags)
  if inp.weights.length > 0 then
    let co ← coaddSliceInputsP w t row lay inp.slices inp.weights
    let sigma ← PM.lift (w.ext.fwhm co.psf)
    pure ⟨i, epochs, inp.weights, some (pixOf co sigma)⟩
  else pure ⟨i, epochs, inp.weights, none⟩

/-- `_coadd_single_slice` (_pizza_cutter.py:296-414). -/
def coaddSingleSliceP (w : ProcWorld A σ S P) (t : Tile A S P) (i seed : Nat) : PM P (SliceRes Flt EpochRow) := do
  let row ← PM.lift (objRow t.objects i)
  let lay ← PM.lift (coaddPsfLayout t.fwd t.inv row.ra row.dec row.psfBoxSize t.offset)
  let gaia ← gaiaForP w t row
  let inp ← buildSliceInputsP w t
    { t.cfg with boxSize := row.boxSize, startRow := ⌊row.origStartRow⌋, startCol := ⌊row.origStartCol⌋, gaia := gaia }
    row.ra row.dec lay.raPsf lay.decPsf (w.seeded seed)
  coaddChosenP w t row lay i inp

/-! ### a worker -/

/-- What a worker puts in the queue: a result, or the error of a slice and a seed (_pizza_cutter.py:434-443). -/
abbrev Msg := Except (Nat × Nat × Err) (SliceRes Flt EpochRow)

/-- `_process_slice_chunk` (_pizza_cutter.py:417-443): the messages put in the queue; nothing more is computed after an
error. -/
def processSliceChunk (w : ProcWorld A σ S P) (t : Tile A S P) : List (Nat × Nat) → Proc P → List Msg × Proc P
  | [], st => ([], st)
  | (i, seed) :: l, st =>
    match coaddSingleSliceP w t i seed st with
    | (.error e, st) => ([.error (i, seed, e)], st)
    | (.ok r, st) =>
      let rest := processSliceChunk w t l st
      (.ok r :: rest.1, rest.2)

/-- What a process does: compute a slice of a tile, or a chunk of slices, or clear the caches. -/
inductive ProcOp (A S P : Type) where
  | slice (t : Tile A S P) (i seed : Nat)
  | chunk (t : Tile A S P) (jobs : List (Nat × Nat))
  | clear

/-- One step of a process. -/
def procStep (w : ProcWorld A σ S P) (st : Proc P) : ProcOp A S P → Proc P
  | .slice t i seed => (coaddSingleSliceP w t i seed st).2
  | .chunk t jobs => (processSliceChunk w t jobs st).2
  | .clear => clearCaches st

/-- A process after a history. -/
def procRun (w : ProcWorld A σ S P) (st : Proc P) (ops : List (ProcOp A S P)) : Proc P := ops.foldl (procStep w) st

end
end Pizza
