import Verif.Model.Process

/-!
Specification of the computation of slices in a long-lived process: what a slice is computed from when every file is
read for it and nothing is kept, and what makes a set of tiles safe to be processed by one process.
-/

namespace Pizza

section
variable {A σ S P : Type}

/-- The side lengths of an array. -/
def Arr.dims : Arr → Nat × Nat
  | .num a => (a.nrow, a.ncol)
  | .bits b => (b.nrow, b.ncol)

/-- What is in a file, or an array in memory as it was when the process started. -/
def ProcWorld.original (w : ProcWorld A σ S P) : Loc FileKey → Except Err Arr
  | .file k => w.files k
  | .mem n => .ok (w.arrays n)

/-- The bit mask of an SE image. -/
def freshMask (w : ProcWorld A σ S P) (t : Tile A S P) (e : Entry P) : Except Err (Img (BitVec 32)) :=
  match w.original e.bmask with
  | .error x => .error x
  | .ok (.num _) => .error .typeError
  | .ok (.bits m) =>
    if t.tapeBumps = true then
      match e.src.ccdnum with
      | some (.ofNat n) => (bumpsOf tapeBumps n).map fun bumps => setTapeBumps bumps m
      | _ => .error .keyError
    else .ok m

/-- A noise field of an SE image. -/
def freshNoise (w : ProcWorld A σ S P) (e : Entry P) (seed : Nat) : Except Err (Img ℚ) :=
  match w.original e.weight with
  | .error x => .error x
  | .ok a =>
    match maxPositive a.asNum with
    | .error x => .error x
    | .ok top => .ok (w.memNoise seed ⟨a.asNum.nrow, a.asNum.ncol, fun r c =>
        if 0 < a.asNum.px r c then a.asNum.px r c / w.zpScale e.magzp ^ 2 else top / w.zpScale e.magzp ^ 2⟩)

/-- The arrays of an SE image. -/
def freshReads (w : ProcWorld A σ S P) (t : Tile A S P) (e : Entry P) : SEReads where
  image := (w.original e.image).map Arr.asNum
  bkg := (w.original e.bkg).map Arr.asNum
  bmask := freshMask w t e
  weight := (w.original e.weight).map Arr.asNum
  noises := e.noiseSeeds.mapM (freshNoise w e)

/-- Whether the PSF model of an SE image is found to be bad. -/
def freshFlag (w : ProcWorld A σ S P) (t : Tile A S P) (e : Entry P) (psf : P) : Except Err Bool :=
  match t.piffCheck, w.psfKind psf with
  | some (grid, maxDiff), .piff =>
    match e.src.piffPath, e.src.ccdnum with
    | some p, some n => do
      let model ← w.disk.piff p n
      let res ← w.tGrid model.1 t.kwargs e.piffSeed grid
      badPiffFlag res maxDiff
    | _, _ => .error .keyError
  | _, _ => .ok false

/-- An SE image as it is when it is used for a slice at a position, with everything read and computed anew. -/
def freshSrc (w : ProcWorld A σ S P) (t : Tile A S P) (ra dec raPsf decPsf : ℚ) (e : Entry P) : Src :=
  match (seInit w.disk e.src e.offset t.wcs t.psf).out with
  | .error x =>
    { Src.named e.imageId with imageFlags := e.imageFlags, init := .error x }
  | .ok con =>
    let se : SEWcs := ⟨con.wcs.fwd, con.wcs.inv, e.offset⟩
    { imageFlags := e.imageFlags
      init := .ok ()
      containsRadec := .ok (ccdContainsCel w.toUV con.celestial (con.skyBnds, con.raCcd, con.decCcd) ra dec)
      pos := .ok (se.inv0 ra dec)
      nrow := con.shape.1
      ncol := con.shape.2
      reads := freshReads w t e
      scale := w.zpScale e.magzp
      psfX := (se.inv0 raPsf decPsf).1
      psfY := (se.inv0 raPsf decPsf).2
      psfFlag := freshFlag w t e con.psf
      psfImage := getPsfImage (w.psfKind con.psf) none
        (w.setupDim con.psf con.wcs e.offset (se.inv0 raPsf decPsf).1 (se.inv0 raPsf decPsf).2)
        (w.drawPsf con.psf con.wcs con.wcsType e.offset t.kwargs e.src.ccdnum
          (se.inv0 raPsf decPsf).1 (se.inv0 raPsf decPsf).2)
      toCoadd := (getWcsInverse w.fit t.inv t.offset se con.shape.1 con.shape.2 t.seDelta).map
        fun i x y => pairUp (i.2.call x y)
      lookups := buildLookups w.fit w.spl ⟨se, con.wcs.isCelestial, con.shape.1, con.shape.2, t.fwd, t.inv, t.celestial,
        t.offset, t.shape.1, t.shape.2, w.cosd⟩ t.seDelta t.coaddDelta
      imageId := e.imageId }

/-- What the slices of a tile are computed from. -/
def freshEnv (w : ProcWorld A σ S P) (t : Tile A S P) : SliceEnv A σ S where
  ext := w.ext
  seeded := w.seeded
  fwd := t.fwd
  inv := t.inv
  offset := t.offset
  cfg := t.cfg
  gaiaFile := t.gaiaPath.map w.gaia
  gaiaCfg := t.gaiaCfg
  draw := w.draw
  pow10 := w.pow10
  f4 := w.f4
  sources := fun ra dec raPsf decPsf => t.entries.map (freshSrc w t ra dec raPsf decPsf)
  nExtra := t.nExtra
  objects := t.objects

/-- Tiles that one process can work on: where tape bumps are masked, the masks are used as masks only, with masking of
tape bumps always on and always for the same CCD; SE images whose texts have the same hash have the same WCS and
position offset, and coadd WCSs with the same hash are the same. -/
structure Orderly (w : ProcWorld A σ S P) (U : Tile A S P → Prop) : Prop where
  maskOnly : ∀ t e t' e', U t → e ∈ t.entries → U t' → e' ∈ t'.entries → t.tapeBumps = true →
    e.bmask ≠ e'.image ∧ e.bmask ≠ e'.bkg ∧ e.bmask ≠ e'.weight
  sameMasking : ∀ t e t' e', U t → e ∈ t.entries → U t' → e' ∈ t'.entries → t.tapeBumps = true →
    e.bmask = e'.bmask → t'.tapeBumps = true ∧ e'.src.ccdnum = e.src.ccdnum
  seHash : ∀ n t e n' t' e', U t → e ∈ t.entries → U t' → e' ∈ t'.entries → w.hash n t e = w.hash n' t' e' →
    e.offset = e'.offset ∧ (seWcs w.disk e.src t.wcs).out = (seWcs w.disk e'.src t'.wcs).out
  coaddHash : ∀ t t', U t → U t' → t.key = t'.key → t.fwd = t'.fwd ∧ t.inv = t'.inv ∧ t.celestial = t'.celestial

/-- The tiles of a history. -/
def OpsIn (U : Tile A S P → Prop) (ops : List (ProcOp A S P)) : Prop :=
  ∀ t, (∀ i seed, .slice t i seed ∈ ops → U t) ∧ ∀ jobs, .chunk t jobs ∈ ops → U t

/-- The messages of a worker for a list of slices when `f` says what a slice gives: the results in order up to the
first slice that fails, then its error and nothing else. -/
inductive ChunkReport (f : Nat → Nat → Except Err (SliceRes Flt EpochRow)) : List (Nat × Nat) → List Msg → Prop
  | done : ChunkReport f [] []
  | ok {i seed l r ms} : f i seed = .ok r → ChunkReport f l ms → ChunkReport f ((i, seed) :: l) (.ok r :: ms)
  | failed {i seed l e} : f i seed = .error e → ChunkReport f ((i, seed) :: l) [.error (i, seed, e)]

end
end Pizza
