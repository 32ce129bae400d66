import Verif.Model.Program
import Verif.Spec.CheckInfo
import Verif.Spec.Config
import Verif.Spec.DesInfo
import Verif.Spec.LoadInfo
import Verif.Spec.MakeProc

/-!
What the program is asked to do, in terms of the entries of its two input files (`At`), without reference to the order of
lookups.
-/

namespace Pizza

/-- A text. -/
def IsText (y : Yaml) (s : PyStr) : Prop := y = .str (String.ofList s)

/-- A statistic: a number or NaN. -/
inductive IsStat : Yaml → Stat → Prop
  | nan : IsStat .nan none
  | num (y q) : IsNumber y q → IsStat y (some q)

/-- The record of a PSF model. -/
structure IsPiffInfo (y : Yaml) (p : PiffInfo) : Prop where
  desdmFlags : At y ["desdm_flags"] (.int p.desdmFlags)
  fwhmCen : ∃ v, At y ["fwhm_cen"] v ∧ IsStat v p.fwhmCen
  starTStd : ∃ v, At y ["star_t_std"] v ∧ IsStat v p.starTStd
  starTMean : ∃ v, At y ["star_t_mean"] v ∧ IsStat v p.starTMean
  nstar : At y ["nstar"] (.int p.nstar)
  expStarTMean : ∃ v, At y ["exp_star_t_mean"] v ∧ IsStat v p.expStarTMean
  expStarTStd : ∃ v, At y ["exp_star_t_std"] v ∧ IsStat v p.expStarTStd

/-- The entries of an image that are needed for loading, nothing being loaded. -/
structure LoadView {P : Type} (d : Yaml) (l : Loaded P) : Prop where
  dict : ∃ es, d = .dict es
  path : MaybeAt IsText d ["path"] l.path
  filename : MaybeAt IsText d ["filename"] l.filename
  imagePath : MaybeAt IsText d ["image_path"] l.imagePath
  imageExt : MaybeAt IsText d ["image_ext"] l.imageExt
  headPath : ∃ o, MaybeAt (IsOptional IsText) d ["head_path"] o ∧ l.headPath = o.join
  ccdnum : MaybeAt (fun y n => y = .int n) d ["ccdnum"] l.ccdnum
  affineCfg : MaybeAt Eq d ["affine_wcs_config"] l.affineCfg
  galsimCfg : MaybeAt Eq d ["galsim_psf_config"] l.galsimCfg
  psfexPath : MaybeAt (IsOptional IsText) d ["psfex_path"] l.psfexPath
  piffPath : MaybeAt (IsOptional IsText) d ["piff_path"] l.piffPath
  imageShape : MaybeAt (fun y n => y = .list (n.map .int)) d ["image_shape"] l.imageShape
  rest : l.rest = d
  fresh : l.imageId = none ∧ l.affineWcs = none ∧ l.galsimPsf = none ∧ l.imageWcs = none ∧ l.headWcs = none ∧
    l.psfexPsf = none ∧ l.piffPsf = none ∧ l.piffWcs = none ∧ l.pixmappyWcs = none

/-- The entries that are needed for flagging. -/
structure FlagView {P : Type} (l : Loaded P) (f : FlagSrc (Loaded P)) : Prop where
  flags : At l.rest ["image_flags"] (.int ((f.imageFlags : Nat) : ℤ))
  piff : MaybeAt IsPiffInfo l.rest ["piff_info"] f.piffInfo
  ccdnum : l.ccdnum = some f.ccdnum
  hasPath : f.hasPath = true ↔ ∃ s, l.path = some s
  hasFilename : f.hasFilename = true ↔ ∃ s, l.filename = some s
  rest : f.rest = l

/-- The paths of an image: at each of the keys what the description has there, nothing elsewhere. -/
def PathsOf (d : Yaml) (keys : List String) (paths : String → Option (Option PyStr)) : Prop :=
  ∀ k, (k ∈ keys → MaybeAt (IsOptional IsText) d [k] (paths k)) ∧ (k ∉ keys → paths k = none)

/-- What is checked of a source. -/
structure CheckSrcFrom (d : Yaml) (s : CheckSrc) : Prop where
  dict : ∃ es, d = .dict es
  paths : PathsOf d ["image_path", "bkg_path", "bmask_path", "piff_path", "psfex_path", "psf_path", "seg_path",
    "weight_path", "head_path"] s.paths
  band : MaybeAt IsText d ["band"] s.band
  tilename : MaybeAt IsText d ["tilename"] s.tilename
  expnum : MaybeAt (fun y (n : Nat) => y = .int (n : ℤ)) d ["expnum"] s.expnum
  ccdnum : MaybeAt (fun y (n : Nat) => y = .int (n : ℤ)) d ["ccdnum"] s.ccdnum

/-- What is checked of a description. -/
structure CheckFrom (info : Yaml) (srcs : List Yaml) (c : CheckInfo) : Prop where
  dict : ∃ es, info = .dict es
  paths : PathsOf info ["image_path", "seg_path", "bmask_path", "psf_path", "gaia_stars_file", "cat_path"] c.paths
  scale : MaybeAt IsNumber info ["scale"] c.scale
  band : MaybeAt IsText info ["band"] c.band
  srcs : List.Forall₂ CheckSrcFrom srcs c.srcs

/-- The numbers of an image that are recorded; its flags are `n.imageFlags`, whatever the description says. -/
structure NumsFrom (d : Yaml) (n : InfoNums) : Prop where
  magzp : ∃ v, At d ["magzp"] v ∧ IsNumber v n.magzp
  scale : ∃ v, At d ["scale"] v ∧ IsNumber v n.scale
  offset : ∃ v, At d ["position_offset"] v ∧ IsNumber v n.positionOffset

/-- The texts of a source that are recorded. -/
structure PathsFrom (d : Yaml) (p : InfoPaths) : Prop where
  imagePath : At d ["image_path"] (.str (String.ofList p.imagePath))
  imageExt : At d ["image_ext"] (.str (String.ofList p.imageExt))
  bkgPath : At d ["bkg_path"] (.str (String.ofList p.bkgPath))
  bkgExt : At d ["bkg_ext"] (.str (String.ofList p.bkgExt))
  weightPath : At d ["weight_path"] (.str (String.ofList p.weightPath))
  weightExt : At d ["weight_ext"] (.str (String.ofList p.weightExt))
  bmaskPath : At d ["bmask_path"] (.str (String.ofList p.bmaskPath))
  bmaskExt : At d ["bmask_ext"] (.str (String.ofList p.bmaskExt))

/-- A shape: rows and columns. -/
def IsShape (o : Option (List ℤ)) (s : Option (Nat × Nat)) : Prop := o = s.map fun p => [(p.1 : ℤ), (p.2 : ℤ)]

/-- A source as it is recorded and used: the texts, numbers and objects of its own description. -/
structure SourceFrom {P : Type} (f : FlagSrc (Loaded P)) (x : InfoSrc WcsObj × Entry P) : Prop where
  paths : PathsFrom f.rest.rest x.1.paths
  nums : NumsFrom f.rest.rest x.1.nums
  id : f.rest.imageId = some x.1.nums.imageId
  flags : x.1.nums.imageFlags = f.imageFlags
  wcs : x.1.imageWcs = f.rest.imageWcs
  affine : x.1.affine = true ↔ ∃ c, f.rest.affineCfg = some c
  used : x.2.imageFlags = f.imageFlags ∧ x.2.imageId = x.1.nums.imageId ∧ x.2.magzp = x.1.nums.magzp ∧
    x.2.offset = x.1.nums.positionOffset
  noSeeds : x.2.noiseSeeds = [] ∧ x.2.piffSeed = 0
  files : x.2.image = .file (x.1.paths.imagePath, x.1.paths.imageExt) ∧
    x.2.bkg = .file (x.1.paths.bkgPath, x.1.paths.bkgExt) ∧
    x.2.bmask = .file (x.1.paths.bmaskPath, x.1.paths.bmaskExt) ∧
    x.2.weight = .file (x.1.paths.weightPath, x.1.paths.weightExt)
  src : x.2.src.imagePath = f.rest.imagePath ∧ x.2.src.imageExt = f.rest.imageExt ∧
    x.2.src.headPath = f.rest.headPath ∧ x.2.src.affineWcs = f.rest.affineWcs ∧
    x.2.src.piffPath = f.rest.piffPath.join ∧ x.2.src.ccdnum = f.rest.ccdnum ∧
    x.2.src.galsimPsf = f.rest.galsimPsf ∧ x.2.src.psfexPath = f.rest.psfexPath.join
  shape : IsShape f.rest.imageShape x.2.src.imageShape

/-- The WCS of the coadd: the one of its type. -/
def CoaddWcs {P : Type} (c : Loaded P) (wcsType : String) (w : WcsObj) : Prop :=
  (wcsType = "image" ∧ c.imageWcs = some (some w)) ∨ (wcsType = "affine" ∧ c.affineWcs = some w)

/-- The parameters of `fpack`. -/
inductive FpackFrom (text : Yaml → String) (cfg : Yaml) : Option (List (String × String)) → Prop
  | absent : (∀ v, ¬ At cfg ["fpack_pars"] v) → FpackFrom text cfg none
  | null : At cfg ["fpack_pars"] .null → FpackFrom text cfg none
  | given (l) : At cfg ["fpack_pars"] (.dict l) → FpackFrom text cfg (some (l.map fun e => (e.1, text e.2)))

variable {σ P V ρ : Type}

/-- The two input files and what is in them. -/
structure InputsAre (w : ProgWorld σ P V ρ) (a : GoArgs) (text : PyStr) (cfg info : Yaml) : Prop where
  config : w.readText a.config = .ok text
  cfg : w.parse text = .ok cfg
  info : ∃ t, w.readText a.info = .ok t ∧ w.parse t = .ok info

/-- Source number `k`, loaded and flagged. -/
structure FlaggedFrom (w : ProgWorld σ P V ρ) (cfg : FlagCfg) (k : Nat) (d : Yaml) (f : FlagSrc (Loaded P)) : Prop where
  loaded : ∃ l, LoadView d l ∧ LoadedSrc w.load true k l f.rest
  flagged : ∃ f0, FlagView f.rest f0 ∧ SameButFlags f f0 ∧
    (∀ b, f.imageFlags.testBit b = true ↔ f0.imageFlags.testBit b = true ∨ Adds cfg f0 b) ∧
    ((∃ cuts p b, cfg.piffCuts = some cuts ∧ f0.piffInfo = some p ∧ Violates cuts p b) →
      f0.hasPath = true ∧ f0.hasFilename = true)

/-- What the program does with its inputs before anything is written: `c` is what `make_des_pizza_slices` is called
with. -/
structure Calls (w : ProgWorld σ P V ρ) (a : GoArgs) (cfg info : Yaml) (srcs : List Yaml) (c : Called P) : Prop where
  level : w.level (a.logLevel.map Char.toUpper) = .ok ()
  inputs : InputsAre w a c.configText cfg info
  json : c.json = w.dumps info
  tilename : At info ["tilename"] (.str (String.ofList c.tilename))
  band : At info ["band"] (.str (String.ofList c.band))
  sources : At info ["src_info"] (.list srcs)
  coadd : ∃ l, LoadView info l ∧ LoadedCoadd w.load l c.coadd
  flagged : ∃ fc, FlagEntries cfg fc ∧ c.srcs.length = srcs.length ∧
    ∀ (k : Nat) d f, srcs[k]? = some d → c.srcs[k]? = some f → FlaggedFrom w fc k d f
  checked : ∃ ci tile band, CheckFrom info srcs ci ∧ Consistent ci tile band
  name : medsPath ⟨a.output, a.config, a.tag, a.sliceRange, c.tilename, c.band⟩ = .ok c.meds
  pars : FpackFrom w.fpackText cfg c.pars
  coaddCfg : At cfg ["coadd"] c.coaddCfg
  seCfg : At cfg ["single_epoch"] c.seCfg ∧ ∃ es, c.seCfg = .dict es
  gaia : ∃ o, MaybeAt (IsOptional IsText) info ["gaia_stars_file"] o ∧ c.gaia = o.join

/-- What is looked up before anything is written. -/
structure LooksUp (cfg : Yaml) (c : Called P) (k : Looked P) : Prop where
  id : c.coadd.imageId = some k.nums.imageId
  flags : At c.coadd.rest ["image_flags"] (.int k.nums.imageFlags)
  nums : NumsFrom c.coadd.rest k.nums
  srcs : List.Forall₂ SourceFrom c.srcs k.srcs
  shape : IsShape c.coadd.imageShape k.shape
  options : CoaddEntries cfg k.co
  wcs : CoaddWcs c.coadd k.co.wcsType k.wcs

/-- What is needed while the file is written. -/
structure Needs (w : ProgWorld σ P V ρ) (a : GoArgs) (cfg : Yaml) (c : Called P) (s : ρ) (so : SliceOptions) : Prop where
  seed : ∃ n : Nat, n < 2 ^ 32 ∧ a.seed = n ∧ s = w.rng n
  options : SliceEntries c.gaia.isSome cfg (String.ofList c.band) so

/-- Bit `b` of the flags of the source described by `d`: set in the description, or a cut on its PSF model that is on and
violated, or its CCD is to be ignored. -/
inductive FlagBit (cfg d : Yaml) : Nat → Prop
  | own (n b : Nat) : At d ["image_flags"] (.int (n : ℤ)) → n.testBit b = true → FlagBit cfg d b
  | piff (y v cuts p b) : At cfg ["single_epoch", "piff_cuts"] y → IsCuts y cuts → At d ["piff_info"] v → IsPiffInfo v p →
      Violates cuts p b → FlagBit cfg d b
  | ccd (l : List ℤ) (n : ℤ) : At cfg ["single_epoch", "ignored_ccds"] (.list (l.map .int)) → At d ["ccdnum"] (.int n) →
      n ∈ l → FlagBit cfg d 30

/-- A text is stored. -/
def StoresText (d : Yaml) (key : String) (s : PyStr) : Prop := At d [key] (.str (String.ofList s))

/-- The header of the image described by `d` gives the WCS `x`. -/
def HeaderWcs (w : ProgWorld σ P V ρ) (d : Yaml) (x : WcsObj) : Prop :=
  ∃ p e h, StoresText d "image_path" p ∧ StoresText d "image_ext" e ∧ w.load.readHeader p e = .ok h ∧
    w.load.mkWcs (mungeHeader h) = .ok x

/-- The text of the WCS of an image: of that in its header, or of None if there is none to be read and an affine WCS is
configured. -/
def WcsStored (w : ProgWorld σ P V ρ) (d : Yaml) (t : PyStr) : Prop :=
  (∃ x, HeaderWcs w d x ∧ w.dumpsWcs (some x) = .ok t) ∨
  ((∀ x, ¬ HeaderWcs w d x) ∧ (∃ v, At d ["affine_wcs_config"] v) ∧ w.dumpsWcs none = .ok t)

/-- Row `r` of `image_info` describes the coadd. -/
structure DescribesCoadd (w : ProgWorld σ P V ρ) (info : Yaml) (r : InfoRow) : Prop where
  id : r.nums.imageId = 0
  flags : At info ["image_flags"] (.int r.nums.imageFlags)
  magzp : ∃ v q, At info ["magzp"] v ∧ IsNumber v q ∧ r.nums.magzp = w.f4 q
  scale : ∃ v q, At info ["scale"] v ∧ IsNumber v q ∧ r.nums.scale = w.f4 q
  offset : ∃ v, At info ["position_offset"] v ∧ IsNumber v r.nums.positionOffset
  paths : r.paths = ⟨[], [], [], [], [], [], [], []⟩
  wcs : ∃ t, WcsStored w info t ∧ ((∀ u, t ≠ u ++ ['\x00']) → r.wcs = t)

/-- Row `r` of `image_info` describes source number `k`. -/
structure DescribesSrc (w : ProgWorld σ P V ρ) (cfg d : Yaml) (k : Nat) (r : InfoRow) : Prop where
  id : r.nums.imageId = k + 1
  flags : ∃ n : Nat, r.nums.imageFlags = n ∧ ∀ b, n.testBit b = true ↔ FlagBit cfg d b
  magzp : ∃ v q, At d ["magzp"] v ∧ IsNumber v q ∧ r.nums.magzp = w.f4 q
  scale : ∃ v q, At d ["scale"] v ∧ IsNumber v q ∧ r.nums.scale = w.f4 q
  offset : ∃ v, At d ["position_offset"] v ∧ IsNumber v r.nums.positionOffset
  imagePath : StoresText d "image_path" r.paths.imagePath
  bkgPath : StoresText d "bkg_path" r.paths.bkgPath
  weightPath : StoresText d "weight_path" r.paths.weightPath
  bmaskPath : StoresText d "bmask_path" r.paths.bmaskPath
  imageExt : ∃ t, StoresText d "image_ext" t ∧ (t.length ≤ 3 → r.paths.imageExt = t)
  bkgExt : ∃ t, StoresText d "bkg_ext" t ∧ (t.length ≤ 3 → r.paths.bkgExt = t)
  weightExt : ∃ t, StoresText d "weight_ext" t ∧ (t.length ≤ 3 → r.paths.weightExt = t)
  bmaskExt : ∃ t, StoresText d "bmask_ext" t ∧ (t.length ≤ 3 → r.paths.bmaskExt = t)
  wcs : ∃ t, WcsStored w d t ∧ ((∀ u, t ≠ u ++ ['\x00']) → r.wcs = t)

/-- No text of the source ends in a NUL character. -/
def PlainTexts (d : Yaml) : Prop :=
  ∀ key ∈ ["image_path", "image_ext", "bkg_path", "bkg_ext", "weight_path", "weight_ext", "bmask_path", "bmask_ext"],
    ∀ s, At d [key] (.str s) → ∀ t, s.toList ≠ t ++ ['\x00']

/-- The directory that is worked in. -/
def workDir (useTmp : Bool) (tmpdir : Option FPath) (dflt : FPath) (name : String) : Option FPath :=
  if useTmp = true ∨ tmpdir.isSome = true then some (tmpdir.getD dflt ++ [name]) else none

/-- The masks of the sources are files of their own, and sources with the same mask are of the same CCD. -/
structure OwnMasks (srcs : List Yaml) : Prop where
  apart : ∀ d ∈ srcs, ∀ d' ∈ srcs, ∀ p e, At d ["bmask_path"] p → At d ["bmask_ext"] e →
    ¬ (At d' ["image_path"] p ∧ At d' ["image_ext"] e) ∧ ¬ (At d' ["bkg_path"] p ∧ At d' ["bkg_ext"] e) ∧
    ¬ (At d' ["weight_path"] p ∧ At d' ["weight_ext"] e)
  ccd : ∀ d ∈ srcs, ∀ d' ∈ srcs, ∀ p e n n', At d ["bmask_path"] p → At d ["bmask_ext"] e → At d' ["bmask_path"] p →
    At d' ["bmask_ext"] e → At d ["ccdnum"] n → At d' ["ccdnum"] n' → n = n'

/-- The tile `u` is `t` with some seeds and slices. -/
def Seeded {A S : Type} (t u : Tile A S P) : Prop :=
  List.Forall₂ (fun e f : Entry P => ∃ l n, f = { e with noiseSeeds := l, piffSeed := n }) t.entries u.entries ∧
    { u with entries := t.entries, objects := t.objects } = t

/-- The hash of the text of an SE image tells its WCS and position offset, among the SE images of the tile. -/
def HashTells {A S : Type} (w : ProcWorld A σ S P) (t : Tile A S P) : Prop :=
  ∀ n u e n' u' e', Seeded t u → e ∈ u.entries → Seeded t u' → e' ∈ u'.entries → w.hash n u e = w.hash n' u' e' →
    e.offset = e'.offset ∧ (seWcs w.disk e.src t.wcs).out = (seWcs w.disk e'.src t.wcs).out

/-- Libraries do what they should: noise has the shape of the weights, interpolation keeps the shape, the measured widths
are positive, conversions keep the sign, sorting sorts, a new table has its rows. -/
structure SoundWorld (w : ProgWorld σ P V ρ) : Prop where
  noise : ∀ color seed a, ((w.proc color).memNoise seed a).nrow = a.nrow ∧ ((w.proc color).memNoise seed a).ncol = a.ncol
  keeps : ∀ color, (w.proc color).ext.KeepsShape
  fwhm : ∀ color im x, (w.proc color).ext.fwhm im = .ok x → 0 < x
  ops : w.ops.KeepsSign
  argsort : IsArgsort w.argsort
  rows0 : ∀ n, (w.rows0 n).length = n

/-- The configured sizes can be used. -/
structure SoundSizes (co : CoaddOptions) (so : SliceOptions) (box psfBox : Nat) : Prop where
  size : (box : ℤ) = co.central + 2 * co.buffer
  sizePos : 1 ≤ box
  psfSize : (psfBox : ℤ) = co.psfBox
  psfOdd : psfBox % 2 = 1
  frac : 1 ≤ so.frac

/-- The files of every SE image have its shape. -/
def SoundFiles (w : ProcWorld ℚ σ Yaml P) (so : SliceOptions) (k : Looked P) : Prop :=
  ∀ x ∈ k.srcs, ∀ con, (seInit w.disk x.2.src x.2.offset (.named so.wcsType) (.named so.psfType)).out = .ok con →
    (∀ im, w.original x.2.image = .ok im → im.dims = con.shape) ∧
    (∀ im, w.original x.2.bmask = .ok im → im.dims = con.shape) ∧
    (∀ im, w.original x.2.weight = .ok im → im.dims = con.shape)

/-- What the program writes into the FITS file: images, the slices, the epochs, which are all of sources without flags, the
configuration, the description, a row for the coadd and one for every source.  `Plain` texts do not end in a NUL character. -/
structure WritesFile (w : ProgWorld σ P V ρ) (text : PyStr) (cfg info : Yaml) (srcs : List Yaml) (ss : List Section) :
    Prop where
  parts : ∃ (hdus : List (Hdu Flt)) (objs : List (ObjRow × RunRow)) (eps : List EpochRow) (md : Metadata) (bytes : List Nat)
    (rows : List InfoRow) (stars : List Section),
    ss = hdus.map .image ++ [.objectData objs, .epochsInfo eps, .metadata md, .tileInfo bytes, .imageInfo rows] ++ stars ∧
    (∀ r ∈ eps, ∃ (k : Nat) (d : Yaml), srcs[k]? = some d ∧ r.imageId = k + 1 ∧ ∀ b, ¬ FlagBit cfg d b) ∧
    ((∀ t, text ≠ t ++ ['\x00']) → md.config = text) ∧ w.environ "MEDS_DIR" ≠ none ∧
    (∀ x ∈ bytes, x < 128) ∧ bytes.map Char.ofNat = w.dumps info ∧
    rows.length = srcs.length + 1 ∧ (∀ r, rows[0]? = some r → DescribesCoadd w info r) ∧
    ∀ (k : Nat) d r, srcs[k]? = some d → rows[k + 1]? = some r → DescribesSrc w cfg d k r

/-- What is assumed of a request: masks are files of their own, hashes tell SE images apart, texts are plain, sizes can be
used, and the files of every SE image have its shape. -/
structure GoodRequest (w : ProgWorld σ P V ρ) (a : GoArgs) (work : Option FPath) : Prop where
  good : ∀ cfg info srcs c k s so, Calls w a cfg info srcs c → LooksUp cfg c k → Needs w a cfg c s so →
    OwnMasks srcs ∧ HashTells (w.proc so.wcsColor) (goTile w a work c k so) ∧ (∀ d ∈ srcs, PlainTexts d) ∧
    (∃ box psfBox, SoundSizes k.co so box psfBox) ∧ SoundFiles (w.proc so.wcsColor) so k

/-- The process of a program that has just been started. -/
def NewProcess (w : ProgWorld σ P V ρ) (st : Proc P) : Prop :=
  ∀ color, ∃ sizes count, st = Proc.fresh sizes (w.proc color).arrays count

/-- Source number `n`, described by `d`, as it is used for the slices: flags as for `image_info`, numbers, files, and what the
constructor of an SE image looks at. -/
structure EntryFrom (w : ProgWorld σ P V ρ) (cfg d : Yaml) (n : Nat) (e : Entry P) : Prop where
  id : e.imageId = n + 1
  flags : ∃ m : Nat, e.imageFlags = m ∧ ∀ b, m.testBit b = true ↔ FlagBit cfg d b
  magzp : ∃ v, At d ["magzp"] v ∧ IsNumber v e.magzp
  offset : ∃ v, At d ["position_offset"] v ∧ IsNumber v e.offset
  image : ∃ p x, StoresText d "image_path" p ∧ StoresText d "image_ext" x ∧ e.image = .file (p, x)
  bkg : ∃ p x, StoresText d "bkg_path" p ∧ StoresText d "bkg_ext" x ∧ e.bkg = .file (p, x)
  bmask : ∃ p x, StoresText d "bmask_path" p ∧ StoresText d "bmask_ext" x ∧ e.bmask = .file (p, x)
  weight : ∃ p x, StoresText d "weight_path" p ∧ StoresText d "weight_ext" x ∧ e.weight = .file (p, x)
  imagePath : MaybeAt IsText d ["image_path"] e.src.imagePath
  imageExt : MaybeAt IsText d ["image_ext"] e.src.imageExt
  headPath : ∃ o, MaybeAt (IsOptional IsText) d ["head_path"] o ∧ e.src.headPath = o.join
  piffPath : ∃ o, MaybeAt (IsOptional IsText) d ["piff_path"] o ∧ e.src.piffPath = o.join
  psfexPath : ∃ o, MaybeAt (IsOptional IsText) d ["psfex_path"] o ∧ e.src.psfexPath = o.join
  ccdnum : MaybeAt (fun y n => y = .int n) d ["ccdnum"] e.src.ccdnum
  affine : ∃ o, MaybeAt Eq d ["affine_wcs_config"] o ∧ BuiltFrom w.load.affine o none e.src.affineWcs
  galsim : ∃ o, MaybeAt Eq d ["galsim_psf_config"] o ∧ BuiltPsf w.load o none e.src.galsimPsf
  shape : ∃ o, MaybeAt (fun y n => y = .list (n.map .int)) d ["image_shape"] o ∧ IsShape o e.src.imageShape

/-- The text of an absolute path: every component after a slash. -/
inductive SpellsPath : FPath → PyStr → Prop
  | nil : SpellsPath [] []
  | snoc {p t c} : SpellsPath p t → SpellsPath (p ++ [c]) (t ++ '/' :: c.toList)

/-- The call `q` is the one that the command line and the two input files ask for. -/
structure MadeFrom (w : ProgWorld σ P V ρ) (a : GoArgs) (work : Option FPath) (cfg info : Yaml) (srcs : List Yaml)
    (q : MakeP ℚ σ Yaml P WcsObj ρ) : Prop where
  config : ∃ text, InputsAre w a text cfg info ∧ q.args.config = text
  json : q.args.json = w.dumps info
  names : ∃ tilename band, StoresText info "tilename" tilename ∧ StoresText info "band" band ∧
    q.args.digest = w.sha (tilename ++ band) ∧
    ∃ t₀, TileFrom q.tile.gaiaPath.isSome cfg (String.ofList band) w.render [] t₀ q.tile
  entries : q.tile.entries.length = srcs.length ∧
    ∀ (n : Nat) d e, srcs[n]? = some d → q.tile.entries[n]? = some e → EntryFrom w cfg d n e
  wcs : ∃ l c s x, LoadView info l ∧ LoadedCoadd w.load l c ∧ At cfg ["coadd", "wcs_type"] (.str s) ∧ CoaddWcs c s x ∧
    q.tile.fwd = x.fwd ∧ q.tile.inv = x.inv ∧ q.tile.celestial = x.isCelestial ∧ q.tile.key = w.wcsHash x ∧
    q.args.jac = x.jac
  offset : ∃ v, At info ["position_offset"] v ∧ IsNumber v q.tile.offset
  gaia : ∃ o, MaybeAt (IsOptional IsText) info ["gaia_stars_file"] o ∧ q.tile.gaiaPath = o.join
  extra : q.tile.nExtra = a.nExtra
  central : At cfg ["coadd", "central_size"] (.int q.args.central)
  buffer : At cfg ["coadd", "buffer_size"] (.int q.args.buffer)
  psfBox : At cfg ["coadd", "psf_box_size"] (.int q.args.psfBox)
  shape : ∃ o, MaybeAt (fun y n => y = .list (n.map .int)) info ["image_shape"] o ∧ IsShape o q.args.imageShape
  header : ∀ p e, StoresText info "image_path" p → StoresText info "image_ext" e → q.args.header = w.sizes p e
  color : ∃ v x, At cfg ["single_epoch", "wcs_color"] v ∧ IsNumber v x ∧ q.world = w.proc x
  seed : ∃ n : Nat, n < 2 ^ 32 ∧ a.seed = n ∧ q.args.randState = w.rng n
  range : (a.sliceRange = none → q.args.range = .none) ∧ ∀ r, a.sliceRange = some r → q.args.range = .str r
  pars : FpackFrom w.fpackText cfg q.args.pars
  jobs : q.args.nJobs = a.nJobs ∧ q.args.nChunks = a.nChunks
  work : (work = none → q.tile.tmpdir = none) ∧ ∀ t, work = some t → ∃ s, q.tile.tmpdir = some s ∧ SpellsPath t s
  libraries : q.args.environ = w.environ ∧ q.args.versions = w.versions ∧ q.args.f4 = w.f4 ∧ q.args.rows0 = w.rows0 ∧
    q.args.dist = w.dist ∧ q.args.argsort = w.argsort ∧ q.args.rand = w.rand ∧ q.args.ops = w.ops

end Pizza
