import Verif.Model.Cli
import Verif.Model.CliRun
import Verif.Model.Config
import Verif.Model.LoadInfo
import Verif.Model.MakeProc

/-!
The program `bin/des-pizza-cutter` as a whole: from the texts of its two input files to what it does on the file system.

`yaml.load` gives a value (`Yaml`); the functions below look up what each step takes from it.  A value of a type other
than the one used here raises a TypeError where it is looked up (in Python where it is first used, or not at all).  The
value null for `head_path`, `piff_path` and `psfex_path` is here like a missing entry for the SE images that need it (a
KeyError instead of a TypeError).  Numbers of jobs, of chunks and of extra noise images are not negative.
-/

namespace Pizza

/-! ### what the steps take from the description -/

/-- A text, as a list of characters. -/
def Yaml.asText (y : Yaml) : Except Err PyStr := y.asStr.map String.toList

/-- A number that need not be finite (_piff_tools.py:131-149). -/
def Yaml.asStat (y : Yaml) : Except Err Stat :=
  match y with
  | .nan => .ok none
  | y => y.asNum.map some

/-- `d[k]`, used as a value of some type. -/
def Yaml.key {α : Type} (d : Yaml) (k : String) (f : Yaml → Except Err α) : Except Err α := do
  let v ← d.item k
  f v

/-- The entries of the coadd or of a source with what `load_objects_into_info` adds; the whole is in `rest`. -/
abbrev Loaded (P : Type) := LoadSrc WcsObj P Yaml Yaml

/-- What `load_objects_into_info` looks at (_load_info.py:70-207). -/
def loadSrcOf {P : Type} (d : Yaml) : Except Err (Loaded P) := do
  let path ← d.optItem "path" Yaml.asText
  let filename ← d.optItem "filename" Yaml.asText
  let imagePath ← d.optItem "image_path" Yaml.asText
  let imageExt ← d.optItem "image_ext" Yaml.asText
  let headPath ← d.optItem "head_path" (Yaml.asOpt Yaml.asText)
  let ccdnum ← d.optItem "ccdnum" Yaml.asInt
  let affineCfg ← d.optItem "affine_wcs_config" pure
  let galsimCfg ← d.optItem "galsim_psf_config" pure
  let psfexPath ← d.optItem "psfex_path" (Yaml.asOpt Yaml.asText)
  let piffPath ← d.optItem "piff_path" (Yaml.asOpt Yaml.asText)
  let imageShape ← d.optItem "image_shape" (Yaml.asList Yaml.asInt)
  pure { path := path, filename := filename, imagePath := imagePath, imageExt := imageExt, headPath := headPath.join
         ccdnum := ccdnum, affineCfg := affineCfg, galsimCfg := galsimCfg, psfexPath := psfexPath, piffPath := piffPath
         imageShape := imageShape, rest := d, imageId := none, affineWcs := none, galsimPsf := none, imageWcs := none
         headWcs := none, psfexPsf := none, piffPsf := none, piffWcs := none, pixmappyWcs := none }

/-- `ii["piff_info"]` (_piff_tools.py:73-83, 126-149).  All entries are looked up, in the code only those that a cut
needs. -/
def piffInfoOf (d : Yaml) : Except Err PiffInfo := do
  let flags ← d.key "desdm_flags" Yaml.asInt
  let fwhm ← d.key "fwhm_cen" Yaml.asStat
  let std ← d.key "star_t_std" Yaml.asStat
  let mean ← d.key "star_t_mean" Yaml.asStat
  let nstar ← d.key "nstar" Yaml.asInt
  let expMean ← d.key "exp_star_t_mean" Yaml.asStat
  let expStd ← d.key "exp_star_t_std" Yaml.asStat
  pure ⟨flags, fwhm, std, mean, nstar, expMean, expStd⟩

/-- What `flag_data_in_info` looks at (_des_info.py:50-69).  `image_flags` and `ccdnum` are looked up in any case, in the
code only when they are needed (both are needed later, _des_info.py:268 and _pizza_cutter.py:974). -/
def flagSrcOf {P : Type} (l : Loaded P) : Except Err (FlagSrc (Loaded P)) := do
  let flags ← l.rest.key "image_flags" Yaml.asNat
  let piff ← l.rest.optItem "piff_info" piffInfoOf
  let ccd ← lookup l.ccdnum
  pure ⟨flags, piff, ccd, l.path.isSome, l.filename.isSome, l⟩

/-- `flag_data_in_info(info=info, config=cfg)` (bin/des-pizza-cutter:42): an exception ends the program. -/
def flagAll {R : Type} (cfg : Option FlagCfg) (l : List (FlagSrc R)) : Except Err (List (FlagSrc R)) :=
  match flagDataInInfo cfg l with
  | (m, none) => .ok m
  | (_, some e) => .error e

/-- A path: missing, null or a text. -/
def pathsOf (d : Yaml) (keys : List String) : Except Err (List (String × Option (Option PyStr))) :=
  keys.mapM fun k => do
    let v ← d.optItem k (Yaml.asOpt Yaml.asText)
    pure (k, v)

/-- What `check_info` looks at in a source (_des_info.py:228-301). -/
def checkSrcOf (d : Yaml) : Except Err CheckSrc := do
  let paths ← pathsOf d (seKeys ++ ["head_path"])
  let band ← d.optItem "band" Yaml.asText
  let tilename ← d.optItem "tilename" Yaml.asText
  let expnum ← d.optItem "expnum" Yaml.asNat
  let ccdnum ← d.optItem "ccdnum" Yaml.asNat
  pure ⟨fun k => (paths.lookup k).join, band, tilename, expnum, ccdnum⟩

/-- What `check_info` looks at (_des_info.py:194-313). -/
def checkInfoOf (info : Yaml) (srcs : List Yaml) : Except Err CheckInfo := do
  let paths ← pathsOf info (coaddKeys ++ ["cat_path"])
  let scale ← info.optItem "scale" Yaml.asNum
  let band ← info.optItem "band" Yaml.asText
  let srcs ← srcs.mapM checkSrcOf
  pure ⟨fun k => (paths.lookup k).join, scale, band, srcs⟩

/-- The numbers of an image (_pizza_cutter.py:959-963, 974-977), given its flags. -/
def numsOf {P : Type} (l : Loaded P) (flags : ℤ) : Except Err InfoNums := do
  let id ← lookup l.imageId
  let magzp ← l.rest.key "magzp" Yaml.asNum
  let scale ← l.rest.key "scale" Yaml.asNum
  let off ← l.rest.key "position_offset" Yaml.asNum
  pure ⟨id, flags, magzp, scale, off⟩

/-- The numbers of the coadd (_pizza_cutter.py:959-963). -/
def coaddNumsOf {P : Type} (l : Loaded P) : Except Err InfoNums := do
  let flags ← l.rest.key "image_flags" Yaml.asInt
  numsOf l flags

/-- The paths of an image (_pizza_cutter.py:942-949, 969-972). -/
def infoPathsOf (d : Yaml) : Except Err InfoPaths := do
  let a ← d.key "image_path" Yaml.asText
  let b ← d.key "image_ext" Yaml.asText
  let c ← d.key "bkg_path" Yaml.asText
  let e ← d.key "bkg_ext" Yaml.asText
  let f ← d.key "weight_path" Yaml.asText
  let g ← d.key "weight_ext" Yaml.asText
  let h ← d.key "bmask_path" Yaml.asText
  let i ← d.key "bmask_ext" Yaml.asText
  pure { imagePath := a, imageExt := b, bkgPath := c, bkgExt := e, weightPath := f, weightExt := g, bmaskPath := h
         bmaskExt := i }

/-- `image_shape` as two numbers (_load_info.py:96-98, 111-112). -/
def shapePair (o : Option (List ℤ)) : Except Err (Option (Nat × Nat)) :=
  match o with
  | none => .ok none
  | some [.ofNat a, .ofNat b] => .ok (some (a, b))
  | some _ => .error .typeError

/-- A source as `_build_image_info` (_pizza_cutter.py:921-984) and the processing of slices (_coadd_slices.py:214-236,
_se_image.py:540-724) see it, after it was flagged. -/
def sourceOf {P : Type} (s : FlagSrc (Loaded P)) : Except Err (InfoSrc WcsObj × Entry P) := do
  let p ← infoPathsOf s.rest.rest
  let n ← numsOf s.rest s.imageFlags
  let shape ← shapePair s.rest.imageShape
  pure
    ({ paths := p, nums := n, imageWcs := s.rest.imageWcs, affine := s.rest.affineCfg.isSome },
     { src := { imagePath := s.rest.imagePath, imageExt := s.rest.imageExt, headPath := s.rest.headPath
                affineWcs := s.rest.affineWcs, piffPath := s.rest.piffPath.join, ccdnum := s.rest.ccdnum
                galsimPsf := s.rest.galsimPsf, psfexPath := s.rest.psfexPath.join, imageShape := shape }
       imageFlags := s.imageFlags, imageId := n.imageId, magzp := n.magzp, offset := n.positionOffset
       noiseSeeds := [], piffSeed := 0
       image := .file (p.imagePath, p.imageExt), bkg := .file (p.bkgPath, p.bkgExt)
       bmask := .file (p.bmaskPath, p.bmaskExt), weight := .file (p.weightPath, p.weightExt) })

/-- `info['%s_wcs' % coadd_config['wcs_type']]` (_pizza_cutter.py:172, 177): there are `image_wcs` and, if configured,
`affine_wcs`; `image_wcs` can be None, then its first method call raises. -/
def coaddWcsOf {P : Type} (c : Loaded P) (wcsType : String) : Except Err WcsObj :=
  if wcsType = "image" then
    match c.imageWcs with
    | none => .error .keyError
    | some none => .error .attributeError
    | some (some w) => .ok w
  else if wcsType = "affine" then lookup c.affineWcs
  else .error .keyError

/-! ### the program -/

/-- The arguments of the command line (bin/des-pizza-cutter:19-22). -/
structure GoArgs where
  config : PyStr
  info : PyStr
  tag : Option PyStr
  output : PyStr
  logLevel : PyStr
  seed : ℤ
  sliceRange : Option PyStr
  nJobs : Nat
  nChunks : Option Nat
  nExtra : Nat

/-- What is outside of the program: the log levels, the input files as text, `yaml.load`, `json.dumps`, the texts of PSF
keywords and fpack parameters; what `load_objects_into_info` reads; files and libraries for the slices, given the colour
for the WCS; environment, versions and constructors for the tables; the curve, the sorting, the random numbers
(`rng seed` is the state of `RandomState(seed)`), pixel operations; SHA1; `json.dumps(eval(str(wcs)))` and the hash of a
WCS; the sizes in a header; `expand` makes an absolute path of a name. -/
structure ProgWorld (σ P V ρ : Type) where
  level : PyStr → Except Err Unit
  readText : PyStr → Except Err PyStr
  parse : PyStr → Except Err Yaml
  dumps : Yaml → PyStr
  render : Yaml → PyStr
  fpackText : Yaml → String
  load : World V WcsObj P Yaml
  proc : ℚ → ProcWorld ℚ σ Yaml P
  environ : String → Option PyStr
  versions : Versions
  f4 : ℚ → ℚ
  rows0 : Nat → List RunRow
  dist : ℤ → ℤ → Nat
  argsort : List Nat → List Nat
  rand : RandInt ρ
  rng : Nat → ρ
  ops : PixelOps Flt
  sha : PyStr → ℤ
  dumpsWcs : Option WcsObj → Except Err PyStr
  wcsHash : WcsObj → ℤ
  sizes : PyStr → PyStr → Except Err (String → Option ℤ)
  expand : PyStr → FPath

variable {σ P V ρ : Type}

/-- What `make_des_pizza_slices` is called with (bin/des-pizza-cutter:77-96). -/
structure Called (P : Type) where
  configText : PyStr
  json : PyStr
  meds : PyStr
  pars : Option (List (String × String))
  coaddCfg : Yaml
  seCfg : Yaml
  tilename : PyStr
  band : PyStr
  coadd : Loaded P
  srcs : List (FlagSrc (Loaded P))
  gaia : Option PyStr

/-- `cfg.get('fpack_pars', None)` (bin/des-pizza-cutter:83). -/
def fpackOf (text : Yaml → String) (cfg : Yaml) : Except Err (Option (List (String × String))) := do
  let v ← cfg.optItem "fpack_pars" pure
  match v with
  | none => pure none
  | some .null => pure none
  | some (.dict l) => pure (some (l.map fun e => (e.1, text e.2)))
  | some _ => .error .typeError

/-- `go` up to the call of `make_des_pizza_slices` (bin/des-pizza-cutter:25-92). -/
def readGo (w : ProgWorld σ P V ρ) (a : GoArgs) : Except Err (Called P) := do
  w.level (pyUpper a.logLevel)
  let text ← w.readText a.config
  let cfg ← w.parse text
  let itext ← w.readText a.info
  let info ← w.parse itext
  let tilename ← info.key "tilename" Yaml.asText
  let band ← info.key "band" Yaml.asText
  let srcs ← info.key "src_info" (Yaml.asList pure)
  let c0 ← loadSrcOf info
  let l0 ← srcs.mapM loadSrcOf
  let cl ← loadObjects w.load true c0 l0
  let fc ← flagOptions cfg
  let fl ← cl.2.mapM flagSrcOf
  let fl ← flagAll fc fl
  let ci ← checkInfoOf info srcs
  checkInfo ci
  let meds ← medsPath ⟨a.output, a.config, a.tag, a.sliceRange, tilename, band⟩
  let pars ← fpackOf w.fpackText cfg
  let coadd ← cfg.item "coadd"
  let se ← cfg.item "single_epoch"
  let gaia ← info.optItem "gaia_stars_file" (Yaml.asOpt Yaml.asText)
  pure ⟨text, w.dumps info, meds, pars, coadd, se, tilename, band, cl.1, fl, gaia.join⟩

/-- What `make_des_pizza_slices` looks up before it writes anything (_pizza_cutter.py:156-179).  Here all is looked up
first. -/
structure Looked (P : Type) where
  nums : InfoNums
  srcs : List (InfoSrc WcsObj × Entry P)
  shape : Option (Nat × Nat)
  co : CoaddOptions
  wcs : WcsObj

/-- _pizza_cutter.py:156-179, 921-984. -/
def lookUp (c : Called P) : Except Err (Looked P) := do
  let nums ← coaddNumsOf c.coadd
  let srcs ← c.srcs.mapM sourceOf
  let shape ← shapePair c.coadd.imageShape
  let co ← coaddOptions c.coaddCfg
  let wcs ← coaddWcsOf c.coadd co.wcsType
  pure ⟨nums, srcs, shape, co, wcs⟩

/-- `np.random.RandomState(seed=seed)` (_pizza_cutter.py:549): seeds are numbers of 32 bits. -/
def seedState (rng : Nat → ρ) (seed : ℤ) : Except Err ρ :=
  if 0 ≤ seed ∧ seed < 2 ^ 32 then .ok (rng seed.toNat) else .error .valueError

/-- What is needed while the FITS file is written (_pizza_cutter.py:549, 314-398): the random numbers, and for the first
slice the options for SE images. -/
def needLater (w : ProgWorld σ P V ρ) (a : GoArgs) (c : Called P) : Except Err (ρ × SliceOptions) := do
  let s ← seedState w.rng a.seed
  let so ← sliceOptions c.gaia.isSome c.seCfg (String.ofList c.band)
  pure (s, so)

/-- The text of an absolute path. -/
def tmpText (t : FPath) : PyStr := t.flatMap fun c => '/' :: c.toList

/-- The tile (_pizza_cutter.py:179-205, 296-414); what is set per slice is empty. -/
def goTile (w : ProgWorld σ P V ρ) (a : GoArgs) (tmpdir : Option FPath) (c : Called P) (k : Looked P) (so : SliceOptions) :
    Tile ℚ Yaml P :=
  tileWith k.co so w.render []
    { entries := k.srcs.map Prod.snd
      wcs := .named so.wcsType
      psf := .named so.psfType
      kwargs := []
      tapeBumps := false
      piffCheck := none
      tmpdir := tmpdir.map tmpText
      seDelta := 0
      coaddDelta := 0
      fwd := k.wcs.fwd
      inv := k.wcs.inv
      celestial := k.wcs.isCelestial
      key := w.wcsHash k.wcs
      offset := k.nums.positionOffset
      shape := k.shape.getD (0, 0)
      cfg := { boxSize := 0, fracBuffer := 0, startRow := 0, startCol := 0, coaddingWeight := .unknown
               rejectOutliers := false, symmetrize := .off, copyEdges := false, noiseFlags := 0, splineFlags := 0
               badImageFlags := 0, maxMaskedFraction := 0, edgeBuffer := 0, gaia := none }
      gaiaPath := c.gaia
      gaiaCfg := none
      nExtra := a.nExtra
      objects := [] }

/-- The arguments of the call, together with what is outside (_pizza_cutter.py:78-94). -/
def goMake (w : ProgWorld σ P V ρ) (a : GoArgs) (tmpdir : Option FPath) (c : Called P) (k : Looked P) (s : ρ)
    (so : SliceOptions) : MakeP ℚ σ Yaml P WcsObj ρ where
  args :=
    { environ := w.environ
      versions := w.versions
      config := c.configText
      json := c.json
      io := ⟨fun p e => w.load.readHeader p e >>= fun h => w.load.mkWcs (mungeHeader h), w.dumpsWcs⟩
      f4 := w.f4
      coaddNums := k.nums
      coaddWcs := c.coadd.imageWcs.join
      srcs := k.srcs.map Prod.fst
      imageShape := k.shape
      header := do
        let p ← lookup c.coadd.imagePath
        let e ← lookup c.coadd.imageExt
        w.sizes p e
      central := k.co.central
      buffer := k.co.buffer
      psfBox := k.co.psfBox
      jac := k.wcs.jac
      slice := planEnv (w.proc so.wcsColor) (goTile w a tmpdir c k so)
      sourcesOf := fun _ _ _ _ _ => []
      rows0 := w.rows0
      range := match a.sliceRange with
        | none => .none
        | some r => .str r
      dist := w.dist
      argsort := w.argsort
      rand := w.rand
      randState := s
      ops := w.ops
      pars := c.pars
      nJobs := a.nJobs
      nChunks := a.nChunks
      digest := w.sha (c.tilename ++ c.band) }
  world := w.proc so.wcsColor
  tile := goTile w a tmpdir c k so
  same := by simp [goTile, tileWith]

/-- `go` (bin/des-pizza-cutter:19-96) in a process: the programs on the file system that it may be.  If the seed is not
allowed or an option for SE images is missing, the exception comes while the FITS file is written, unless there is another
one before; what has been written then is left open.  A source without `path` or `filename` raises a KeyError when a
message about it is made (_coadd_slices.py:243-247, 288-292), which depends on the slices. -/
inductive GoRun {D : Type} (w : ProgWorld σ P V ρ) (a : GoArgs) (sto : Storage D) (env : FsEnv D) (valid : D → Bool)
    (tmpdir : Option FPath) (st : Proc P) : FM D Unit → Prop
  | read (e) : readGo w a = .error e → GoRun w a sto env valid tmpdir st (FM.raise e)
  | looked (c e) : readGo w a = .ok c → lookUp c = .error e → GoRun w a sto env valid tmpdir st (FM.raise e)
  | later (c k e e') : readGo w a = .ok c → lookUp c = .ok k → needLater w a c = .error e →
      GoRun w a sto env valid tmpdir st (FM.raise e')
  | laterWriting (c k e e' ss) : readGo w a = .ok c → lookUp c = .ok k → needLater w a c = .error e →
      GoRun w a sto env valid tmpdir st
        (publishRun env (w.expand c.meds) tmpdir ⟨sto.plain ss, some e'⟩ (sto.fpack (hashToInt (w.sha (c.tilename ++ c.band))) ss)
          (cliRemoveFits a.logLevel tmpdir) valid)
  | unnamed (c k s so ss) : readGo w a = .ok c → lookUp c = .ok k → needLater w a c = .ok (s, so) →
      (∃ f ∈ c.srcs, f.hasPath = false ∨ f.hasFilename = false) →
      GoRun w a sto env valid tmpdir st
        (publishRun env (w.expand c.meds) tmpdir ⟨sto.plain ss, some .keyError⟩
          (sto.fpack (hashToInt (w.sha (c.tilename ++ c.band))) ss) (cliRemoveFits a.logLevel tmpdir) valid)
  | run (c k s so act st') : readGo w a = .ok c → lookUp c = .ok k → needLater w a c = .ok (s, so) →
      MakeRunP (goMake w a tmpdir c k s so) sto env (w.expand c.meds) tmpdir (cliRemoveFits a.logLevel tmpdir) valid st
        act st' →
      GoRun w a sto env valid tmpdir st act

/-- `main` (bin/des-pizza-cutter:154-172), see `cliMain`. -/
inductive MainRun {D : Type} (w : ProgWorld σ P V ρ) (a : GoArgs) (sto : Storage D) (env : FsEnv D) (valid : D → Bool)
    (useTmp : Bool) (tmpdir : Option FPath) (dflt : FPath) (name : String) (st : Proc P) : FM D Unit → Prop
  | tmp (act) : (useTmp = true ∨ tmpdir.isSome = true) →
      GoRun w a sto env valid (some (tmpdir.getD dflt ++ [name])) st act →
      MainRun w a sto env valid useTmp tmpdir dflt name st (withTempDir (tmpdir.getD dflt) name fun _ => act)
  | plain (act) : ¬ (useTmp = true ∨ tmpdir.isSome = true) → GoRun w a sto env valid none st act →
      MainRun w a sto env valid useTmp tmpdir dflt name st act

end Pizza
