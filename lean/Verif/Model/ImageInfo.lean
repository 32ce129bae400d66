import Verif.Model.CheckInfo

/-!
The tables of strings: `_build_image_info`, `_build_metadata` and `_hash_to_int`
(pizza_cutter/des_pizza_cutter/_pizza_cutter.py:64-70, 908-1031).

A numpy field of type `U<n>` keeps the first `n` characters of what is assigned to it, and drops the
NUL characters at the end when it is read.  How fitsio stores the tables is not modelled.  The table
made by `meds.util.get_image_info_struct(n, path_len, wcs_len=..., ext_len=...)` has `n` rows, paths of
type `U<path_len>`, extension names of type `U<ext_len>` and WCS of type `U<wcs_len>`.
-/

namespace Pizza

/-- The value read from a `U<n>` field after `s` was assigned. -/
def npStr (n : Nat) (s : PyStr) : PyStr := ((s.take n).reverse.dropWhile (· = '\x00')).reverse

/-- The strings of a source (_pizza_cutter.py:969-972). -/
structure InfoPaths where
  imagePath : PyStr
  imageExt : PyStr
  weightPath : PyStr
  weightExt : PyStr
  bmaskPath : PyStr
  bmaskExt : PyStr
  bkgPath : PyStr
  bkgExt : PyStr
  deriving DecidableEq

/-- The numbers of an image (_pizza_cutter.py:959-963, 973-977). -/
structure InfoNums where
  imageId : ℤ
  imageFlags : ℤ
  magzp : ℚ
  scale : ℚ
  positionOffset : ℚ
  deriving DecidableEq

/-- An entry of `src_info`, with what its key `image_wcs` has, and whether an affine WCS is configured. -/
structure InfoSrc (W : Type) where
  paths : InfoPaths
  nums : InfoNums
  imageWcs : Option (Option W)
  affine : Bool

/-- A row of `image_info`. -/
structure InfoRow where
  paths : InfoPaths
  nums : InfoNums
  wcs : PyStr
  deriving DecidableEq

/-- Reading the WCS of an image, and `json.dumps(eval(str(wcs)))`; both may raise. -/
structure WcsIO (W : Type) where
  load : PyStr → PyStr → Except Err W
  dumps : Option W → Except Err PyStr

/-- `_noerr_load_image_wcs` (_pizza_cutter.py:908-918). -/
def noerrLoad {W : Type} (io : WcsIO W) (se : InfoSrc W) : Except Err (Option W) :=
  match se.imageWcs with
  | some w => .ok w
  | none =>
    match io.load se.paths.imagePath se.paths.imageExt with
    | .ok w => .ok (some w)
    | .error e => if se.affine = true then .ok none else .error e

/-- The text of the WCS of a source (_pizza_cutter.py:928-930, 978-980). -/
def wcsText {W : Type} (io : WcsIO W) (se : InfoSrc W) : Except Err PyStr := noerrLoad io se >>= io.dumps

/-- The texts of all sources. -/
def wcsTexts {W : Type} (io : WcsIO W) : List (InfoSrc W) → Except Err (List PyStr)
  | [] => .ok []
  | se :: l => do
    let t ← wcsText io se
    let ts ← wcsTexts io l
    pure (t :: ts)

/-- The lengths of the strings of a source (_pizza_cutter.py:942-949). -/
def strLens (p : InfoPaths) : List Nat :=
  [p.imagePath.length, p.imageExt.length, p.bkgPath.length, p.bkgExt.length, p.weightPath.length,
    p.weightExt.length, p.bmaskPath.length, p.bmaskExt.length]

/-- `max` of a list: ValueError if it is empty. -/
def pyMax : List Nat → Except Err Nat
  | [] => .error .valueError
  | a :: l => .ok (l.foldl max a)

/-- The paths as stored (_pizza_cutter.py:969-972). -/
def storePaths (pathLen extLen : Nat) (p : InfoPaths) : InfoPaths where
  imagePath := npStr pathLen p.imagePath
  imageExt := npStr extLen p.imageExt
  weightPath := npStr pathLen p.weightPath
  weightExt := npStr extLen p.weightExt
  bmaskPath := npStr pathLen p.bmaskPath
  bmaskExt := npStr extLen p.bmaskExt
  bkgPath := npStr pathLen p.bkgPath
  bkgExt := npStr extLen p.bkgExt

/-- The row of zeros that the coadd has in the string fields (_pizza_cutter.py:952-956). -/
def blankPaths : InfoPaths := ⟨[], [], [], [], [], [], [], []⟩

/-- The numbers as stored: `magzp` and `scale` in single precision. -/
def storeNums (f4 : ℚ → ℚ) (n : InfoNums) : InfoNums := { n with magzp := f4 n.magzp, scale := f4 n.scale }

/-- The rows of the table (_pizza_cutter.py:959-980). -/
def infoRows {W : Type} (f4 : ℚ → ℚ) (pathLen wcsLen : Nat) (c : InfoNums) (ct : PyStr)
    (srcs : List (InfoSrc W)) (ts : List PyStr) : List InfoRow :=
  ⟨blankPaths, storeNums f4 c, npStr wcsLen ct⟩ ::
    (srcs.zip ts).map fun x => ⟨storePaths pathLen 3 x.1.paths, storeNums f4 x.1.nums, npStr wcsLen x.2⟩

/-- `_build_image_info` (_pizza_cutter.py:921-984), given the numbers and the WCS of the coadd. -/
def buildImageInfo {W : Type} (io : WcsIO W) (f4 : ℚ → ℚ) (c : InfoNums) (cw : Option W)
    (srcs : List (InfoSrc W)) : Except Err (List InfoRow) := do
  let ct ← io.dumps cw
  let ts ← wcsTexts io srcs
  let wcsLen ← pyMax (ct.length :: ts.map List.length)
  let lens ← srcs.mapM fun se => pyMax (strLens se.paths)
  let pathLen ← pyMax lens
  let rows := infoRows f4 pathLen wcsLen c ct srcs ts
  if rows.map (fun r => r.nums.imageId) = (List.range rows.length).map (fun k : Nat => (k : ℤ)) then pure rows
  else .error .assertionError

/-- The versions that are recorded (_pizza_cutter.py:988-996 and `__version__`, `MEDS_FMT_VERSION`). -/
structure Versions where
  pizzaCutter : PyStr
  numpy : PyStr
  scipy : PyStr
  esutil : PyStr
  ngmix : PyStr
  fitsio : PyStr
  piff : PyStr
  pixmappy : PyStr
  desmeds : PyStr
  meds : PyStr
  medsFmt : PyStr
  deriving DecidableEq

/-- The metadata record; `MAGZP_REF` is a constant. -/
structure Metadata where
  config : PyStr
  versions : Versions
  medsDir : PyStr
  piffDataDir : PyStr
  desdata : PyStr
  deriving DecidableEq

/-- `s.encode("ascii")`: UnicodeEncodeError (a ValueError) for other characters. -/
def encodeAscii (s : PyStr) : Except Err (List Nat) :=
  if s.all (fun c => decide (c.toNat < 128)) = true then .ok (s.map Char.toNat) else .error .valueError

/-- `_build_metadata` (_pizza_cutter.py:987-1031). `env` is `os.environ`. -/
def buildMetadata (env : String → Option PyStr) (v : Versions) (config json : PyStr) :
    Except Err (Metadata × List Nat) := do
  let medsDir ← lookup (env "MEDS_DIR")
  let piffLen := ((env "PIFF_DATA_DIR").getD [' ']).length
  let desLen := ((env "DESDATA").getD [' ']).length
  let m : Metadata := {
    config := npStr config.length config
    versions := {
      pizzaCutter := npStr v.pizzaCutter.length v.pizzaCutter
      numpy := npStr v.numpy.length v.numpy
      scipy := npStr v.scipy.length v.scipy
      esutil := npStr v.esutil.length v.esutil
      ngmix := npStr v.ngmix.length v.ngmix
      fitsio := npStr v.fitsio.length v.fitsio
      piff := npStr v.piff.length v.piff
      pixmappy := npStr v.pixmappy.length v.pixmappy
      desmeds := npStr v.desmeds.length v.desmeds
      meds := npStr v.meds.length v.meds
      medsFmt := npStr v.medsFmt.length v.medsFmt }
    medsDir := npStr medsDir.length medsDir
    piffDataDir := npStr piffLen ((env "PIFF_DATA_DIR").getD [])
    desdata := npStr desLen ((env "DESDATA").getD []) }
  let bytes ← encodeAscii json
  pure (m, bytes)

/-- `_hash_to_int` (_pizza_cutter.py:64-70), given the number that the SHA1 digest is. -/
def hashToInt (digest : ℤ) : ℤ := min (max 1 (|digest| % 10 ^ 4)) 9999

end Pizza
