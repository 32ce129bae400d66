import Verif.Model.Basic
import Verif.Model.Numerals

/-!
`check_info` (pizza_cutter/des_pizza_cutter/_des_info.py:187-313).

Strings are lists of characters.  A dictionary of paths gives `none` for a missing key and `some none`
for the value None; other types of values are not modelled.  Exposure and CCD numbers are natural
numbers.  The texts of the messages are not modelled, only their number matters.
-/

namespace Pizza

/-- A Python string. -/
abbrev PyStr := List Char

/-- An entry of `src_info`, as far as `check_info` looks at it. -/
structure CheckSrc where
  paths : String → Option (Option PyStr)
  band : Option PyStr
  tilename : Option PyStr
  expnum : Option Nat
  ccdnum : Option Nat

/-- The info dictionary, as far as `check_info` looks at it. -/
structure CheckInfo where
  paths : String → Option (Option PyStr)
  scale : Option ℚ
  band : Option PyStr
  srcs : List CheckSrc

/-- `d[key]` with KeyError. -/
def lookup {α : Type} (o : Option α) : Except Err α :=
  match o with
  | some a => .ok a
  | none => .error .keyError

/-- The path at a key if `not _key_is_null(key, d)` (_des_info.py:187-191). -/
def nonNull (paths : String → Option (Option PyStr)) (key : String) : Option PyStr :=
  match paths key with
  | some (some (c :: l)) => some (c :: l)
  | _ => none

/-- `os.path.basename`: what comes after the last slash. -/
def pyBasename (p : PyStr) : PyStr := (p.reverse.takeWhile (· ≠ '/')).reverse

/-- `s.split("_")[0]`: what comes before the first underscore. -/
def beforeUnderscore (s : PyStr) : PyStr := s.takeWhile (· ≠ '_')

/-- `a.endswith(b)`. -/
def pyEndsWith (a b : PyStr) : Bool := b.isSuffixOf a

/-- `a.startswith(b)`. -/
def pyStartsWith (a b : PyStr) : Bool := b.isPrefixOf a

/-- The keys of the coadd paths (_des_info.py:207-210). -/
def coaddKeys : List String := ["image_path", "seg_path", "bmask_path", "psf_path", "gaia_stars_file"]

/-- The keys of the SE paths (_des_info.py:256-265). -/
def seKeys : List String :=
  ["bkg_path", "bmask_path", "image_path", "piff_path", "psfex_path", "psf_path", "seg_path", "weight_path"]

/-- The tile names in the coadd paths (_des_info.py:206-214), as a list without duplicates. -/
def tileNames (info : CheckInfo) : List PyStr :=
  ((coaddKeys.filterMap (nonNull info.paths)).map fun p => beforeUnderscore (pyBasename p)).dedup

/-- The message for different tiles reads all coadd paths (_des_info.py:215-220): KeyError if one is
missing. -/
def tileMessage (info : CheckInfo) : Except Err Nat :=
  if (tileNames info).length > 1 then do
    let _ ← coaddKeys.mapM fun k => lookup (info.paths k)
    pure 1
  else pure 0

/-- `tilenames.pop()` (_des_info.py:221): KeyError for the empty set; which one of several is not
specified, here the first. -/
def popTile (info : CheckInfo) : Except Err PyStr := lookup (tileNames info).head?

/-- The bands (_des_info.py:228-236): their number of errors and the first one. -/
def checkBands (info : CheckInfo) : Except Err (Nat × PyStr) := do
  let b ← lookup info.band
  let bs ← info.srcs.mapM fun ii => lookup ii.band
  pure (if (b :: bs).dedup.length > 1 then 1 else 0, b)

/-- The allowed ends of coadd paths (_des_info.py:239-245). -/
def coaddEnds (band : PyStr) : List (String × List PyStr) :=
  let f (x : String) : PyStr := '_' :: band ++ x.toList
  [("bmask_path", [f ".fits.fz", f ".fits"]),
   ("cat_path", [f "_cat.fits"]),
   ("image_path", [f ".fits.fz", f ".fits"]),
   ("psf_path", [f "_psfcat.psf"]),
   ("seg_path", [f "_segmap.fits", f "_segmap.fits.fz"])]

/-- One key of the check of the ends (_des_info.py:246-253). -/
def endErrors (info : CheckInfo) (key : String) (ends : List PyStr) : Nat :=
  match nonNull info.paths key with
  | none => 0
  | some p => if ends.any (pyEndsWith p) then 0 else 1

/-- `"D%08d_%s_c%02d_" % (expnum, band, ccdnum)` (_des_info.py:267). -/
def ccdSlug (expnum : Nat) (band : PyStr) (ccdnum : Nat) : PyStr :=
  'D' :: decimalPad 8 expnum ++ '_' :: band ++ "_c".toList ++ decimalPad 2 ccdnum ++ ['_']

/-- The SE paths of one source (_des_info.py:266-276): number of errors. -/
def seErrors (band : PyStr) (ii : CheckSrc) : Except Err Nat := do
  let e ← lookup ii.expnum
  let c ← lookup ii.ccdnum
  pure ((seKeys.filterMap (nonNull ii.paths)).filter
    (fun p => !pyStartsWith (pyBasename p) (ccdSlug e band c))).length

/-- The tile name of one source (_des_info.py:279-283). -/
def tileErrors (tile : PyStr) (ii : CheckSrc) : Except Err Nat := do
  let t ← lookup ii.tilename
  pure (if t ≠ tile then 1 else 0)

/-- `"_%s_c%02d_scamp.ohead" % (band, ccdnum)` (_des_info.py:295). -/
def scampSlug (band : PyStr) (ccdnum : Nat) : PyStr :=
  '_' :: band ++ "_c".toList ++ decimalPad 2 ccdnum ++ "_scamp.ohead".toList

/-- The SCAMP head of one source (_des_info.py:286-301). -/
def headErrors (tile band : PyStr) (ii : CheckSrc) : Except Err Nat :=
  match nonNull ii.paths "head_path" with
  | none => pure 0
  | some p => do
    let c ← lookup ii.ccdnum
    pure ((if pyStartsWith (pyBasename p) tile then 0 else 1) +
      (if pyEndsWith (pyBasename p) (scampSlug band c) then 0 else 1))

/-- `check_info` (_des_info.py:194-313). -/
def checkInfo (info : CheckInfo) : Except Err Unit := do
  let n1 ← tileMessage info
  let tile ← popTile info
  let scale ← lookup info.scale
  let n2 := if scale ≠ 1 then 1 else 0
  let (n3, band) ← checkBands info
  let n4 := ((coaddEnds band).map fun x => endErrors info x.1 x.2).sum
  let n5 ← info.srcs.mapM (seErrors band)
  let n6 ← info.srcs.mapM (tileErrors tile)
  let n7 ← info.srcs.mapM (headErrors tile band)
  if n1 + n2 + n3 + n4 + n5.sum + n6.sum + n7.sum > 0 then .error .runtimeError else .ok ()

end Pizza
