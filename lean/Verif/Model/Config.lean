import Verif.Model.ProcessRun
import Verif.Model.DesInfo
import Verif.Model.Locate

/-!
How the code gets its options out of a configuration file: `yaml.load` has made a value (`Yaml`), the code looks up
entries by name.  The lookups are in the order of the code, since the first that fails decides the exception.  A value of
a type other than the one used here raises a TypeError right after the lookups; in Python that happens where the value
is first used (or, for a Boolean in place of a number, not at all).
-/

namespace Pizza

/-- What `yaml.load` makes of a file (bin/des-pizza-cutter:31, bin/des-pizza-cutter-prep-tile:63); the keys of a mapping
are text and distinct; infinite numbers are left out. -/
inductive Yaml where
  | null
  | bool (b : Bool)
  | int (n : ℤ)
  | num (q : ℚ)
  | nan
  | str (s : String)
  | list (l : List Yaml)
  | dict (l : List (String × Yaml))

/-- `y[k]` for text `k`: KeyError for a mapping without it, TypeError for anything but a mapping. -/
def Yaml.item : Yaml → String → Except Err Yaml
  | .dict l, k => match l.lookup k with
    | some v => .ok v
    | none => .error .keyError
  | _, _ => .error .typeError

/-- `k in y` for text `k`.  For text and lists Python answers, and the lookups that follow raise the TypeError that is
raised here. -/
def Yaml.has : Yaml → String → Except Err Bool
  | .dict l, k => .ok (l.lookup k).isSome
  | _, _ => .error .typeError

/-- `bool(y)` (_coadd_slices.py:274, 317, 343; _se_image.py:698). -/
def Yaml.truthy : Yaml → Bool
  | .null => false
  | .bool b => b
  | .int n => n ≠ 0
  | .num q => q ≠ 0
  | .nan => true
  | .str s => s ≠ ""
  | .list l => !l.isEmpty
  | .dict l => !l.isEmpty

/-- A number. -/
def Yaml.asNum : Yaml → Except Err ℚ
  | .int n => .ok n
  | .num q => .ok q
  | _ => .error .typeError

/-- A whole number. -/
def Yaml.asInt : Yaml → Except Err ℤ
  | .int n => .ok n
  | _ => .error .typeError

/-- A whole number that is not negative (negative: not modelled). -/
def Yaml.asNat : Yaml → Except Err Nat
  | .int (.ofNat n) => .ok n
  | _ => .error .typeError

/-- A text. -/
def Yaml.asStr : Yaml → Except Err String
  | .str s => .ok s
  | _ => .error .typeError

/-- A list, each element read. -/
def Yaml.asList {α : Type} (f : Yaml → Except Err α) : Yaml → Except Err (List α)
  | .list l => l.mapM f
  | _ => .error .typeError

/-- A value or null (`None`). -/
def Yaml.asOpt {α : Type} (f : Yaml → Except Err α) : Yaml → Except Err (Option α)
  | .null => .ok none
  | y => (f y).map some

/-- `sum(y)` for a list of whole numbers (_pizza_cutter.py:351-354); for lists of other numbers not modelled. -/
def Yaml.sum (y : Yaml) : Except Err ℤ := do
  let l ← y.asList Yaml.asInt
  pure (l.foldl (· + ·) 0)

/-- How `symmetrize_masking` is understood (_coadd_slices.py:317-319, 340): a list is a list of angles, `None` in it is
no angle. -/
def Yaml.asSym (y : Yaml) : Except Err (SymCfg ℚ) :=
  if y.truthy then
    match y with
    | .list l => (l.mapM (Yaml.asOpt Yaml.asNum)).map .angles
    | _ => .ok .plain
  else .ok .off

/-- How `coadding_weight` is understood (_coadd_slices.py:30-42). -/
def Yaml.asWeight : Yaml → CoaddWeight
  | .str s => if s = "noise" then .noise else if s = "noise-fwhm" then .noiseFwhm else .unknown
  | _ => .unknown

/-- `mask_piff_failure` (_coadd_slices.py:219-224, _se_image.py:1261-1262): nothing, or `grid_size` and
`max_abs_T_diff`.  They are looked up for Piff models only; here for any. -/
def Yaml.asPiffCheck (y : Yaml) : Except Err (Option (Nat × ℚ)) :=
  match y with
  | .null => .ok none
  | y => do
    let t ← y.item "max_abs_T_diff"
    let g ← y.item "grid_size"
    let t ← t.asNum
    let g ← g.asNat
    pure (some (g, t))

/-- What `make_des_pizza_slices` takes from `coadd_config` (_pizza_cutter.py:168-177, 194). -/
structure CoaddOptions where
  central : ℤ
  buffer : ℤ
  psfBox : ℤ
  wcsType : String
  weight : CoaddWeight

/-- _pizza_cutter.py:168-177, 194. -/
def coaddOptions (coadd : Yaml) : Except Err CoaddOptions := do
  let central ← coadd.item "central_size"
  let buffer ← coadd.item "buffer_size"
  let psfBox ← coadd.item "psf_box_size"
  let wcsType ← coadd.item "wcs_type"
  let weight ← coadd.item "coadding_weight"
  let central ← central.asInt
  let buffer ← buffer.asInt
  let psfBox ← psfBox.asInt
  let wcsType ← wcsType.asStr
  pure ⟨central, buffer, psfBox, wcsType, weight.asWeight⟩

/-- What `_coadd_single_slice` takes from `single_epoch_config` (_pizza_cutter.py:314-398). -/
structure SliceOptions where
  gaia : Option (GaiaCfg Yaml)
  frac : ℚ
  seDelta : Nat
  rejectOutliers : Bool
  symmetrize : SymCfg ℚ
  copyEdges : Bool
  noiseFlags : ℤ
  splineFlags : ℤ
  badImageFlags : ℤ
  maxMasked : ℚ
  tapeBumps : Bool
  piffCheck : Option (Nat × ℚ)
  edgeBuffer : ℤ
  wcsType : String
  wcsColor : ℚ
  psfType : String
  psfKwargs : Yaml
  coaddDelta : Nat

/-- The star masks (_pizza_cutter.py:314-329); `catalog` says whether there is a `gaia_stars_file`. -/
def gaiaOptions (catalog : Bool) (se : Yaml) : Except Err (Option (GaiaCfg Yaml)) :=
  if catalog then do
    if ← se.has "gaia_star_masks" then do
      let g ← se.item "gaia_star_masks"
      let mag ← g.item "max_g_mag"
      let coeffs ← g.item "poly_coeffs"
      let sym ← g.item "symmetrize"
      let mag ← mag.asNum
      let coeffs ← coeffs.asList Yaml.asNum
      pure (some ⟨mag, coeffs, sym⟩)
    else pure none
  else pure none

/-- _pizza_cutter.py:314-367, 397-398.  The last entry is looked up only when there is something to coadd; here in any
case. -/
def sliceOptions (catalog : Bool) (se : Yaml) (band : String) : Except Err SliceOptions := do
  let gaia ← gaiaOptions catalog se
  let frac ← se.item "frac_buffer"
  let seDelta ← se.item "se_wcs_interp_delta"
  let rejectOutliers ← se.item "reject_outliers"
  let symmetrize ← se.item "symmetrize_masking"
  let copyEdges ← se.item "copy_masked_edges"
  let noiseFlags ← (← se.item "noise_interp_flags").sum
  let splineFlags ← (← se.item "spline_interp_flags").sum
  let badImageFlags ← (← se.item "bad_image_flags").sum
  let maxMasked ← se.item "max_masked_fraction"
  let tapeBumps ← se.item "mask_tape_bumps"
  let piffCheck ← se.item "mask_piff_failure"
  let edgeBuffer ← se.item "edge_buffer"
  let wcsType ← se.item "wcs_type"
  let wcsColor ← se.item "wcs_color"
  let psfType ← se.item "psf_type"
  let psfKwargs ← (← se.item "psf_kwargs").item band
  let coaddDelta ← se.item "coadd_wcs_interp_delta"
  let frac ← frac.asNum
  let seDelta ← seDelta.asNat
  let symmetrize ← symmetrize.asSym
  let maxMasked ← maxMasked.asNum
  let piffCheck ← piffCheck.asPiffCheck
  let edgeBuffer ← edgeBuffer.asInt
  let wcsType ← wcsType.asStr
  let wcsColor ← wcsColor.asNum
  let psfType ← psfType.asStr
  let coaddDelta ← coaddDelta.asNat
  pure { gaia := gaia, frac := frac, seDelta := seDelta, rejectOutliers := rejectOutliers.truthy
         symmetrize := symmetrize, copyEdges := copyEdges.truthy, noiseFlags := noiseFlags
         splineFlags := splineFlags, badImageFlags := badImageFlags, maxMasked := maxMasked
         tapeBumps := tapeBumps.truthy, piffCheck := piffCheck, edgeBuffer := edgeBuffer
         wcsType := wcsType, wcsColor := wcsColor, psfType := psfType, psfKwargs := psfKwargs
         coaddDelta := coaddDelta }

/-- `compute_piff_flags(piff_info=…, **cuts)` (_des_info.py:54-57, _piff_tools.py:88-90): TypeError unless the names
are those of the four arguments. -/
def piffCutsOf (cuts : Yaml) : Except Err PiffCuts :=
  match cuts with
  | .dict l =>
    if l.all fun e => e.1 ∈ ["max_fwhm_cen", "min_nstar", "max_exp_T_mean_fac", "max_ccd_T_std_fac"] then
      match l.lookup "max_fwhm_cen", l.lookup "min_nstar", l.lookup "max_exp_T_mean_fac",
        l.lookup "max_ccd_T_std_fac" with
      | some a, some b, some c, some d => do
        let a ← a.asOpt Yaml.asNum
        let b ← b.asOpt Yaml.asInt
        let c ← c.asOpt Yaml.asNum
        let d ← d.asOpt Yaml.asNum
        pure ⟨a, b, c, d⟩
      | _, _, _, _ => .error .typeError
    else .error .typeError
  | _ => .error .typeError

/-- `if k in y: … y[k] …` (_des_info.py:52-57, 67-68). -/
def Yaml.optItem {α : Type} (y : Yaml) (k : String) (f : Yaml → Except Err α) : Except Err (Option α) := do
  if ← y.has k then do
    let v ← y.item k
    let a ← f v
    pure (some a)
  else pure none

/-- The options of `flag_data_in_info` (_des_info.py:51-69), in the form used by `flagDataInInfo`.  The cuts are
looked at only when an image has `piff_info`; here in any case. -/
def flagOptions (cfg : Yaml) : Except Err (Option FlagCfg) := do
  if ← cfg.has "single_epoch" then do
    let se ← cfg.item "single_epoch"
    let cuts ← se.optItem "piff_cuts" piffCutsOf
    let ccds ← se.optItem "ignored_ccds" (Yaml.asList Yaml.asInt)
    pure (some ⟨cuts, ccds⟩)
  else pure none

/-- The two campaigns used by bin/des-pizza-cutter-prep-tile:77-108. -/
def prepOptions (cfg : Yaml) : Except Err (String × String) := do
  let d ← cfg.item "des_data"
  let c ← d.item "campaign"
  let d ← cfg.item "des_data"
  let p ← d.item "piff_campaign"
  let c ← c.asStr
  let p ← p.asStr
  pure (c, p)

/-- bin/des-pizza-cutter: the options of a run, from the parsed file (lines 42, 86-92): `flag_data_in_info` gets the whole,
`make_des_pizza_slices` two of its entries. -/
def runOptions (catalog : Bool) (cfg : Yaml) (band : String) :
    Except Err (Option FlagCfg × CoaddOptions × SliceOptions) := do
  let flags ← flagOptions cfg
  let coadd ← cfg.item "coadd"
  let se ← cfg.item "single_epoch"
  let co ← coaddOptions coadd
  let so ← sliceOptions catalog se band
  pure (flags, co, so)

/-- What `_coadd_single_slice` is called with (_pizza_cutter.py:179-205, 314-398): the tile `t` with its options replaced
by those of the configuration and its slices by those built from it.  `render` is the text of the keywords. -/
def tileWith {P : Type} (co : CoaddOptions) (so : SliceOptions) (render : Yaml → PyStr) (rows : List ObjRow)
    (t : Tile ℚ Yaml P) : Tile ℚ Yaml P :=
  { t with
    wcs := .named so.wcsType
    psf := .named so.psfType
    kwargs := render so.psfKwargs
    tapeBumps := so.tapeBumps
    piffCheck := so.piffCheck
    seDelta := so.seDelta
    coaddDelta := so.coaddDelta
    cfg := { t.cfg with
      fracBuffer := so.frac
      coaddingWeight := co.weight
      rejectOutliers := so.rejectOutliers
      symmetrize := so.symmetrize
      copyEdges := so.copyEdges
      noiseFlags := BitVec.ofInt 32 so.noiseFlags
      splineFlags := BitVec.ofInt 32 so.splineFlags
      badImageFlags := BitVec.ofInt 32 so.badImageFlags
      maxMaskedFraction := so.maxMasked
      edgeBuffer := so.edgeBuffer }
    gaiaCfg := so.gaia
    objects := rows }

end Pizza
