import Verif.Model.DesInfo
import Verif.Model.CheckInfo
import Verif.Model.NoiseImage
import Mathlib.Logic.Function.Basic

/-!
The description of a DES tile: `get_piff_psf_info`
(pizza_cutter/des_pizza_cutter/_piff_tools.py:12-85), `get_coaddtile_geom` and
`add_extra_des_coadd_tile_info` (pizza_cutter/des_pizza_cutter/_des_info.py:72-184,352-410).

A Python dict is a partial function of its keys (insertion order is not modelled).  What the data base
returns is a parameter.  The dicts are modified in place; here the result is returned, so what is left
behind when an exception is raised is not modelled (the caller then writes nothing,
bin/des-pizza-cutter-prep-tile:106-124).  `get_piff_psf_info` is cached; see C35 for caches.
-/

namespace Pizza

/-- A row of the Piff QA table (_piff_tools.py:31-43); the tag is not used. -/
structure QaRow where
  expnum : ℤ
  ccdnum : ℤ
  filename : PyStr
  qa : PiffInfo

/-- A row of the tile geometry table (_des_info.py:388-394). -/
structure GeomRow where
  crossra0 : PyStr
  udecmin : ℝ
  udecmax : ℝ
  uramin : ℝ
  uramax : ℝ

/-- Values in the description; `other` is anything else. -/
inductive TVal (A : Type) where
  | str (s : PyStr)
  | num (x : ℝ)
  | nat (n : Nat)
  | shape (rows cols : Nat)
  | none
  | piffInfo (r : QaRow)
  | other (a : A)

/-- A dict. -/
abbrev TDict (A : Type) := String → Option (TVal A)

/-- `d[k]`. -/
def TDict.item {A : Type} (d : TDict A) (k : String) : Except Err (TVal A) := lookup (d k)

/-- `d[k] = v`. -/
def TDict.put {A : Type} (d : TDict A) (k : String) (v : TVal A) : TDict A := Function.update d k (some v)

/-- What the data base answers. -/
structure TileDb (A : Type) where
  piffQa : TVal A → PyStr → List QaRow
  geom : TVal A → List GeomRow

/-- The loop of `get_piff_psf_info` over the rows (_piff_tools.py:65-83): a later row for the same file
replaces an earlier one. -/
def piffRows (rows : List QaRow) : PyStr → Option QaRow :=
  rows.foldl (fun d r => Function.update d r.filename (some r)) fun _ => none

/-- `get_piff_psf_info` (_piff_tools.py:12-85). -/
def getPiffPsfInfo (rows : List QaRow) : Except Err (PyStr → Option QaRow) :=
  if rows.length = 0 then .error .runtimeError else .ok (piffRows rows)

/-- `get_coaddtile_geom`, then `info.update` (_des_info.py:149,398-410). -/
def updateGeom {A : Type} (rows : List GeomRow) (d : TDict A) : Except Err (TDict A) :=
  match rows with
  | [] => .error .runtimeError
  | g :: _ => .ok (((((d.put "crossra0" (.str g.crossra0)).put "udecmin" (.num g.udecmin)).put "udecmax"
      (.num g.udecmax)).put "uramin" (.num g.uramin)).put "uramax" (.num g.uramax))

/-- `10.0**(0.4*(MAGZP_REF - ii['magzp']))` (_des_info.py:172). -/
noncomputable def scaleOf {A : Type} (v : TVal A) : Except Err (TVal A) :=
  match v with
  | .num m => .ok (.num (zpScale m))
  | .nat m => .ok (.num (zpScale m))
  | _ => .error .typeError

/-- `'piff_path' in ii and ii['piff_path'] is not None and piff_campaign is not None`
(_des_info.py:174-178). -/
def piffWanted {A : Type} (d : TDict A) (campaign : Option PyStr) : Option (TVal A × PyStr) :=
  match d "piff_path", campaign with
  | Option.none, _ => Option.none
  | some .none, _ => Option.none
  | some _, Option.none => Option.none
  | some v, some c => some (v, c)

/-- `os.path.basename` of a value. -/
def baseOf {A : Type} (v : TVal A) : Except Err PyStr :=
  match v with
  | .str s => .ok (pyBasename s)
  | _ => .error .typeError

/-- The Piff part of the loop body (_des_info.py:174-184). -/
def addPiffInfo {A : Type} (db : TileDb A) (campaign : Option PyStr) (ii : TDict A) :
    Except Err (TDict A) :=
  match piffWanted ii campaign with
  | Option.none => .ok ii
  | some (path, camp) => do
    let fname ← baseOf path
    let expnum ← ii.item "expnum"
    let d ← getPiffPsfInfo (db.piffQa expnum camp)
    let r ← lookup (d fname)
    pure (ii.put "piff_info" (.piffInfo r))

/-- The loop body for one source (_des_info.py:152-184). -/
noncomputable def addSrcInfo {A : Type} (db : TileDb A) (campaign : Option PyStr) (ii : TDict A) :
    Except Err (TDict A) := do
  let ii := ii.put "image_shape" (.shape 4096 2048)
  let ii := ii.put "image_flags" (.nat 0)
  let ii := ii.put "image_ext" (.str "sci".toList)
  let p ← ii.item "image_path"
  let ii := ii.put "weight_path" p
  let ii := ii.put "weight_ext" (.str "wgt".toList)
  let p ← ii.item "image_path"
  let ii := ii.put "bmask_path" p
  let ii := ii.put "bmask_ext" (.str "msk".toList)
  let ii := ii.put "bkg_ext" (.str "sci".toList)
  let ii := ii.put "position_offset" (.nat 1)
  let p ← ii.item "psf_path"
  let ii := ii.put "psfex_path" p
  let m ← ii.item "magzp"
  let s ← scaleOf m
  let ii := ii.put "scale" s
  addPiffInfo db campaign ii

/-- `add_extra_des_coadd_tile_info` (_des_info.py:125-184). -/
noncomputable def addExtraTileInfo {A : Type} (db : TileDb A) (campaign : Option PyStr) (info : TDict A)
    (src : List (TDict A)) : Except Err (TDict A × List (TDict A)) := do
  let info := info.put "position_offset" (.nat 1)
  let info := info.put "image_ext" (.str "sci".toList)
  let p ← info.item "image_path"
  let info := info.put "weight_path" p
  let info := info.put "weight_ext" (.str "wgt".toList)
  let p ← info.item "image_path"
  let info := info.put "bmask_path" p
  let info := info.put "bmask_ext" (.str "msk".toList)
  let info := info.put "seg_ext" (.str "sci".toList)
  let info := info.put "magzp" (.num 30)
  let info := info.put "scale" (.num 1)
  let info := info.put "image_shape" (.shape 10000 10000)
  let info := info.put "image_flags" (.nat 0)
  let t ← info.item "tilename"
  let info ← updateGeom (db.geom t) info
  let src ← src.mapM (addSrcInfo db campaign)
  pure (info, src)

end Pizza
