import Verif.Model.DesTile
import Verif.Spec.CheckInfo
import Verif.Spec.DesInfo

/-!
What the description of a DES tile must contain (C102).
-/

namespace Pizza

/-- `row` is the last row of the table for the file `name`. -/
def IsLastRow (rows : List QaRow) (name : PyStr) (row : QaRow) : Prop :=
  ∃ pre post, rows = pre ++ row :: post ∧ row.filename = name ∧ ∀ r ∈ post, r.filename ≠ name

/-- The value is the number `m`. -/
def IsNum {A : Type} (v : TVal A) (m : ℝ) : Prop := v = .num m ∨ ∃ n : Nat, v = .nat n ∧ m = n

/-- The source names a Piff model and a campaign is given. -/
def WantsPiff {A : Type} (d : TDict A) (campaign : Option PyStr) (v : TVal A) (c : PyStr) : Prop :=
  d "piff_path" = some v ∧ v ≠ .none ∧ campaign = some c

/-- The keys that are set for every source. -/
def srcKeys : List String :=
  ["image_shape", "image_flags", "image_ext", "weight_path", "weight_ext", "bmask_path", "bmask_ext",
    "bkg_ext", "position_offset", "psfex_path", "scale"]

/-- `new` is the finished description of the source `old`. -/
structure SrcDone {A : Type} (db : TileDb A) (campaign : Option PyStr) (old new : TDict A) : Prop where
  shape : new "image_shape" = some (.shape 4096 2048)
  flags : new "image_flags" = some (.nat 0)
  imageExt : new "image_ext" = some (.str ['s', 'c', 'i'])
  weightExt : new "weight_ext" = some (.str ['w', 'g', 't'])
  bmaskExt : new "bmask_ext" = some (.str ['m', 's', 'k'])
  bkgExt : new "bkg_ext" = some (.str ['s', 'c', 'i'])
  offset : new "position_offset" = some (.nat 1)
  paths : ∃ p, old "image_path" = some p ∧ new "weight_path" = some p ∧ new "bmask_path" = some p
  psf : ∃ p, old "psf_path" = some p ∧ new "psfex_path" = some p
  scale : ∃ v m, old "magzp" = some v ∧ IsNum v m ∧
    new "scale" = some (.num ((10 : ℝ) ^ ((0.4 : ℝ) * (30 - m))))
  piff : ∀ v c, WantsPiff old campaign v c → ∃ path base e row, v = .str path ∧ IsBase path base ∧
    old "expnum" = some e ∧ IsLastRow (db.piffQa e c) base row ∧ new "piff_info" = some (.piffInfo row)
  noPiff : (¬ ∃ v c, WantsPiff old campaign v c) → new "piff_info" = old "piff_info"
  rest : ∀ k, k ∉ srcKeys → k ≠ "piff_info" → new k = old k

/-- The keys that are set for the coadd. -/
def coaddInfoKeys : List String :=
  ["position_offset", "image_ext", "weight_path", "weight_ext", "bmask_path", "bmask_ext", "seg_ext",
    "magzp", "scale", "image_shape", "image_flags", "crossra0", "udecmin", "udecmax", "uramin", "uramax"]

/-- `new` is the finished description of the coadd `old`. -/
structure CoaddDone {A : Type} (db : TileDb A) (old new : TDict A) : Prop where
  offset : new "position_offset" = some (.nat 1)
  imageExt : new "image_ext" = some (.str ['s', 'c', 'i'])
  weightExt : new "weight_ext" = some (.str ['w', 'g', 't'])
  bmaskExt : new "bmask_ext" = some (.str ['m', 's', 'k'])
  segExt : new "seg_ext" = some (.str ['s', 'c', 'i'])
  paths : ∃ p, old "image_path" = some p ∧ new "weight_path" = some p ∧ new "bmask_path" = some p
  magzp : new "magzp" = some (.num 30)
  scale : new "scale" = some (.num 1)
  shape : new "image_shape" = some (.shape 10000 10000)
  flags : new "image_flags" = some (.nat 0)
  geom : ∃ t g l, old "tilename" = some t ∧ db.geom t = g :: l ∧ new "crossra0" = some (.str g.crossra0) ∧
    new "udecmin" = some (.num g.udecmin) ∧ new "udecmax" = some (.num g.udecmax) ∧
    new "uramin" = some (.num g.uramin) ∧ new "uramax" = some (.num g.uramax)
  rest : ∀ k, k ∉ coaddInfoKeys → new k = old k

/-- What the flagging of bad images sees of a source (_des_info.py:50-69); `ccd` is `int(ii['ccdnum'])`. -/
def flagView {A : Type} (ccd : Option (TVal A) → ℤ) (d : TDict A) : FlagSrc (TDict A) :=
  { imageFlags := match d "image_flags" with
      | some (.nat n) => n
      | _ => 0
    piffInfo := match d "piff_info" with
      | some (.piffInfo r) => some r.qa
      | _ => Option.none
    ccdnum := ccd (d "ccdnum")
    hasPath := (d "path").isSome
    hasFilename := (d "filename").isSome
    rest := d }

/-- Bit `k` must be set for a source: the last QA row of its exposure and campaign for its Piff model
violates cut `k`, or its CCD is ignored. -/
inductive MustFlag {A : Type} (db : TileDb A) (campaign : Option PyStr) (cfg : FlagCfg)
    (ccd : Option (TVal A) → ℤ) (ii : TDict A) : Nat → Prop
  | piff (cuts : PiffCuts) (path c base : PyStr) (e : TVal A) (row : QaRow) (k : Nat) :
      cfg.piffCuts = some cuts → ii "piff_path" = some (.str path) → campaign = some c → IsBase path base →
      ii "expnum" = some e → IsLastRow (db.piffQa e c) base row → Violates cuts row.qa k →
      MustFlag db campaign cfg ccd ii k
  | ccd (l : List ℤ) : cfg.ignoredCcds = some l → ccd (ii "ccdnum") ∈ l → MustFlag db campaign cfg ccd ii 30

end Pizza
