import Verif.Model.PrepTile
import Verif.Spec.DesTile
import Verif.Spec.Files
import Verif.Props.Cli

/-!
What preparing a tile must leave behind (C112).
-/

namespace Pizza
variable {A D : Type}

/-- The text of an absolute path. -/
def pathText (p : FPath) : PyStr := p.flatMap fun c => '/' :: c.toList

/-- The components are not empty and have no slash. -/
def PlainPath (p : FPath) : Prop := ∀ c ∈ p, c.toList ≠ [] ∧ '/' ∉ c.toList

/-- The row is for a catalog of the tile, version 1. -/
def IsGaiaRow (tilename : PyStr) (r : ArchiveRow) : Prop :=
  r.filetype = "cat_tile_gaia".toList ∧ ∃ mid, r.filename = tilename ++ mid ++ "v1.fits".toList

/-- The first row for a catalog of the tile, in the directory `rp` of the archive. -/
structure GaiaFile (p : Prep A D) (r : ArchiveRow) (rp : FPath) : Prop where
  first : ∃ pre post, p.table = pre ++ r :: post ∧ ∀ r' ∈ pre, ¬ IsGaiaRow p.tilename r'
  row : IsGaiaRow p.tilename r
  plain : PlainPath rp
  dir : '/' :: r.path = pathText rp

/-- The places that arguments and environment name: `meds` is `MEDS_DIR`, `tdir` the directory of the tile,
`conf` the name of the configuration. -/
structure PrepAt (p : Prep A D) (meds tdir : FPath) (conf : PyStr) : Prop where
  medsDir : p.medsDir = pathText meds
  medsPlain : PlainPath meds ∧ meds ≠ []
  name : ConfigName p.config conf ∧ conf ≠ []
  tileDir : p.tileDir conf p.tilename = pathText tdir
  tilePlain : PlainPath tdir ∧ tdir ≠ []
  tile : '/' ∉ p.tilename ∧ '_' ∉ p.tilename ∧ '%' ∉ p.tilename
  band : '/' ∉ p.band
  rows : ∀ r ∈ p.table, '/' ∉ r.filename ∧ ∃ rp, PlainPath rp ∧ rp ≠ [] ∧ '/' :: r.path = pathText rp

/-- The place of the description. -/
def infoPlace (meds : FPath) (conf tilename band : PyStr) : FPath :=
  meds ++ [String.ofList conf, "pizza_cutter_info",
    String.ofList (tilename ++ "_".toList ++ band ++ "_pizza_cutter_info.yaml".toList)]

/-- The place of the catalog. -/
def gaiaPlace (tdir : FPath) (band : PyStr) (rp : FPath) (r : ArchiveRow) : FPath :=
  tdir ++ [String.ofList ("sources-".toList ++ band)] ++ rp ++ [String.ofList r.filename]

/-- A path in a dict: missing, None or text. -/
inductive SeesPath : Option (TVal A) → Option (Option PyStr) → Prop
  | missing : SeesPath none none
  | null : SeesPath (some .none) (some none)
  | text (s : PyStr) : SeesPath (some (.str s)) (some (some s))

/-- A text in a dict. -/
inductive SeesStr : Option (TVal A) → Option PyStr → Prop
  | missing : SeesStr none none
  | text (s : PyStr) : SeesStr (some (.str s)) (some s)

/-- A natural number in a dict. -/
inductive SeesNat : Option (TVal A) → Option Nat → Prop
  | missing : SeesNat none none
  | num (n : Nat) : SeesNat (some (.nat n)) (some n)

/-- What is checked of a source. -/
structure SeesSrc (d : TDict A) (c : CheckSrc) : Prop where
  paths : ∀ k ∈ ["bkg_path", "bmask_path", "image_path", "piff_path", "psfex_path", "psf_path", "seg_path",
    "weight_path", "head_path"], SeesPath (d k) (c.paths k)
  band : SeesStr (d "band") c.band
  tilename : SeesStr (d "tilename") c.tilename
  expnum : SeesNat (d "expnum") c.expnum
  ccdnum : SeesNat (d "ccdnum") c.ccdnum

/-- What is checked of a description. -/
structure Sees (d : TDict A) (src : List (TDict A)) (c : CheckInfo) : Prop where
  paths : ∀ k ∈ ["image_path", "seg_path", "bmask_path", "psf_path", "gaia_stars_file", "cat_path"],
    SeesPath (d k) (c.paths k)
  scale : c.scale = some 1 ↔ d "scale" = some (.num 1) ∨ d "scale" = some (.nat 1)
  band : SeesStr (d "band") c.band
  srcs : List.Forall₂ SeesSrc src c.srcs

/-- The complete and consistent description of the tile: the coadd and the sources are those of desmeds,
the catalog is at `gaia`, everything is completed as in C102 and consistent as in C78, for a tile that has
the name asked for. -/
structure Described (p : Prep A D) (gaia : FPath) (info : TDict A) (src : List (TDict A))
    (tile band : PyStr) : Prop where
  complete : ∃ info0 src0 camp, p.getInfo = .ok (info0, src0) ∧ p.piffCampaign = some camp ∧
    CoaddDone p.db (fun k => if k = "gaia_stars_file" then some (.str (pathText gaia)) else info0 k) info ∧
    List.Forall₂ (SrcDone p.db (some (camp.map Char.toUpper))) src0 src
  consistent : ∃ c, Sees info src c ∧ Consistent c tile band
  named : p.tilename <+: tile

end Pizza
