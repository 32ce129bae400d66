import Verif.Model.CheckInfo

/-!
What a consistent tile description is.
-/

namespace Pizza

/-- The dictionary has a non-empty path at the key. -/
def HasPath (paths : String → Option (Option PyStr)) (key : String) (p : PyStr) : Prop :=
  paths key = some (some p) ∧ p ≠ []

/-- `b` is the file name of the path `p`. -/
def IsBase (p b : PyStr) : Prop :=
  '/' ∉ b ∧ (p = b ∨ ∃ q, p = q ++ '/' :: b)

/-- `t` is the first part of the file name `b`, up to an underscore. -/
def IsTile (b t : PyStr) : Prop := '_' ∉ t ∧ (b = t ∨ ∃ r, b = t ++ '_' :: r)

/-- A path of the coadd ends as it should for a band. -/
def EndsFor (band : PyStr) (ends : List String) (p : PyStr) : Prop :=
  ∃ e ∈ ends, ∃ q, p = q ++ "_".toList ++ band ++ e.toList

/-- One source fits to a tile and band. -/
structure SrcFits (tile band : PyStr) (ii : CheckSrc) (expnum ccdnum : Nat) : Prop where
  exp : ii.expnum = some expnum
  ccd : ii.ccdnum = some ccdnum
  sameBand : ii.band = some band
  sameTile : ii.tilename = some tile
  slug : ∀ key p b, HasPath ii.paths key p → IsBase p b →
    key ∈ ["bkg_path", "bmask_path", "image_path", "piff_path", "psfex_path", "psf_path", "seg_path",
      "weight_path"] →
    ∃ r, b = "D".toList ++ decimalPad 8 expnum ++ "_".toList ++ band ++ "_c".toList ++
      decimalPad 2 ccdnum ++ "_".toList ++ r
  head : ∀ p b, HasPath ii.paths "head_path" p → IsBase p b →
    (∃ r, b = tile ++ r) ∧
    ∃ r, b = r ++ "_".toList ++ band ++ "_c".toList ++ decimalPad 2 ccdnum ++ "_scamp.ohead".toList

/-- The description is consistent, for a tile and a band. -/
structure Consistent (info : CheckInfo) (tile band : PyStr) : Prop where
  scale : info.scale = some 1
  ownBand : info.band = some band
  /-- At least one coadd path is there and all are for the tile. -/
  present : ∃ key ∈ ["image_path", "seg_path", "bmask_path", "psf_path", "gaia_stars_file"], ∃ p,
    HasPath info.paths key p
  oneTile : ∀ key ∈ ["image_path", "seg_path", "bmask_path", "psf_path", "gaia_stars_file"], ∀ p b,
    HasPath info.paths key p → IsBase p b → IsTile b tile
  image : ∀ p, HasPath info.paths "image_path" p → EndsFor band [".fits.fz", ".fits"] p
  bmask : ∀ p, HasPath info.paths "bmask_path" p → EndsFor band [".fits.fz", ".fits"] p
  cat : ∀ p, HasPath info.paths "cat_path" p → EndsFor band ["_cat.fits"] p
  psf : ∀ p, HasPath info.paths "psf_path" p → EndsFor band ["_psfcat.psf"] p
  seg : ∀ p, HasPath info.paths "seg_path" p → EndsFor band ["_segmap.fits", "_segmap.fits.fz"] p
  srcs : ∀ ii ∈ info.srcs, ∃ expnum ccdnum, SrcFits tile band ii expnum ccdnum

end Pizza
