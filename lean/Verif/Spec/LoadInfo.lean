import Verif.Model.LoadInfo

/-!
What loading must do, as relations between the entries before and after.
-/

namespace Pizza

/-- `v` is the value of the last readable key of the header whose lower case form is `k`. -/
def LastReadable {V : Type} (h : Header V) (k : PyStr) (v : V) : Prop :=
  ∃ pre j post, h.keys = pre ++ j :: post ∧ j.map Char.toLower = k ∧ h.value j = .ok v ∧
    ∀ j' ∈ post, j'.map Char.toLower = k → ∀ v', h.value j' ≠ .ok v'

/-- The keys that are copied from the image to the head file's header. -/
def IsSizeKey (k : PyStr) : Prop :=
  k = "naxis1".toList ∨ k = "naxis2".toList ∨ k = "znaxis1".toList ∨ k = "znaxis2".toList

variable {V W P A R : Type}

/-- `x` is the WCS in the image's header. -/
def ReadsImage (w : World V W P A) (ii : LoadSrc W P A R) (x : W) : Prop :=
  ∃ p e h, ii.imagePath = some p ∧ ii.imageExt = some e ∧ w.readHeader p e = .ok h ∧
    w.mkWcs (mungeHeader h) = .ok x

/-- `x` is the WCS of the head file. -/
def ReadsHead (w : World V W P A) (ii : LoadSrc W P A R) (x : W) : Prop :=
  ∃ p e im hp h, ii.imagePath = some p ∧ ii.imageExt = some e ∧ w.readHeader p e = .ok im ∧
    ii.headPath = some hp ∧ w.readScamp hp = .ok h ∧
    w.mkWcs (mergeSizes (mungeHeader im) (mungeHeader h)) = .ok x

/-- The entry holds the WCS that can be read, or None if none can be read and an affine WCS is
configured. -/
def HoldsWcs (ii : LoadSrc W P A R) (reads : W → Prop) (slot : Option (Option W)) : Prop :=
  (∃ x, reads x ∧ slot = some (some x)) ∨ ((∀ x, ¬ reads x) ∧ ii.affineCfg ≠ none ∧ slot = some none)

/-- An object is built from its configuration if there is one. -/
def BuiltFrom {α : Type} (build : A → Except Err α) (cfg : Option A) (before after : Option α) : Prop :=
  (cfg = none ∧ after = before) ∨ ∃ c x, cfg = some c ∧ build c = .ok x ∧ after = some x

/-- A PSF is built from its configuration if there is one: read as an object, or as a value if that fails, and it can
be used again. -/
def BuiltPsf (w : World V W P A) (cfg : Option A) (before after : Option P) : Prop :=
  (cfg = none ∧ after = before) ∨ ∃ c x, cfg = some c ∧ after = some x ∧
    (w.buildGs c = .ok (x, true) ∨ (∀ r, w.buildGs c ≠ .ok r) ∧ w.parseGs c = .ok (x, true))

/-- The entries that are only read are the same. -/
structure SameInputs (ii jj : LoadSrc W P A R) : Prop where
  path : jj.path = ii.path
  filename : jj.filename = ii.filename
  imagePath : jj.imagePath = ii.imagePath
  imageExt : jj.imageExt = ii.imageExt
  headPath : jj.headPath = ii.headPath
  ccdnum : jj.ccdnum = ii.ccdnum
  affineCfg : jj.affineCfg = ii.affineCfg
  galsimCfg : jj.galsimCfg = ii.galsimCfg
  psfexPath : jj.psfexPath = ii.psfexPath
  piffPath : jj.piffPath = ii.piffPath
  imageShape : jj.imageShape = ii.imageShape
  rest : jj.rest = ii.rest

/-- The PSFEx entry: kept without a path, else the model or None. -/
def HoldsPsfex (w : World V W P A) (ii jj : LoadSrc W P A R) : Prop :=
  (∃ p x, ii.psfexPath = some (some p) ∧ w.psfex p = .ok x ∧ jj.psfexPsf = some (some x)) ∨
  (∃ p e, ii.psfexPath = some (some p) ∧ w.psfex p = .error e ∧ jj.psfexPsf = some none) ∨
  ((∀ p, ii.psfexPath ≠ some (some p)) ∧ jj.psfexPsf = ii.psfexPsf)

/-- The Piff entries: kept without a path, else all from the model of this CCD or all None. -/
def HoldsPiff (w : World V W P A) (ii jj : LoadSrc W P A R) : Prop :=
  (∃ p c psf wcs pix, ii.piffPath = some (some p) ∧ ii.ccdnum = some c ∧ w.piff p c = .ok (psf, wcs, pix) ∧
    jj.piffPsf = some (some psf) ∧ jj.piffWcs = some (some wcs) ∧ jj.pixmappyWcs = some pix) ∨
  (∃ p, ii.piffPath = some (some p) ∧ (∀ c x, ii.ccdnum = some c → w.piff p c ≠ .ok x) ∧
    jj.piffPsf = some none ∧ jj.piffWcs = some none ∧ jj.pixmappyWcs = some none) ∨
  ((∀ p, ii.piffPath ≠ some (some p)) ∧ jj.piffPsf = ii.piffPsf ∧ jj.piffWcs = ii.piffWcs ∧
    jj.pixmappyWcs = ii.pixmappyWcs)

/-- Source number `k` has been loaded. -/
structure LoadedSrc (w : World V W P A) (skipSe : Bool) (k : Nat) (ii jj : LoadSrc W P A R) : Prop where
  id : jj.imageId = some ((k : ℤ) + 1)
  same : SameInputs ii jj
  affine : BuiltFrom w.affine ii.affineCfg ii.affineWcs jj.affineWcs
  galsim : BuiltPsf w ii.galsimCfg ii.galsimPsf jj.galsimPsf
  skipped : skipSe = true → jj.imageWcs = ii.imageWcs ∧ jj.headWcs = ii.headWcs ∧
    jj.psfexPsf = ii.psfexPsf ∧ jj.piffPsf = ii.piffPsf ∧ jj.piffWcs = ii.piffWcs ∧
    jj.pixmappyWcs = ii.pixmappyWcs
  named : skipSe = false → ii.path ≠ none ∧ ii.filename ≠ none
  image : skipSe = false → HoldsWcs ii (ReadsImage w ii) jj.imageWcs
  head : skipSe = false → HoldsWcs ii (ReadsHead w ii) jj.headWcs
  psfex : skipSe = false → HoldsPsfex w ii jj
  piff : skipSe = false → HoldsPiff w ii jj

/-- The coadd has been loaded. -/
structure LoadedCoadd (w : World V W P A) (ii jj : LoadSrc W P A R) : Prop where
  id : jj.imageId = some 0
  same : SameInputs ii jj
  named : ii.path ≠ none ∧ ii.filename ≠ none
  image : HoldsWcs ii (ReadsImage w ii) jj.imageWcs
  affine : BuiltFrom w.affine ii.affineCfg ii.affineWcs jj.affineWcs
  others : jj.galsimPsf = ii.galsimPsf ∧ jj.headWcs = ii.headWcs ∧ jj.psfexPsf = ii.psfexPsf ∧
    jj.piffPsf = ii.piffPsf ∧ jj.piffWcs = ii.piffWcs ∧ jj.pixmappyWcs = ii.pixmappyWcs

end Pizza
