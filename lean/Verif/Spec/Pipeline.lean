import Verif.Spec.PrepTile
import Verif.Spec.Program

/-!
C118: preparing a tile and cutting it.  What the first program writes is what the second one reads, up to the rounding of
numbers.
-/

namespace Pizza

variable {A D σ P V ρ : Type}

/-- What is read for a value that was written. -/
inductive ReadsBack (rnd : ℝ → ℚ) : TVal A → Yaml → Prop
  | str (s) : ReadsBack rnd (.str s) (.str (String.ofList s))
  | num (x y) : IsNumber y (rnd x) → ReadsBack rnd (.num x) y
  | nat (n : Nat) : ReadsBack rnd (.nat n) (.int n)
  | shape (a b : Nat) : ReadsBack rnd (.shape a b) (.list [.int a, .int b])
  | none : ReadsBack rnd .none .null
  | piffInfo (r y) : IsPiffInfo y r.qa → ReadsBack rnd (.piffInfo r) y
  | other (a y) : ReadsBack rnd (.other a) y

/-- What is read for a dict that was written; the sources are apart. -/
structure ReadsDict (rnd : ℝ → ℚ) (d : TDict A) (y : Yaml) : Prop where
  dict : ∃ es, y = .dict es
  given : ∀ k v, k ≠ "src_info" → d k = some v → ∃ u, At y [k] u ∧ ReadsBack rnd v u
  absent : ∀ k, k ≠ "src_info" → d k = none → ∀ u, ¬ At y [k] u

/-- What is read for a description that was written. -/
structure ReadsInfo (rnd : ℝ → ℚ) (info : TDict A) (src : List (TDict A)) (y : Yaml) (ys : List Yaml) : Prop where
  coadd : ReadsDict rnd info y
  list : At y ["src_info"] (.list ys)
  srcs : List.Forall₂ (ReadsDict rnd) src ys

/-- There is a text at the key. -/
def GivesText (d : TDict A) (k : String) : Prop := ∃ s, d k = some (.str s)

/-- What desmeds has to supply for the coadd. -/
structure SuppliedCoadd (d : TDict A) : Prop where
  texts : ∀ k ∈ ["path", "filename", "tilename", "image_path"], GivesText d k
  absent : ∀ k ∈ ["head_path", "ccdnum", "affine_wcs_config", "galsim_psf_config", "psfex_path", "piff_path"], d k = none

/-- What desmeds has to supply for a source (the Piff model and the others are checked by the program). -/
structure SuppliedSrc (d : TDict A) : Prop where
  texts : ∀ k ∈ ["path", "filename", "image_path", "bkg_path"], GivesText d k
  file : d "image_path" ≠ some (.str [])
  absent : ∀ k ∈ ["affine_wcs_config", "galsim_psf_config", "piff_info"], d k = none

/-- The second program can be run: the log level, the configuration, the name of the output, the options. -/
structure CanCut (w : ProgWorld σ P V ρ) (a : GoArgs) (text : PyStr) (cfg : Yaml) (band : PyStr) (co : CoaddOptions)
    (so : SliceOptions) : Prop where
  level : w.level (a.logLevel.map Char.toUpper) = .ok ()
  config : w.readText a.config = .ok text ∧ w.parse text = .ok cfg
  named : ∀ tile, ∃ m, medsPath ⟨a.output, a.config, a.tag, a.sliceRange, tile, band⟩ = .ok m
  pars : ∃ pars, FpackFrom w.fpackText cfg pars
  flags : ∃ fc, FlagEntries cfg fc
  coadd : CoaddEntries cfg co ∧ co.wcsType = "image"
  slices : SliceEntries true cfg (String.ofList band) so
  seed : ∃ n : Nat, n < 2 ^ 32 ∧ a.seed = n

/-- A number as it is stored. -/
inductive StoredNum (rnd : ℝ → ℚ) : TVal A → ℚ → Prop
  | num (x) : StoredNum rnd (.num x) (rnd x)
  | nat (n : Nat) : StoredNum rnd (.nat n) n

/-- Bit `b` of the flags of a source as desmeds describes it: the last QA row of its exposure and campaign for its Piff model
violates cut `b`, or its CCD is to be ignored. -/
inductive FlagFor (db : TileDb A) (camp : PyStr) (cfg : Yaml) (d : TDict A) : Nat → Prop
  | piff (y cuts path base e row b) : At cfg ["single_epoch", "piff_cuts"] y → IsCuts y cuts →
      d "piff_path" = some (.str path) → IsBase path base → d "expnum" = some e →
      IsLastRow (db.piffQa e camp) base row → Violates cuts row.qa b → FlagFor db camp cfg d b
  | ccd (l : List ℤ) (n : Nat) : At cfg ["single_epoch", "ignored_ccds"] (.list (l.map .int)) →
      d "ccdnum" = some (.nat n) → (n : ℤ) ∈ l → FlagFor db camp cfg d 30

/-- Row `r` of `image_info` reports source number `k` of desmeds. -/
structure Reports (f4 : ℚ → ℚ) (rnd : ℝ → ℚ) (db : TileDb A) (camp : PyStr) (cfg : Yaml) (d : TDict A) (k : Nat)
    (r : InfoRow) : Prop where
  id : r.nums.imageId = k + 1
  flags : ∃ n : Nat, r.nums.imageFlags = n ∧ ∀ b, n.testBit b = true ↔ FlagFor db camp cfg d b
  magzp : ∃ v q, d "magzp" = some v ∧ StoredNum rnd v q ∧ r.nums.magzp = f4 q
  scale : ∃ v m, d "magzp" = some v ∧ IsNum v m ∧ r.nums.scale = f4 (rnd ((10 : ℝ) ^ ((0.4 : ℝ) * (30 - m))))
  offset : r.nums.positionOffset = 1
  image : ∃ p, d "image_path" = some (.str p) ∧ r.paths.imagePath = p ∧ r.paths.weightPath = p ∧ r.paths.bmaskPath = p
  bkg : ∃ p, d "bkg_path" = some (.str p) ∧ r.paths.bkgPath = p
  exts : r.paths.imageExt = ['s', 'c', 'i'] ∧ r.paths.weightExt = ['w', 'g', 't'] ∧ r.paths.bmaskExt = ['m', 's', 'k'] ∧
    r.paths.bkgExt = ['s', 'c', 'i']

/-- What is assumed of a run on a description that was prepared: the paths of images do not end in a NUL character, hashes
tell SE images apart, sizes can be used, and the files of every SE image have its shape. -/
structure GoodRun (w : ProgWorld σ P V ρ) (a : GoArgs) (work : Option FPath) (src0 : List (TDict A)) : Prop where
  plain : ∀ d ∈ src0, ∀ k ∈ ["image_path", "bkg_path"], ∀ s, d k = some (.str s) → ∀ t, s ≠ t ++ ['\x00']
  good : ∀ cfg info srcs c k s so, Calls w a cfg info srcs c → LooksUp cfg c k → Needs w a cfg c s so →
    HashTells (w.proc so.wcsColor) (goTile w a work c k so) ∧ (∃ box psfBox, SoundSizes k.co so box psfBox) ∧
    SoundFiles (w.proc so.wcsColor) so k

/-- What is in the FITS file: a row of `image_info` for the coadd and for every source of desmeds, and epochs of sources
without flags only. -/
def Delivers (f4 : ℚ → ℚ) (rnd : ℝ → ℚ) (db : TileDb A) (camp : PyStr) (cfg : Yaml) (src0 : List (TDict A))
    (ss : List Section) : Prop :=
  ∃ (hdus : List (Hdu Flt)) (objs : List (ObjRow × RunRow)) (eps : List EpochRow) (md : Metadata) (bytes : List Nat)
    (rows : List InfoRow) (stars : List Section),
    ss = hdus.map .image ++ [.objectData objs, .epochsInfo eps, .metadata md, .tileInfo bytes, .imageInfo rows] ++ stars ∧
    (∀ r ∈ eps, ∃ (k : Nat) (d : TDict A), src0[k]? = some d ∧ r.imageId = k + 1 ∧ ∀ b, ¬ FlagFor db camp cfg d b) ∧
    rows.length = src0.length + 1 ∧
    ∀ (k : Nat) d r, src0[k]? = some d → rows[k + 1]? = some r → Reports f4 rnd db camp cfg d k r

end Pizza
