import Verif.Model.ConfigFiles

/-!
What it means that a configuration has an entry and what the options of a run are, without reference to the order
of lookups.
-/

namespace Pizza

/-- The entry at a path of names is `v`. -/
inductive At : Yaml → List String → Yaml → Prop
  | here (v) : At v [] v
  | step (l k v p u) : l.lookup k = some v → At v p u → At (.dict l) (k :: p) u

/-- A number, whole or not. -/
inductive IsNumber : Yaml → ℚ → Prop
  | int (n : ℤ) : IsNumber (.int n) n
  | num (q : ℚ) : IsNumber (.num q) q

/-- A number or null. -/
inductive IsOptional {α : Type} (P : Yaml → α → Prop) : Yaml → Option α → Prop
  | null : IsOptional P .null none
  | some (y a) : y ≠ .null → P y a → IsOptional P y (some a)

/-- What Python takes for false. -/
def Falsy (y : Yaml) : Prop :=
  y = .null ∨ y = .bool false ∨ y = .int 0 ∨ y = .num 0 ∨ y = .str "" ∨ y = .list [] ∨ y = .dict []

/-- A switch. -/
def IsSwitch (y : Yaml) (b : Bool) : Prop := b = false ↔ Falsy y

/-- A list of whole numbers whose sum is `n`. -/
def IsFlags (y : Yaml) (n : ℤ) : Prop := ∃ l : List ℤ, y = .list (l.map .int) ∧ n = l.sum

/-- How masks are to be symmetrised. -/
inductive IsSym : Yaml → SymCfg ℚ → Prop
  | off (y) : Falsy y → IsSym y .off
  | plain (y) : ¬ Falsy y → (∀ l, y ≠ .list l) → IsSym y .plain
  | angles (l a) : l ≠ [] → List.Forall₂ (IsOptional IsNumber) l a → IsSym (.list l) (.angles a)

/-- What the PSF models are checked with. -/
inductive IsPiffCheck : Yaml → Option (Nat × ℚ) → Prop
  | null : IsPiffCheck .null none
  | some (y g t v) : At y ["grid_size"] (.int ((g : Nat) : ℤ)) → At y ["max_abs_T_diff"] v → IsNumber v t →
      IsPiffCheck y (some (g, t))

/-- The weighting of the images. -/
inductive IsWeight : Yaml → CoaddWeight → Prop
  | noise : IsWeight (.str "noise") .noise
  | noiseFwhm : IsWeight (.str "noise-fwhm") .noiseFwhm
  | unknown (y) : y ≠ .str "noise" → y ≠ .str "noise-fwhm" → IsWeight y .unknown

/-- The options of the coadd are the entries of the configuration. -/
structure CoaddEntries (cfg : Yaml) (o : CoaddOptions) : Prop where
  central : At cfg ["coadd", "central_size"] (.int o.central)
  buffer : At cfg ["coadd", "buffer_size"] (.int o.buffer)
  psfBox : At cfg ["coadd", "psf_box_size"] (.int o.psfBox)
  wcsType : At cfg ["coadd", "wcs_type"] (.str o.wcsType)
  weight : ∃ v, At cfg ["coadd", "coadding_weight"] v ∧ IsWeight v o.weight

/-- The options of the star masks: read only if there is a catalog and the configuration has the entry. -/
inductive GaiaEntries (catalog : Bool) (cfg : Yaml) : Option (GaiaCfg Yaml) → Prop
  | absent : catalog = false ∨ (∀ v, ¬ At cfg ["single_epoch", "gaia_star_masks"] v) → GaiaEntries catalog cfg none
  | given (g mag coeffs) : catalog = true → At cfg ["single_epoch", "gaia_star_masks", "max_g_mag"] mag →
      IsNumber mag g.maxMag → At cfg ["single_epoch", "gaia_star_masks", "poly_coeffs"] (.list coeffs) →
      List.Forall₂ IsNumber coeffs g.coeffs →
      At cfg ["single_epoch", "gaia_star_masks", "symmetrize"] g.symmetrize → GaiaEntries catalog cfg (some g)

/-- The options of a slice in a band are the entries of the configuration. -/
structure SliceEntries (catalog : Bool) (cfg : Yaml) (band : String) (o : SliceOptions) : Prop where
  gaia : GaiaEntries catalog cfg o.gaia
  frac : ∃ v, At cfg ["single_epoch", "frac_buffer"] v ∧ IsNumber v o.frac
  seDelta : At cfg ["single_epoch", "se_wcs_interp_delta"] (.int ((o.seDelta : Nat) : ℤ))
  rejectOutliers : ∃ v, At cfg ["single_epoch", "reject_outliers"] v ∧ IsSwitch v o.rejectOutliers
  symmetrize : ∃ v, At cfg ["single_epoch", "symmetrize_masking"] v ∧ IsSym v o.symmetrize
  copyEdges : ∃ v, At cfg ["single_epoch", "copy_masked_edges"] v ∧ IsSwitch v o.copyEdges
  noiseFlags : ∃ v, At cfg ["single_epoch", "noise_interp_flags"] v ∧ IsFlags v o.noiseFlags
  splineFlags : ∃ v, At cfg ["single_epoch", "spline_interp_flags"] v ∧ IsFlags v o.splineFlags
  badImageFlags : ∃ v, At cfg ["single_epoch", "bad_image_flags"] v ∧ IsFlags v o.badImageFlags
  maxMasked : ∃ v, At cfg ["single_epoch", "max_masked_fraction"] v ∧ IsNumber v o.maxMasked
  tapeBumps : ∃ v, At cfg ["single_epoch", "mask_tape_bumps"] v ∧ IsSwitch v o.tapeBumps
  piffCheck : ∃ v, At cfg ["single_epoch", "mask_piff_failure"] v ∧ IsPiffCheck v o.piffCheck
  edgeBuffer : At cfg ["single_epoch", "edge_buffer"] (.int o.edgeBuffer)
  wcsType : At cfg ["single_epoch", "wcs_type"] (.str o.wcsType)
  wcsColor : ∃ v, At cfg ["single_epoch", "wcs_color"] v ∧ IsNumber v o.wcsColor
  psfType : At cfg ["single_epoch", "psf_type"] (.str o.psfType)
  psfKwargs : At cfg ["single_epoch", "psf_kwargs", band] o.psfKwargs
  coaddDelta : At cfg ["single_epoch", "coadd_wcs_interp_delta"] (.int ((o.coaddDelta : Nat) : ℤ))

/-- The cuts on PSF models: the four names and no others. -/
inductive IsCuts : Yaml → PiffCuts → Prop
  | intro (l c v₁ v₂ v₃ v₄) :
      (∀ e ∈ l, e.1 = "max_fwhm_cen" ∨ e.1 = "min_nstar" ∨ e.1 = "max_exp_T_mean_fac" ∨ e.1 = "max_ccd_T_std_fac") →
      At (.dict l) ["max_fwhm_cen"] v₁ → IsOptional IsNumber v₁ c.maxFwhmCen →
      At (.dict l) ["min_nstar"] v₂ → IsOptional (fun y (n : ℤ) => y = .int n) v₂ c.minNstar →
      At (.dict l) ["max_exp_T_mean_fac"] v₃ → IsOptional IsNumber v₃ c.maxExpTMeanFac →
      At (.dict l) ["max_ccd_T_std_fac"] v₄ → IsOptional IsNumber v₄ c.maxCcdTStdFac → IsCuts (.dict l) c

/-- An entry that need not be there. -/
inductive MaybeAt {α : Type} (P : Yaml → α → Prop) (cfg : Yaml) (p : List String) : Option α → Prop
  | absent : (∀ v, ¬ At cfg p v) → MaybeAt P cfg p none
  | given (v a) : At cfg p v → P v a → MaybeAt P cfg p (some a)

/-- The options for flagging images are the entries of the configuration. -/
structure FlagEntries (cfg : Yaml) (o : FlagCfg) : Prop where
  cuts : MaybeAt IsCuts cfg ["single_epoch", "piff_cuts"] o.piffCuts
  ccds : MaybeAt (fun y (l : List ℤ) => y = .list (l.map .int)) cfg ["single_epoch", "ignored_ccds"] o.ignoredCcds

/-- The tile `t` is `t₀` run with the configuration: every option under its own name, the slices `rows`, all else as in
`t₀` (the box, the start and the star mask in `cfg` are set per slice). -/
structure TileFrom {P : Type} (catalog : Bool) (cfg : Yaml) (band : String) (render : Yaml → PyStr) (rows : List ObjRow)
    (t₀ t : Tile ℚ Yaml P) : Prop where
  wcs : ∃ s, At cfg ["single_epoch", "wcs_type"] (.str s) ∧ t.wcs = .named s
  psf : ∃ s, At cfg ["single_epoch", "psf_type"] (.str s) ∧ t.psf = .named s
  kwargs : ∃ v, At cfg ["single_epoch", "psf_kwargs", band] v ∧ t.kwargs = render v
  tapeBumps : ∃ v, At cfg ["single_epoch", "mask_tape_bumps"] v ∧ IsSwitch v t.tapeBumps
  piffCheck : ∃ v, At cfg ["single_epoch", "mask_piff_failure"] v ∧ IsPiffCheck v t.piffCheck
  seDelta : At cfg ["single_epoch", "se_wcs_interp_delta"] (.int ((t.seDelta : Nat) : ℤ))
  coaddDelta : At cfg ["single_epoch", "coadd_wcs_interp_delta"] (.int ((t.coaddDelta : Nat) : ℤ))
  frac : ∃ v, At cfg ["single_epoch", "frac_buffer"] v ∧ IsNumber v t.cfg.fracBuffer
  weight : ∃ v, At cfg ["coadd", "coadding_weight"] v ∧ IsWeight v t.cfg.coaddingWeight
  rejectOutliers : ∃ v, At cfg ["single_epoch", "reject_outliers"] v ∧ IsSwitch v t.cfg.rejectOutliers
  symmetrize : ∃ v, At cfg ["single_epoch", "symmetrize_masking"] v ∧ IsSym v t.cfg.symmetrize
  copyEdges : ∃ v, At cfg ["single_epoch", "copy_masked_edges"] v ∧ IsSwitch v t.cfg.copyEdges
  noiseFlags : ∃ v n, At cfg ["single_epoch", "noise_interp_flags"] v ∧ IsFlags v n ∧
    t.cfg.noiseFlags = BitVec.ofInt 32 n
  splineFlags : ∃ v n, At cfg ["single_epoch", "spline_interp_flags"] v ∧ IsFlags v n ∧
    t.cfg.splineFlags = BitVec.ofInt 32 n
  badImageFlags : ∃ v n, At cfg ["single_epoch", "bad_image_flags"] v ∧ IsFlags v n ∧
    t.cfg.badImageFlags = BitVec.ofInt 32 n
  maxMasked : ∃ v, At cfg ["single_epoch", "max_masked_fraction"] v ∧ IsNumber v t.cfg.maxMaskedFraction
  edgeBuffer : At cfg ["single_epoch", "edge_buffer"] (.int t.cfg.edgeBuffer)
  gaia : GaiaEntries catalog cfg t.gaiaCfg
  objects : t.objects = rows
  same : t.entries = t₀.entries ∧ t.tmpdir = t₀.tmpdir ∧ t.fwd = t₀.fwd ∧ t.inv = t₀.inv ∧
    t.celestial = t₀.celestial ∧ t.key = t₀.key ∧ t.offset = t₀.offset ∧ t.shape = t₀.shape ∧
    t.gaiaPath = t₀.gaiaPath ∧ t.nExtra = t₀.nExtra

end Pizza
