import Verif.Lemmas.Config
import Verif.Props.Process
import Verif.Props.Constants

/-!
C115: which configurations can be run, what the options of a run are, and which of the files in config_files are
complete.
-/

namespace Pizza

/-! ### the options are the entries of the file -/

theorem coaddOptions_ok {cfg coadd : Yaml} (h : At cfg ["coadd"] coadd) (o : CoaddOptions) :
    coaddOptions coadd = .ok o ↔ CoaddEntries cfg o := by
  unfold coaddOptions
  simp only [bind_eq_ok, pure_ok_iff, item_ok, asInt_ok, asStr_ok]
  constructor
  · rintro ⟨a, ha, b, hb, c, hc, d, hd, e, he, a', rfl, b', rfl, c', rfl, d', rfl, rfl⟩
    exact ⟨h.under.mpr ha, h.under.mpr hb, h.under.mpr hc, h.under.mpr hd, e, h.under.mpr he, asWeight_iff.mp rfl⟩
  · rintro ⟨ha, hb, hc, hd, e, he, hw⟩
    refine ⟨_, h.under.mp ha, _, h.under.mp hb, _, h.under.mp hc, _, h.under.mp hd, e, h.under.mp he, _, rfl, _, rfl,
      _, rfl, _, rfl, ?_⟩
    rw [← asWeight_iff.mpr hw]

theorem gaiaOptions_ok {cfg se : Yaml} (catalog : Bool) (h : At cfg ["single_epoch"] se) (hd : ∃ l, se = .dict l)
    (o : Option (GaiaCfg Yaml)) : gaiaOptions catalog se = .ok o ↔ GaiaEntries catalog cfg o := by
  unfold gaiaOptions
  cases catalog with
  | false =>
    simp only [Bool.false_eq_true, if_false, pure_ok_iff]
    constructor
    · rintro rfl; exact .absent (Or.inl rfl)
    · intro hg
      cases hg with
      | absent => rfl
      | given _ _ _ h => cases h
  | true =>
    rw [if_pos rfl, bind_eq_ok]
    simp only [has_ok]
    by_cases hg : ∃ v, At se ["gaia_star_masks"] v
    · constructor
      · rintro ⟨b, ⟨_, hb⟩, ho⟩
        rw [if_pos (hb.mpr hg)] at ho
        simp only [bind_eq_ok, pure_ok_iff, item_ok, asNum_ok, asList_ok (fun a b => asNum_ok)] at ho
        obtain ⟨g, h1, m, h2, c, h3, s, h4, m', h5, c', ⟨l, rfl, h6⟩, rfl⟩ := ho
        have hg1 : ∀ {p u}, At cfg ("single_epoch" :: "gaia_star_masks" :: p) u ↔ At g p u :=
          h.under.trans h1.under
        exact .given _ m l rfl (hg1.mpr h2) h5 (hg1.mpr h3) h6 (hg1.mpr h4)
      · intro ho
        refine ⟨true, ⟨hd, iff_of_true rfl hg⟩, ?_⟩
        rw [if_pos rfl]
        simp only [bind_eq_ok, pure_ok_iff, item_ok, asNum_ok, asList_ok (fun a b => asNum_ok)]
        obtain ⟨g, h1⟩ := hg
        have hg1 : ∀ {p u}, At cfg ("single_epoch" :: "gaia_star_masks" :: p) u ↔ At g p u :=
          h.under.trans h1.under
        cases ho with
        | absent ha =>
          rcases ha with ha | ha
          · cases ha
          · exact absurd (h.under.mpr h1) (ha g)
        | given o mag coeffs _ h2 h3 h4 h5 h6 =>
          exact ⟨g, h1, mag, hg1.mp h2, _, hg1.mp h4, _, hg1.mp h6, _, h3, _, ⟨coeffs, rfl, h5⟩, rfl⟩
    · have ha : ∀ v, ¬ At cfg ["single_epoch", "gaia_star_masks"] v := fun v hv => hg ⟨v, h.under.mp hv⟩
      constructor
      · rintro ⟨b, ⟨_, hb⟩, ho⟩
        rw [if_neg (fun hb' => hg (hb.mp hb')), pure_ok_iff] at ho
        subst ho
        exact .absent (Or.inr ha)
      · intro ho
        refine ⟨false, ⟨hd, iff_of_false (by simp) hg⟩, ?_⟩
        rw [if_neg (by simp), pure_ok_iff]
        cases ho with
        | absent => rfl
        | given _ mag _ _ h2 =>
          obtain ⟨g, hg', _⟩ := At.cons_iff.mp (h.under.mp h2)
          exact absurd ⟨g, hg'⟩ hg

theorem At.isDict {y v : Yaml} {k : String} {p : List String} (h : At y (k :: p) v) : ∃ l, y = .dict l := by
  cases h with | step l => exact ⟨l, rfl⟩

theorem sliceOptions_ok {cfg se : Yaml} (catalog : Bool) (band : String) (h : At cfg ["single_epoch"] se)
    (o : SliceOptions) : sliceOptions catalog se band = .ok o ↔ SliceEntries catalog cfg band o := by
  unfold sliceOptions
  simp only [bind_eq_ok, pure_ok_iff, item_ok, asNum_ok, asInt_ok, asNat_ok, asStr_ok, sum_ok, asSym_ok,
    asPiffCheck_ok]
  constructor
  · rintro ⟨g, hg, y1, h1, y2, h2, y3, h3, y4, h4, y5, h5, y6, h6, n6, s6, y7, h7, n7, s7, y8, h8, n8, s8, y9, h9,
      y10, h10, y11, h11, y12, h12, y13, h13, y14, h14, y15, h15, y16, h16, y17, h17, y18, h18,
      n1, e1, n2, rfl, n4, e4, n9, e9, n11, e11, n12, rfl, n13, rfl, n14, e14, n15, rfl, n18, rfl, rfl⟩
    have hg' := (gaiaOptions_ok catalog h h1.isDict g).mp hg
    exact {
      gaia := hg'
      frac := ⟨_, h.under.mpr h1, e1⟩
      seDelta := h.under.mpr h2
      rejectOutliers := ⟨_, h.under.mpr h3, isSwitch_iff.mpr rfl⟩
      symmetrize := ⟨_, h.under.mpr h4, e4⟩
      copyEdges := ⟨_, h.under.mpr h5, isSwitch_iff.mpr rfl⟩
      noiseFlags := ⟨_, h.under.mpr h6, s6⟩
      splineFlags := ⟨_, h.under.mpr h7, s7⟩
      badImageFlags := ⟨_, h.under.mpr h8, s8⟩
      maxMasked := ⟨_, h.under.mpr h9, e9⟩
      tapeBumps := ⟨_, h.under.mpr h10, isSwitch_iff.mpr rfl⟩
      piffCheck := ⟨_, h.under.mpr h11, e11⟩
      edgeBuffer := h.under.mpr h12
      wcsType := h.under.mpr h13
      wcsColor := ⟨_, h.under.mpr h14, e14⟩
      psfType := h.under.mpr h15
      psfKwargs := h.under.mpr (h16.under.mpr h17)
      coaddDelta := h.under.mpr h18 }
  · rintro ⟨hg, ⟨y1, h1, e1⟩, h2, ⟨y3, h3, e3⟩, ⟨y4, h4, e4⟩, ⟨y5, h5, e5⟩, ⟨y6, h6, e6⟩, ⟨y7, h7, e7⟩,
      ⟨y8, h8, e8⟩, ⟨y9, h9, e9⟩, ⟨y10, h10, e10⟩, ⟨y11, h11, e11⟩, h12, h13, ⟨y14, h14, e14⟩, h15, h17, h18⟩
    obtain ⟨y16, h16, h17'⟩ := At.cons_iff.mp (h.under.mp h17)
    have h1' := h.under.mp h1
    refine ⟨_, (gaiaOptions_ok catalog h h1'.isDict _).mpr hg, y1, h1', _, h.under.mp h2, y3, h.under.mp h3, y4,
      h.under.mp h4, y5, h.under.mp h5, y6, h.under.mp h6, _, e6, y7, h.under.mp h7, _, e7, y8, h.under.mp h8, _, e8,
      y9, h.under.mp h9, y10, h.under.mp h10, y11, h.under.mp h11, _, h.under.mp h12, _, h.under.mp h13, y14,
      h.under.mp h14, _, h.under.mp h15, y16, h16, _, h17', _, h.under.mp h18, _, e1, _, rfl, _, e4, _, e9, _, e11,
      _, rfl, _, rfl, _, e14, _, rfl, _, rfl, ?_⟩
    rw [← isSwitch_iff.mp e3, ← isSwitch_iff.mp e5, ← isSwitch_iff.mp e10]

theorem dict_at {l : List (String × Yaml)} {k : String} {v : Yaml} : At (.dict l) [k] v ↔ l.lookup k = some v := by
  constructor
  · intro h
    cases h with
    | step _ _ w _ _ hl h' => rw [At.nil] at h'; rw [hl, h']
  · intro h; exact .step _ _ _ _ _ h (.here _)

theorem piffCutsOf_ok {y : Yaml} {c : PiffCuts} : piffCutsOf y = .ok c ↔ IsCuts y c := by
  constructor
  · intro h
    cases y <;> simp only [piffCutsOf, reduceCtorEq] at h
    rename_i l
    split at h
    · rename_i hall
      split at h
      · rename_i a b c' d ha hb hc hd
        simp only [bind_eq_ok, pure_ok_iff, asOpt_ok (fun a b => asNum_ok), asOpt_ok (fun a b => asInt_ok)] at h
        obtain ⟨a', h1, b', h2, c'', h3, d', h4, rfl⟩ := h
        refine .intro l _ a b c' d ?_ (dict_at.mpr ha) h1 (dict_at.mpr hb) h2 (dict_at.mpr hc) h3 (dict_at.mpr hd) h4
        intro e he
        have := List.all_eq_true.mp hall e he
        simpa using this
      · cases h
    · cases h
  · intro h
    cases h with
    | intro l c a b c' d hall ha h1 hb h2 hc h3 hd h4 =>
      simp only [piffCutsOf]
      rw [if_pos]
      · rw [dict_at.mp ha, dict_at.mp hb, dict_at.mp hc, dict_at.mp hd]
        simp only [bind_eq_ok, pure_ok_iff, asOpt_ok (fun a b => asNum_ok), asOpt_ok (fun a b => asInt_ok)]
        exact ⟨_, h1, _, h2, _, h3, _, h4, rfl⟩
      · rw [List.all_eq_true]
        intro e he
        simpa using hall e he

/-- An entry that need not be there. -/
theorem maybe_ok {α : Type} {R : Yaml → α → Prop} {f : Yaml → Except Err α} (hf : ∀ y a, f y = .ok a ↔ R y a)
    {cfg se : Yaml} {k : String} (h : At cfg ["single_epoch"] se) (hd : ∃ l, se = .dict l) (o : Option α) :
    se.optItem k f = .ok o ↔ MaybeAt R cfg ["single_epoch", k] o := by
  unfold Yaml.optItem
  rw [bind_eq_ok]
  simp only [has_ok]
  by_cases hg : ∃ v, At se [k] v
  · constructor
    · rintro ⟨b, ⟨_, hb⟩, ho⟩
      rw [if_pos (hb.mpr hg)] at ho
      simp only [bind_eq_ok, pure_ok_iff, item_ok, hf] at ho
      obtain ⟨v, h1, a, h2, rfl⟩ := ho
      exact .given v a (h.under.mpr h1) h2
    · intro ho
      refine ⟨true, ⟨hd, iff_of_true rfl hg⟩, ?_⟩
      rw [if_pos rfl]
      simp only [bind_eq_ok, pure_ok_iff, item_ok, hf]
      cases ho with
      | absent ha => obtain ⟨v, hv⟩ := hg; exact absurd (h.under.mpr hv) (ha v)
      | given v a h1 h2 => exact ⟨v, h.under.mp h1, a, h2, rfl⟩
  · constructor
    · rintro ⟨b, ⟨_, hb⟩, ho⟩
      rw [if_neg (fun hb' => hg (hb.mp hb')), pure_ok_iff] at ho
      subst ho
      exact .absent fun v hv => hg ⟨v, h.under.mp hv⟩
    · intro ho
      refine ⟨false, ⟨hd, iff_of_false (by simp) hg⟩, ?_⟩
      rw [if_neg (by simp), pure_ok_iff]
      cases ho with
      | absent => rfl
      | given v a h1 => exact absurd ⟨v, h.under.mp h1⟩ hg

theorem flagOptions_ok {cfg se : Yaml} (h : At cfg ["single_epoch"] se) (hd : ∃ l, se = .dict l)
    (o : Option FlagCfg) : flagOptions cfg = .ok o ↔ ∃ f, o = some f ∧ FlagEntries cfg f := by
  unfold flagOptions
  have hhas : cfg.has "single_epoch" = .ok true := has_ok.mpr ⟨h.isDict, iff_of_true rfl ⟨se, h⟩⟩
  rw [hhas, ok_bind, if_pos rfl, item_ok.mpr h, ok_bind, bind_eq_ok]
  have h1 := fun o => maybe_ok (k := "piff_cuts") (fun y a => piffCutsOf_ok (y := y) (c := a)) h hd o
  have h2 := fun o => maybe_ok (k := "ignored_ccds") (f := Yaml.asList Yaml.asInt)
    (R := fun y (l : List ℤ) => y = .list (l.map .int)) (fun y a => by
      rw [asList_ok (fun a b => asInt_ok)]
      constructor
      · rintro ⟨l, rfl, hl⟩; rw [forall₂_int.mp hl]
      · rintro rfl; exact ⟨_, rfl, forall₂_int.mpr rfl⟩) h hd o
  constructor
  · rintro ⟨c, hc, ho⟩
    obtain ⟨d, hd', ho⟩ := bind_eq_ok.mp ho
    rw [pure_ok_iff] at ho
    exact ⟨_, ho, (h1 c).mp hc, (h2 d).mp hd'⟩
  · rintro ⟨f, rfl, hf⟩
    refine ⟨f.piffCuts, (h1 _).mpr hf.cuts, bind_eq_ok.mpr ⟨f.ignoredCcds, (h2 _).mpr hf.ccds, ?_⟩⟩
    rw [pure_ok_iff]

/-- C115: a run gets its options exactly when the configuration has all the entries it needs, each of its type; the
options are those entries, each under its own name.  Only `gaia_star_masks`, `piff_cuts` and `ignored_ccds` may be
left out; the keywords of the PSF model are those of the band. -/
theorem C115_options (catalog : Bool) (cfg : Yaml) (band : String) (f : Option FlagCfg) (co : CoaddOptions)
    (so : SliceOptions) :
    runOptions catalog cfg band = .ok (f, co, so) ↔
      (∃ c, f = some c ∧ FlagEntries cfg c) ∧ CoaddEntries cfg co ∧ SliceEntries catalog cfg band so := by
  unfold runOptions
  simp only [bind_eq_ok, pure_ok_iff, item_ok]
  constructor
  · rintro ⟨f', hf, c, hc, se, hse, co', hco, so', hso, he⟩
    obtain ⟨rfl, rfl, rfl⟩ : f' = f ∧ co' = co ∧ so' = so := by simpa [eq_comm] using he
    have hS := (sliceOptions_ok catalog band hse _).mp hso
    obtain ⟨y, hy, _⟩ := hS.frac
    exact ⟨(flagOptions_ok hse (hse.under.mp hy).isDict _).mp hf, (coaddOptions_ok hc _).mp hco, hS⟩
  · rintro ⟨hf, hC, hS⟩
    obtain ⟨y, hy, _⟩ := hS.frac
    obtain ⟨se, hse, hy'⟩ := At.cons_iff.mp hy
    obtain ⟨c, hc, _⟩ := At.cons_iff.mp hC.central
    exact ⟨f, (flagOptions_ok hse hy'.isDict _).mpr hf, c, hc, se, hse, co, (coaddOptions_ok hc _).mpr hC, so,
      (sliceOptions_ok catalog band hse _).mpr hS, rfl⟩

/-- C115: des-pizza-cutter-prep-tile gets the two campaigns exactly when the configuration has both as texts. -/
theorem C115_campaigns (cfg : Yaml) (c p : String) :
    prepOptions cfg = .ok (c, p) ↔
      At cfg ["des_data", "campaign"] (.str c) ∧ At cfg ["des_data", "piff_campaign"] (.str p) := by
  unfold prepOptions
  simp only [bind_eq_ok, pure_ok_iff, item_ok, asStr_ok, Prod.mk.injEq]
  constructor
  · rintro ⟨d, hd, y, hy, d', hd', z, hz, c', rfl, p', rfl, rfl, rfl⟩
    exact ⟨hd.under.mpr hy, hd'.under.mpr hz⟩
  · rintro ⟨h1, h2⟩
    obtain ⟨d, hd, hy⟩ := At.cons_iff.mp h1
    exact ⟨d, hd, _, hy, d, hd, _, hd.under.mp h2, c, rfl, p, rfl, rfl, rfl⟩

/-! ### the files in config_files -/

/-- A result that satisfies a test. -/
def okAnd {α : Type} (x : Except Err α) (p : α → Bool) : Bool :=
  match x with
  | .ok a => p a
  | .error _ => false

theorem okAnd_iff {α : Type} {x : Except Err α} {p : α → Bool} :
    okAnd x p = true ↔ ∃ a, x = .ok a ∧ p a = true := by
  cases x <;> simp [okAnd]

/-- The files that the code can run. -/
def currentConfigs : List String :=
  ["des-pizza-slices-y6-v11", "des-pizza-slices-y6-v12", "des-pizza-slices-y6-v13", "des-pizza-slices-y6-v14",
    "des-pizza-slices-y6-v15"]

/-- The options of a run are usable: slices of positive size that fit a tile of 10000 pixels, an odd PSF, a known weighting, grids with positive
spacing, a masked fraction that can be exceeded, known kinds of WCS and PSF. -/
def UsableOptions (co : CoaddOptions) (so : SliceOptions) : Prop :=
  1 ≤ co.central ∧ 0 ≤ co.buffer ∧ co.central ∣ 10000 - 2 * co.buffer ∧ 0 ≤ co.psfBox ∧ co.psfBox % 2 = 1 ∧ co.wcsType = "image" ∧
  co.weight ≠ .unknown ∧ 1 ≤ so.frac ∧ 1 ≤ so.seDelta ∧ 1 ≤ so.coaddDelta ∧ 0 < so.maxMasked ∧ so.maxMasked < 1 ∧
  0 ≤ so.edgeBuffer ∧ so.wcsType ∈ ["image", "head", "affine", "pixmappy"] ∧ so.psfType ∈ ["galsim", "psfex", "piff"]

instance (co : CoaddOptions) (so : SliceOptions) : Decidable (UsableOptions co so) := by
  unfold UsableOptions; infer_instance

/-- C115, for five of the seventeen files: v11 to v15 of the Y6 configurations can be run in the bands g, r, i and z and
have usable options; des-pizza-cutter-prep-tile can use them too.  Missing: the other twelve files, and the band Y. -/
theorem C115_shipped_partial : ∀ e ∈ shippedConfigs, e.1 ∈ currentConfigs →
    (∃ c p, prepOptions e.2 = .ok (c, p)) ∧
    ∀ catalog, ∀ band ∈ ["g", "r", "i", "z"], ∃ f co so, runOptions catalog e.2 band = .ok (f, co, so) ∧
      UsableOptions co so ∧ (catalog = true → so.gaia.isSome = true) ∧ (∃ g t, so.piffCheck = some (g, t) ∧ 0 < g ∧ 0 < t) ∧
      (∃ c cuts l, f = some c ∧ c.piffCuts = some cuts ∧ c.ignoredCcds = some l) := by
  have h : ∀ e ∈ shippedConfigs, e.1 ∈ currentConfigs →
      okAnd (prepOptions e.2) (fun _ => true) = true ∧
      ∀ catalog, ∀ band ∈ ["g", "r", "i", "z"], okAnd (runOptions catalog e.2 band) (fun r =>
        decide (UsableOptions r.2.1 r.2.2) && (!catalog || r.2.2.gaia.isSome) &&
        (r.2.2.piffCheck.any fun g => decide (0 < g.1) && decide (0 < g.2)) &&
        (r.1.any fun c => c.piffCuts.isSome && c.ignoredCcds.isSome)) = true := by
    decide +kernel
  intro e he hn
  obtain ⟨h1, h2⟩ := h e he hn
  refine ⟨?_, fun catalog band hb => ?_⟩
  · obtain ⟨a, ha, _⟩ := okAnd_iff.mp h1
    exact ⟨a.1, a.2, ha⟩
  · obtain ⟨⟨f, co, so⟩, ha, hp⟩ := okAnd_iff.mp (h2 catalog band hb)
    simp only [Bool.and_eq_true, Bool.or_eq_true, Bool.not_eq_true', decide_eq_true_eq, Option.any_eq_true,
      Option.isSome_iff_exists] at hp
    obtain ⟨⟨⟨hu, hg⟩, ⟨g, t⟩, hpc, h0, h0'⟩, c, hc, ⟨cuts, hcuts⟩, l, hl⟩ := hp
    refine ⟨f, co, so, ha, hu, fun hcat => ?_, ⟨g, t, hpc, h0, h0'⟩, c, cuts, l, hc, hcuts, hl⟩
    rcases hg with hg | ⟨x, hx⟩
    · rw [hcat] at hg; cases hg
    · rw [hx]; rfl

/-- C115 fails for the other files: with any of them a run stops with a KeyError when its first slice is processed, whatever
the band and whether there is a star catalog or not. -/
theorem C115_shipped_fails : ∀ e ∈ shippedConfigs, e.1 ∉ currentConfigs → ∀ catalog band,
    runOptions catalog e.2 band = .error .keyError := by
  intro e he hn catalog band
  simp only [shippedConfigs, List.mem_cons, List.not_mem_nil, or_false] at he
  rcases he with rfl | rfl | rfl | rfl | rfl | rfl | rfl | rfl | rfl | rfl | rfl | rfl | rfl | rfl | rfl | rfl | rfl <;>
    first
    | (cases catalog <;> rfl)
    | exact absurd (by simp [currentConfigs]) hn

/-- The configuration with another entry in one of its sections. -/
def withEntry (cfg : Yaml) (sec key : String) (val : Yaml) : Yaml :=
  match cfg with
  | .dict l => .dict (l.map fun e => if e.1 = sec then (e.1, match e.2 with
      | .dict m => .dict ((key, val) :: m)
      | y => y) else e)
  | y => y

/-- The check for failed Piff models of the newer files. -/
def laterCheck : Yaml := .dict [("grid_size", .int 128), ("max_abs_T_diff", .num (15 / 100))]

/-- The PSF keywords of the newer files. -/
def laterKwargs : Yaml :=
  .dict [("g", .dict [("GI_COLOR", .num (11 / 10))]), ("r", .dict [("GI_COLOR", .num (11 / 10))]),
    ("i", .dict [("GI_COLOR", .num (11 / 10))]), ("z", .dict [("IZ_COLOR", .num (34 / 100))])]

/-- C115: what the older files lack is exactly the two entries `mask_piff_failure` and, for each band, `psf_kwargs`: with both
as in the newer files each of them can be run in the bands g, r, i and z and has usable options, with only one of the two
none can be run. -/
theorem C115_older : ∀ e ∈ shippedConfigs, e.1 ∉ currentConfigs → ∀ catalog, ∀ band ∈ ["g", "r", "i", "z"],
    (∃ f co so,
      runOptions catalog (withEntry (withEntry e.2 "single_epoch" "mask_piff_failure" laterCheck)
        "single_epoch" "psf_kwargs" laterKwargs) band = .ok (f, co, so) ∧ UsableOptions co so) ∧
    runOptions catalog (withEntry e.2 "single_epoch" "mask_piff_failure" laterCheck) band = .error .keyError ∧
    runOptions catalog (withEntry e.2 "single_epoch" "psf_kwargs" laterKwargs) band = .error .keyError := by
  have h : ∀ e ∈ shippedConfigs, e.1 ∉ currentConfigs →
      ∀ catalog, ∀ band ∈ ["g", "r", "i", "z"], okAnd (runOptions catalog
        (withEntry (withEntry e.2 "single_epoch" "mask_piff_failure" laterCheck) "single_epoch" "psf_kwargs" laterKwargs)
        band) (fun r => decide (UsableOptions r.2.1 r.2.2)) = true := by
    decide +kernel
  have hk : ∀ e ∈ shippedConfigs, e.1 ∉ currentConfigs →
      ∀ catalog, ∀ band ∈ ["g", "r", "i", "z"],
        (match runOptions catalog (withEntry e.2 "single_epoch" "mask_piff_failure" laterCheck) band with
          | .error .keyError => true | _ => false) = true ∧
        (match runOptions catalog (withEntry e.2 "single_epoch" "psf_kwargs" laterKwargs) band with
          | .error .keyError => true | _ => false) = true := by
    decide +kernel
  intro e he hn catalog band hb
  obtain ⟨⟨f, co, so⟩, h1, h2⟩ := okAnd_iff.1 (h e he hn catalog band hb)
  obtain ⟨h3, h4⟩ := hk e he hn catalog band hb
  refine ⟨⟨f, co, so, h1, of_decide_eq_true h2⟩, ?_, ?_⟩
  · revert h3; split
    · exact fun _ => by assumption
    · intro h; cases h
  · revert h4; split
    · exact fun _ => by assumption
    · intro h; cases h

/-- C115 fails for the band Y with all files. -/
theorem C115_band_fails : ∀ e ∈ shippedConfigs, ∀ catalog, runOptions catalog e.2 "Y" = .error .keyError := by
  intro e he catalog
  simp only [shippedConfigs, List.mem_cons, List.not_mem_nil, or_false] at he
  rcases he with rfl | rfl | rfl | rfl | rfl | rfl | rfl | rfl | rfl | rfl | rfl | rfl | rfl | rfl | rfl | rfl | rfl <;>
    cases catalog <;> rfl

/-- C115: each file names a coadd campaign of the year that its own name gives. -/
theorem C115_years : (shippedConfigs.map Prod.fst).Nodup ∧ ∀ e ∈ shippedConfigs, ∃ (y : Char) (c : String),
    "des-pizza-slices-y".toList ++ [y] <+: e.1.toList ∧ At e.2 ["des_data", "campaign"] (.str c) ∧
    ['Y', y] <+: c.toList ∧ "_COADD".toList <:+ c.toList := by
  refine ⟨by decide +kernel, ?_⟩
  have h : ∀ e ∈ shippedConfigs, okAnd (do let d ← e.2.item "des_data"; let y ← d.item "campaign"; y.asStr) (fun c =>
      ['3', '5', '6'].any fun y => decide ("des-pizza-slices-y".toList ++ [y] <+: e.1.toList) &&
        decide (['Y', y] <+: c.toList) && decide ("_COADD".toList <:+ c.toList)) = true := by
    decide +kernel
  intro e he
  obtain ⟨c, hc, hp⟩ := okAnd_iff.mp (h e he)
  simp only [bind_eq_ok, item_ok, asStr_ok] at hc
  obtain ⟨d, hd, y, hy, rfl⟩ := hc
  simp only [List.any_eq_true, Bool.and_eq_true, decide_eq_true_eq] at hp
  obtain ⟨y, -, ⟨h1, h2⟩, h3⟩ := hp
  exact ⟨y, c, h1, hd.under.mpr hy, h2, h3⟩

/-- `C115_years`: one of the files. -/
example : ("des-pizza-slices-y5", cfg_y5) ∈ shippedConfigs ∧ At cfg_y5 ["des_data", "campaign"] (.str "Y5A1_COADD") :=
  ⟨by simp [shippedConfigs], (item_ok.mp rfl : At cfg_y5 ["des_data"] _).under.mpr (item_ok.mp rfl)⟩
/-- C115: in all files the lists of flags mask exactly the pixels that carry one of the listed flags (they are summed,
see C84), and no list contains a bit that the code sets itself. -/
theorem C115_flags : ∀ e ∈ shippedConfigs,
    ∀ name ∈ ["noise_interp_flags", "spline_interp_flags", "bad_image_flags"], ∃ l : List Nat,
      At e.2 ["single_epoch", name] (.list (l.map fun n => .int ((n : Nat) : ℤ))) ∧
      (∀ v, pixelHas v (flagSum l) = true ↔ CarriesOneOf v l) ∧ (∀ f ∈ l, f < 2 ^ 23) := by
  have h : ∀ e ∈ shippedConfigs, ∀ name ∈ ["noise_interp_flags", "spline_interp_flags", "bad_image_flags"],
      okAnd (do let se ← e.2.item "single_epoch"; let y ← se.item name; y.asList Yaml.asNat) (fun l =>
        decide (l.Pairwise fun f g => f &&& g = 0) && l.all fun f => decide (f < 2 ^ 23)) = true := by
    decide +kernel
  intro e he name hn
  obtain ⟨l, hl, hp⟩ := okAnd_iff.mp (h e he name hn)
  simp only [bind_eq_ok, item_ok, asList_ok (fun a b => asNat_ok)] at hl
  obtain ⟨se, h1, y, h2, m, rfl, hm⟩ := hl
  simp only [Bool.and_eq_true, decide_eq_true_eq, List.all_eq_true] at hp
  have hmap := forall₂_nat hm
  subst hmap
  exact ⟨l, h1.under.mpr h2, fun v => C84_union_partial v l hp.1, hp.2⟩

/-! ### from a file to a tile -/

/-- C115: with usable options the slices of a tile can be laid out, and if its files are as they should be, everything
proved about slices (C93-C95, and C113, C114 in a process with caches) applies to the run. -/
theorem C115_sound {σ P : Type} (co : CoaddOptions) (so : SliceOptions) (hu : UsableOptions co so) (render : Yaml → PyStr)
    (fwd : ℚ → ℚ → ℚ × ℚ) (jac : ℚ → ℚ → ℚ × ℚ × ℚ × ℚ) (offset : ℚ) :
    ∃ rows, buildObjectData co.central co.buffer 10000 co.psfBox fwd jac offset = .ok rows ∧
    ∀ (w : ProcWorld ℚ σ Yaml P) (t₀ t : Tile ℚ Yaml P), t = tileWith co so render rows t₀ →
      (∀ e ∈ t.entries, ∀ con, (seInit w.disk e.src e.offset t.wcs t.psf).out = .ok con →
        (∀ a, w.original e.image = .ok a → a.dims = con.shape) ∧
        (∀ a, w.original e.bmask = .ok a → a.dims = con.shape) ∧
        (∀ a, w.original e.weight = .ok a → a.dims = con.shape)) →
      (∀ seed a, (w.memNoise seed a).nrow = a.nrow ∧ (w.memNoise seed a).ncol = a.ncol) →
      (∀ e ∈ t.entries, e.noiseSeeds.length = t.nExtra + 1) → w.ext.KeepsShape →
      (∀ im x, w.ext.fwhm im = .ok x → 0 < x) →
      SoundEnv (freshEnv w t) (co.central + 2 * co.buffer).toNat co.psfBox.toNat := by
  obtain ⟨h1, h2, h3, h4, h5, -, -, h6, -⟩ := hu
  obtain ⟨locs, hl⟩ := (C11_success_iff co.central co.buffer 10000 (by omega)).1.mpr h3
  obtain ⟨rows, hr, -⟩ := (C12_object_data co.central co.buffer 10000 co.psfBox fwd jac offset).2 locs hl
  refine ⟨rows, hr, ?_⟩
  rintro w t₀ t rfl hshape hnoise hseeds hkeeps hfwhm
  refine C113_sound w _ _ _ (by omega) (by omega) ?_ h6 hshape hnoise hseeds hkeeps hfwhm
  refine C93_boxes co.central co.buffer 10000 _ _ fwd jac offset rows (by omega) ?_
  rw [← hr]; congr 1; omega

/-- C115: the options arrive in the processing of slices under their own names. -/
theorem C115_tile {P : Type} (catalog : Bool) (cfg : Yaml) (band : String) (f : Option FlagCfg) (co : CoaddOptions)
    (so : SliceOptions) (h : runOptions catalog cfg band = .ok (f, co, so)) (render : Yaml → PyStr) (rows : List ObjRow)
    (t₀ : Tile ℚ Yaml P) : TileFrom catalog cfg band render rows t₀ (tileWith co so render rows t₀) := by
  obtain ⟨-, hC, hS⟩ := (C115_options catalog cfg band f co so).mp h
  exact {
    wcs := ⟨_, hS.wcsType, rfl⟩
    psf := ⟨_, hS.psfType, rfl⟩
    kwargs := ⟨_, hS.psfKwargs, rfl⟩
    tapeBumps := hS.tapeBumps
    piffCheck := hS.piffCheck
    seDelta := hS.seDelta
    coaddDelta := hS.coaddDelta
    frac := hS.frac
    weight := hC.weight
    rejectOutliers := hS.rejectOutliers
    symmetrize := hS.symmetrize
    copyEdges := hS.copyEdges
    noiseFlags := by obtain ⟨v, h1, h2⟩ := hS.noiseFlags; exact ⟨v, _, h1, h2, rfl⟩
    splineFlags := by obtain ⟨v, h1, h2⟩ := hS.splineFlags; exact ⟨v, _, h1, h2, rfl⟩
    badImageFlags := by obtain ⟨v, h1, h2⟩ := hS.badImageFlags; exact ⟨v, _, h1, h2, rfl⟩
    maxMasked := hS.maxMasked
    edgeBuffer := hS.edgeBuffer
    gaia := hS.gaia
    objects := rfl
    same := ⟨rfl, rfl, rfl, rfl, rfl, rfl, rfl, rfl, rfl, rfl⟩ }

/-! ### examples -/

/-- The newest configuration in the band r. -/
example : ∃ f co so, runOptions true cfg_y6_v15 "r" = .ok (f, co, so) ∧ UsableOptions co so := by
  obtain ⟨-, h⟩ := C115_shipped_partial ("des-pizza-slices-y6-v15", cfg_y6_v15) (by simp [shippedConfigs])
    (by simp [currentConfigs])
  obtain ⟨f, co, so, h1, h2, -⟩ := h true "r" (by simp)
  exact ⟨f, co, so, h1, h2⟩

example : At cfg_y6_v15 ["single_epoch", "psf_kwargs", "z", "IZ_COLOR"] (.num (mkRat 17 50)) :=
  .step _ _ _ _ _ rfl (.step _ _ _ _ _ rfl (.step _ _ _ _ _ rfl (.step _ _ _ _ _ rfl (.here _))))

example : ("des-pizza-slices-y3", cfg_y3) ∈ shippedConfigs ∧ "des-pizza-slices-y3" ∉ currentConfigs := by
  simp [shippedConfigs, currentConfigs]

/-- A configuration for simulations, with angles, without star masks and without a check of PSF models. -/
example : okAnd (sliceOptions true (.dict [("frac_buffer", .num (mkRat 3 2)), ("se_wcs_interp_delta", .int 10),
    ("reject_outliers", .bool false), ("symmetrize_masking", .list [.null, .int 90]), ("copy_masked_edges", .bool true),
    ("noise_interp_flags", .list []), ("spline_interp_flags", .list [.int 1, .int 4]), ("bad_image_flags", .list [.int 0]),
    ("max_masked_fraction", .num (mkRat 1 5)), ("mask_tape_bumps", .null), ("mask_piff_failure", .null),
    ("edge_buffer", .int 0), ("wcs_type", .str "affine"), ("wcs_color", .int 0), ("psf_type", .str "galsim"),
    ("psf_kwargs", .dict [("r", .null)]), ("coadd_wcs_interp_delta", .int 25)]) "r") (fun o =>
      decide (o.frac = 3 / 2) && decide (o.splineFlags = 5) && o.gaia.isNone && o.piffCheck.isNone) = true := by
  decide +kernel

/-- `C115_shipped_fails`, `C115_band_fails` and `C115_flags` for single configurations. -/
example := And.intro
  (C115_shipped_fails ("des-pizza-slices-y3", cfg_y3) (by simp [shippedConfigs]) (by simp [currentConfigs]) true "r")
  (And.intro
    (C115_band_fails ("des-pizza-slices-y6-v15", cfg_y6_v15) (by simp [shippedConfigs]) false)
    (C115_flags ("des-pizza-slices-y6-v15", cfg_y6_v15) (by simp [shippedConfigs]) "bad_image_flags" (by simp)))

/-- `C115_sound` and `C115_tile`: the newest configuration in the band r. -/
example (render : Yaml → PyStr) (t₀ : Tile ℚ Yaml Unit) : ∃ f co so rows,
    runOptions true cfg_y6_v15 "r" = .ok (f, co, so) ∧
    buildObjectData co.central co.buffer 10000 co.psfBox (fun x y => (x, y)) (fun _ _ => (1, 0, 0, 1)) 0 = .ok rows ∧
    TileFrom true cfg_y6_v15 "r" render rows t₀ (tileWith co so render rows t₀) := by
  obtain ⟨-, h⟩ := C115_shipped_partial ("des-pizza-slices-y6-v15", cfg_y6_v15) (by simp [shippedConfigs])
    (by simp [currentConfigs])
  obtain ⟨f, co, so, h1, h2, -⟩ := h true "r" (by simp)
  obtain ⟨rows, hr, -⟩ := C115_sound (σ := Unit) (P := Unit) co so h2 render (fun x y => (x, y))
    (fun _ _ => (1, 0, 0, 1)) 0
  exact ⟨f, co, so, rows, h1, hr, C115_tile true cfg_y6_v15 "r" f co so h1 render rows t₀⟩

end Pizza
