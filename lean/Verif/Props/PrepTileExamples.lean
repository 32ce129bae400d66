import Verif.Props.PrepTile

/-!
A tile that can be prepared (C112).
-/

namespace Pizza

/-- The description by desmeds. -/
def exPrepInfo : TDict Unit := fun k =>
  if k = "image_path" then some (.str "/d/T1_r.fits".toList)
  else if k = "tilename" then some (.str "T1".toList)
  else if k = "band" then some (.str "r".toList)
  else if k = "path" then some (.str "OPS/T1".toList)
  else if k = "filename" then some (.str "T1_r.fits".toList)
  else none

/-- Its only source. -/
def exPrepSrc : TDict Unit := fun k =>
  if k = "image_path" then some (.str "/d/D00000007_r_c01_im.fits".toList)
  else if k = "psf_path" then some (.str "/d/D00000007_r_c01_psf.fits".toList)
  else if k = "magzp" then some (.nat 30)
  else if k = "expnum" then some (.nat 7)
  else if k = "ccdnum" then some (.nat 1)
  else if k = "tilename" then some (.str "T1".toList)
  else if k = "band" then some (.str "r".toList)
  else if k = "path" then some (.str "OPS/D7".toList)
  else if k = "filename" then some (.str "D00000007_r_c01_im.fits".toList)
  else if k = "bkg_path" then some (.str "/d/D00000007_r_c01_bkg.fits".toList)
  else none

/-- What files hold: a description, or something else. -/
abbrev ExPrepData : Type := Option (TDict Unit × List (TDict Unit))

/-- The data base. -/
def exPrepDb : TileDb Unit where
  piffQa := fun _ _ => []
  geom := fun _ => [⟨"N".toList, 0, 1, 0, 1⟩]

/-- The row of the archive. -/
def exPrepRow : ArchiveRow := ⟨"cat_tile_gaia".toList, "OPS/gaia".toList, "T1_GAIA_v1.fits".toList⟩

/-- The run. -/
def exPrep : Prep Unit ExPrepData where
  tilename := "T1".toList
  band := "r".toList
  config := "/c/y6.yaml".toList
  clean := false
  pre := none
  medsDir := "/meds".toList
  tileDir := fun _ _ => "/meds/y6/T1".toList
  piffCampaign := some "y6".toList
  table := [⟨"cat_tile_gaia".toList, "OPS/gaia".toList, "T2_GAIA_v1.fits".toList⟩, exPrepRow]
  archive := fun _ => some none
  netOk := true
  cleanUp := pure ()
  download := pure ()
  getInfo := .ok (exPrepInfo, [exPrepSrc])
  db := exPrepDb
  dump := some
  dumpOk := true

theorem exPrep_at : PrepAt exPrep ["meds"] ["meds", "y6", "T1"] "y6".toList where
  medsDir := by decide
  medsPlain := ⟨by unfold PlainPath; decide, by decide⟩
  name := ⟨⟨by decide, by decide, "/c/".toList, .inr ⟨"/c".toList, rfl⟩, rfl⟩, by decide⟩
  tileDir := by decide
  tilePlain := ⟨by unfold PlainPath; decide, by decide⟩
  tile := by decide
  band := by decide
  rows := by
    intro r hr
    have : r = ⟨"cat_tile_gaia".toList, "OPS/gaia".toList, "T2_GAIA_v1.fits".toList⟩ ∨ r = exPrepRow := by
      simpa [exPrep] using hr
    rcases this with rfl | rfl
    · exact ⟨by decide, ["OPS", "gaia"], by unfold PlainPath; decide, by decide, by decide⟩
    · exact ⟨by decide, ["OPS", "gaia"], by unfold PlainPath; decide, by decide, by decide⟩

theorem exPrep_gaia : GaiaFile exPrep exPrepRow ["OPS", "gaia"] where
  first := by
    refine ⟨[⟨"cat_tile_gaia".toList, "OPS/gaia".toList, "T2_GAIA_v1.fits".toList⟩], [], rfl, ?_⟩
    intro r hr
    rw [List.mem_singleton] at hr
    subst hr
    rintro ⟨-, mid, e⟩
    have h1 := congrArg (fun l : PyStr => l[1]?) e
    simp [exPrep] at h1
  row := ⟨rfl, "_GAIA_".toList, by decide⟩
  plain := by unfold PlainPath; decide
  dir := by decide

/-- What the check sees. -/
def exPrepCheck : CheckInfo where
  paths := fun k =>
    if k = "image_path" then some (some "/d/T1_r.fits".toList)
    else if k = "bmask_path" then some (some "/d/T1_r.fits".toList)
    else if k = "gaia_stars_file" then some (some "/meds/y6/T1/sources-r/OPS/gaia/T1_GAIA_v1.fits".toList)
    else none
  scale := some 1
  band := some "r".toList
  srcs := [{
    paths := fun k =>
      if k = "image_path" ∨ k = "bmask_path" ∨ k = "weight_path" then
        some (some "/d/D00000007_r_c01_im.fits".toList)
      else if k = "psf_path" ∨ k = "psfex_path" then some (some "/d/D00000007_r_c01_psf.fits".toList)
      else if k = "bkg_path" then some (some "/d/D00000007_r_c01_bkg.fits".toList)
      else none
    band := some "r".toList
    tilename := some "T1".toList
    expnum := some 7
    ccdnum := some 1 }]

theorem exPrep_consistent : Consistent exPrepCheck "T1".toList "r".toList := by
  have h : checkInfo exPrepCheck = .ok () := by decide +kernel
  obtain ⟨t, b, hc⟩ := (C78_check_info _).1 h
  have hb : b = "r".toList := by
    have := hc.ownBand
    simp only [exPrepCheck, Option.some.injEq] at this
    exact this.symm
  have h1 : HasPath exPrepCheck.paths "image_path" "/d/T1_r.fits".toList := ⟨rfl, by decide⟩
  have h2 : IsBase "/d/T1_r.fits".toList "T1_r.fits".toList := ⟨by decide, .inr ⟨"/d".toList, rfl⟩⟩
  have h3 : IsTile "T1_r.fits".toList "T1".toList := ⟨by decide, .inr ⟨"r.fits".toList, rfl⟩⟩
  have ht : t = "T1".toList := isTile_unique (hc.oneTile "image_path" (by simp) _ _ h1 h2) h3
  rw [ht, hb] at hc
  exact hc

theorem exPrep_gaiaPlace : gaiaPlace ["meds", "y6", "T1"] exPrep.band ["OPS", "gaia"] exPrepRow =
    ["meds", "y6", "T1", "sources-r", "OPS", "gaia", "T1_GAIA_v1.fits"] := by decide

theorem exPrep_described : ∃ info src, Described exPrep
    (gaiaPlace ["meds", "y6", "T1"] exPrep.band ["OPS", "gaia"] exPrepRow) info src "T1".toList "r".toList := by
  have h1 : ∃ new, addSrcInfo exPrepDb (some "Y6".toList) exPrepSrc = .ok new := by
    simp only [addSrcInfo_eq]
    refine ⟨srcBase exPrepSrc (.str "/d/D00000007_r_c01_im.fits".toList)
        (.str "/d/D00000007_r_c01_psf.fits".toList) (.num (zpScale (30 : Nat))), _, _, _, _, rfl, rfl, rfl, rfl, ?_⟩
    rw [addPiffInfo_iff]
    simp only [srcBase_wants]
    refine ⟨?_, fun _ => trivial⟩
    rintro v c ⟨hv, -, -⟩
    cases hv
  obtain ⟨new, h1⟩ := h1
  rw [C102_source] at h1
  let info0 : TDict Unit := fun k => if k = "gaia_stars_file" then
    some (.str "/meds/y6/T1/sources-r/OPS/gaia/T1_GAIA_v1.fits".toList) else exPrepInfo k
  have h2 : ∃ r, addExtraTileInfo exPrepDb (some "Y6".toList) info0 [] = .ok r :=
    ⟨(_, []), (addExtra_eq _ _ _ _ _ _).2 ⟨.str "/d/T1_r.fits".toList, .str "T1".toList, rfl, rfl, rfl, rfl⟩⟩
  obtain ⟨⟨info, src⟩, h2⟩ := h2
  have h3 := ((C102_tile_info _ _ _ _ _ _).1 h2).1
  have e : pathText (gaiaPlace ["meds", "y6", "T1"] exPrep.band ["OPS", "gaia"] exPrepRow) =
      "/meds/y6/T1/sources-r/OPS/gaia/T1_GAIA_v1.fits".toList := by decide
  refine ⟨info, [new], ⟨exPrepInfo, [exPrepSrc], "y6".toList, rfl, rfl, ?_, .cons h1 .nil⟩,
    ⟨exPrepCheck, ⟨?_, ?_, ?_, .cons ⟨?_, ?_, ?_, ?_, ?_⟩ .nil⟩, exPrep_consistent⟩, ⟨[], rfl⟩⟩
  · rw [e]
    exact h3
  · obtain ⟨p, hp, -, hb⟩ := h3.paths
    cases hp
    intro k hk
    simp only [List.mem_cons, List.not_mem_nil, or_false] at hk
    rcases hk with rfl | rfl | rfl | rfl | rfl | rfl
    · rw [h3.rest _ (by decide)]; exact .text _
    · rw [h3.rest _ (by decide)]; exact .missing
    · rw [hb]; exact .text _
    · rw [h3.rest _ (by decide)]; exact .missing
    · rw [h3.rest _ (by decide)]; exact .text _
    · rw [h3.rest _ (by decide)]; exact .missing
  · exact ⟨fun _ => .inl h3.scale, fun _ => rfl⟩
  · rw [h3.rest _ (by decide)]; exact .text _
  · obtain ⟨p, hp, hw, hb⟩ := h1.paths
    obtain ⟨q, hq, hx⟩ := h1.psf
    cases hp
    cases hq
    intro k hk
    simp only [List.mem_cons, List.not_mem_nil, or_false] at hk
    rcases hk with rfl | rfl | rfl | rfl | rfl | rfl | rfl | rfl | rfl
    · rw [h1.rest _ (by decide) (by decide)]; exact .text _
    · rw [hb]; exact .text _
    · rw [h1.rest _ (by decide) (by decide)]; exact .text _
    · rw [h1.rest _ (by decide) (by decide)]; exact .missing
    · rw [hx]; exact .text _
    · rw [h1.rest _ (by decide) (by decide)]; exact .text _
    · rw [h1.rest _ (by decide) (by decide)]; exact .missing
    · rw [hw]; exact .text _
    · rw [h1.rest _ (by decide) (by decide)]; exact .missing
  · rw [h1.rest _ (by decide) (by decide)]; exact .text _
  · rw [h1.rest _ (by decide) (by decide)]; exact .text _
  · rw [h1.rest _ (by decide) (by decide)]; exact .num _
  · rw [h1.rest _ (by decide) (by decide)]; exact .num _

/-- A file system with the directories for the outputs and an old description. -/
def exPrepFS : FS ExPrepData where
  files := fun q => if q = infoPlace ["meds"] "y6".toList "T1".toList "r".toList then some none else none
  dirs := fun q => decide (q ∈ [["meds", "y6", "T1", "sources-r", "OPS", "gaia"], ["meds", "y6", "pizza_cutter_info"]])

theorem exPrep_row {r : ArchiveRow} {rp : FPath} (h : GaiaFile exPrep r rp) :
    r = exPrepRow ∧ rp = ["OPS", "gaia"] := by
  obtain ⟨pre, post, e, -⟩ := h.first
  have hm : r ∈ exPrep.table := by rw [e]; simp
  have : r = ⟨"cat_tile_gaia".toList, "OPS/gaia".toList, "T2_GAIA_v1.fits".toList⟩ ∨ r = exPrepRow := by
    simpa [exPrep] using hm
  rcases this with rfl | rfl
  · obtain ⟨-, mid, e⟩ := h.row
    have h1 := congrArg (fun l : PyStr => l[1]?) e
    simp [exPrep] at h1
  · refine ⟨rfl, ?_⟩
    rw [← splitPath_pathText h.plain, ← h.dir]
    decide

/-- The run returns: all conditions of the theorems hold, and the old description is replaced. -/
theorem exPrep_returns : (prepTile ⟨fun _ => true, fun _ _ => true, fun _ => [], fun _ _ => true⟩ exPrep exPrepFS).out =
    .ok () := by
  rw [C112_returns _ exPrep ["meds"] ["meds", "y6", "T1"] "y6".toList exPrepFS exPrep_at rfl rfl rfl rfl
    (fun _ _ _ _ _ => ⟨_, rfl⟩) ?_ ⟨by decide, by decide⟩ (fun _ => ⟨rfl, rfl⟩)]
  · obtain ⟨info, src, h⟩ := exPrep_described
    exact ⟨_, _, info, src, _, _, exPrep_gaia, h⟩
  · intro r rp h
    obtain ⟨rfl, rfl⟩ := exPrep_row h
    exact ⟨by decide, by decide⟩

example : ∃ x, (prepTile ⟨fun _ => true, fun _ _ => true, fun _ => [], fun _ _ => true⟩ exPrep exPrepFS).fs.files
    ["meds", "y6", "pizza_cutter_info", "T1_r_pizza_cutter_info.yaml"] = some (some x) := by
  obtain ⟨_, _, _, _, _, _, _, _, -, -, h, -⟩ := C112_written _ exPrep ["meds"] ["meds", "y6", "T1"] "y6".toList
    exPrepFS exPrep_at rfl (fun _ _ _ _ => rfl) exPrep_returns
  exact ⟨_, h⟩

/-- The conditions of `C112_untouched`, for a run with `--clean` too. -/
example (c : Bool) : PrepAt { exPrep with clean := c } ["meds"] ["meds", "y6", "T1"] "y6".toList ∧
    (∀ fs, ∀ st ∈ crashStates ({ exPrep with clean := c } : Prep Unit ExPrepData).download fs, st.files = fs.files) ∧
    (∀ fs, ∀ st ∈ crashStates ({ exPrep with clean := c } : Prep Unit ExPrepData).cleanUp fs, st.files = fs.files) := by
  obtain ⟨h1, h2, h3, h4, h5, h6, h7, h8⟩ := exPrep_at
  refine ⟨⟨h1, h2, h3, h4, h5, h6, h7, h8⟩, ?_, ?_⟩ <;>
  · intro fs st hst
    have : st = fs ∨ st ∈ ([] : List (FS ExPrepData)) ∨ st = fs := by simpa [crashStates, exPrep, FM.pure_def] using hst
    rcases this with rfl | h | rfl
    · rfl
    · cases h
    · rfl

/-- A tile and band with another place of the description. -/
example : PrepAt { exPrep with band := "i".toList } ["meds"] ["meds", "y6", "T1"] "y6".toList := by
  obtain ⟨h1, h2, h3, h4, h5, h6, h7, h8⟩ := exPrep_at
  exact ⟨h1, h2, h3, h4, h5, h6, by decide, h8⟩

/-- Without a campaign the same tile cannot be prepared. -/
example : ({ exPrep with piffCampaign := none } : Prep Unit ExPrepData).clean = false ∧
    ({ exPrep with piffCampaign := none } : Prep Unit ExPrepData).piffCampaign = none := ⟨rfl, rfl⟩

/-- `C112_returns` gives `exPrep_returns`. -/
example := exPrep_returns

/-- `C112_own_place`: the description of the band i is not at the place of that of the band r. -/
example : splitPath exPrep.output ≠ splitPath ({ exPrep with band := "i".toList } : Prep Unit ExPrepData).output := by
  intro he
  obtain ⟨h1, h2, h3, h4, h5, h6, h7, h8⟩ := exPrep_at
  have := (C112_own_place exPrep { exPrep with band := "i".toList } ["meds"] _ _ _ _ exPrep_at
    ⟨h1, h2, h3, h4, h5, h6, by decide, h8⟩ he).2.2
  revert this
  decide

/-- `C112_no_campaign`. -/
example (env : FsEnv ExPrepData) (fs : FS ExPrepData) :
    (prepTile env ({ exPrep with piffCampaign := none } : Prep Unit ExPrepData) fs).out ≠ .ok () :=
  C112_no_campaign env _ fs rfl rfl

end Pizza
