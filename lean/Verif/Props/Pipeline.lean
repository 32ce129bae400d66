import Verif.Props.PrepTile
import Verif.Props.ProgramFile
import Verif.Spec.Pipeline

/-!
C118: what `des-pizza-cutter-prep-tile` writes is what `des-pizza-cutter` needs.
-/

namespace Pizza

variable {A D σ P V ρ : Type} {rnd : ℝ → ℚ}

/-! ### reading back -/

section
variable {d : TDict A} {y : Yaml}

theorem ReadsDict.text (h : ReadsDict rnd d y) {k : String} {s : PyStr} (hk : k ≠ "src_info") (hv : d k = some (.str s)) :
    StoresText y k s := by
  obtain ⟨u, h1, h2⟩ := h.given k _ hk hv
  cases h2
  exact h1

theorem ReadsDict.num (h : ReadsDict rnd d y) {k : String} {x : ℝ} (hk : k ≠ "src_info") (hv : d k = some (.num x)) :
    ∃ u, At y [k] u ∧ IsNumber u (rnd x) := by
  obtain ⟨u, h1, h2⟩ := h.given k _ hk hv
  cases h2 with
  | num _ _ h2 => exact ⟨u, h1, h2⟩

theorem ReadsDict.nat (h : ReadsDict rnd d y) {k : String} {n : Nat} (hk : k ≠ "src_info") (hv : d k = some (.nat n)) :
    At y [k] (.int n) := by
  obtain ⟨u, h1, h2⟩ := h.given k _ hk hv
  cases h2
  exact h1

theorem ReadsDict.shape (h : ReadsDict rnd d y) {k : String} {a b : Nat} (hk : k ≠ "src_info")
    (hv : d k = some (.shape a b)) : At y [k] (.list [.int a, .int b]) := by
  obtain ⟨u, h1, h2⟩ := h.given k _ hk hv
  cases h2
  exact h1

theorem ReadsDict.piff (h : ReadsDict rnd d y) {k : String} {r : QaRow} (hk : k ≠ "src_info")
    (hv : d k = some (.piffInfo r)) : ∃ u, At y [k] u ∧ IsPiffInfo u r.qa := by
  obtain ⟨u, h1, h2⟩ := h.given k _ hk hv
  cases h2 with
  | piffInfo _ _ h2 => exact ⟨u, h1, h2⟩

theorem ReadsDict.none {α : Type} {R : Yaml → α → Prop} (h : ReadsDict rnd d y) {k : String} (hk : k ≠ "src_info")
    (hv : d k = Option.none) : MaybeAt R y [k] Option.none := .absent (h.absent k hk hv)

theorem ReadsDict.maybeText (h : ReadsDict rnd d y) {k : String} {s : PyStr} (hk : k ≠ "src_info")
    (hv : d k = some (.str s)) : MaybeAt IsText y [k] (some s) := .given _ s (h.text hk hv) rfl

theorem ReadsDict.sees (h : ReadsDict rnd d y) {k : String} {o : Option (Option PyStr)} (hk : k ≠ "src_info")
    (hs : SeesPath (d k) o) : MaybeAt (IsOptional IsText) y [k] o := by
  generalize hv : d k = v at hs
  cases hs with
  | missing => exact h.none hk hv
  | null =>
    obtain ⟨u, h1, h2⟩ := h.given k _ hk hv
    cases h2
    exact .given _ _ h1 .null
  | text s => exact .given _ _ (h.text hk hv) (.some _ s (by simp) rfl)

theorem ReadsDict.seesStr (h : ReadsDict rnd d y) {k : String} {o : Option PyStr} (hk : k ≠ "src_info")
    (hs : SeesStr (d k) o) : MaybeAt IsText y [k] o := by
  generalize hv : d k = v at hs
  cases hs with
  | missing => exact h.none hk hv
  | text s => exact h.maybeText hk hv

theorem ReadsDict.seesNat (h : ReadsDict rnd d y) {k : String} {o : Option Nat} (hk : k ≠ "src_info")
    (hs : SeesNat (d k) o) : MaybeAt (fun y (n : Nat) => y = .int (n : ℤ)) y [k] o := by
  generalize hv : d k = v at hs
  cases hs with
  | missing => exact h.none hk hv
  | num n => exact .given _ _ (h.nat hk hv) rfl

theorem ReadsDict.stored (h : ReadsDict rnd d y) {k : String} {v : TVal A} {m : ℝ} (hk : k ≠ "src_info")
    (hv : d k = some v) (hm : IsNum v m) : ∃ u q, At y [k] u ∧ IsNumber u q ∧ StoredNum rnd v q := by
  rcases hm with rfl | ⟨n, rfl, -⟩
  · obtain ⟨u, h1, h2⟩ := h.num hk hv
    exact ⟨u, _, h1, h2, .num m⟩
  · exact ⟨_, _, h.nat hk hv, .int n, .nat n⟩

end

/-! ### a source -/

section
variable {w : ProgWorld σ P V ρ} {db : TileDb A} {camp tile band : PyStr} {old new : TDict A} {cs : CheckSrc} {e c : Nat}
  {d cfg : Yaml}

theorem ccd_of_sees (hs : SeesSrc new cs) (hf : SrcFits tile band cs e c) : new "ccdnum" = some (.nat c) := by
  have h := hs.ccdnum
  rw [hf.ccd] at h
  generalize new "ccdnum" = v at h
  cases h
  rfl

/-- What the description says of the Piff model. -/
theorem piff_back (ho : SuppliedSrc old) (hd : SrcDone db (some camp) old new) (hr : ReadsDict rnd new d) :
    ∃ o, MaybeAt IsPiffInfo d ["piff_info"] o ∧
      ∀ q, o = some q ↔ ∃ path base e row, old "piff_path" = some (.str path) ∧ IsBase path base ∧ old "expnum" = some e ∧
        IsLastRow (db.piffQa e camp) base row ∧ q = row.qa := by
  by_cases hw : ∃ v c, WantsPiff old (some camp) v c
  · obtain ⟨v, c, hw⟩ := hw
    obtain ⟨path, base, e, row, rfl, h2, h3, h4, h5⟩ := hd.piff v c hw
    obtain ⟨w1, -, w3⟩ := hw
    cases w3
    obtain ⟨u, a1, a2⟩ := hr.piff (by decide) h5
    refine ⟨some row.qa, .given u _ a1 a2, fun q => ⟨fun h => ⟨path, base, e, row, w1, h2, h3, h4, (Option.some.inj h).symm⟩, ?_⟩⟩
    rintro ⟨path', base', e', row', b1, b2, b3, b4, rfl⟩
    rw [w1] at b1
    cases b1
    rw [h3] at b3
    cases b3
    rw [isBase_unique b2 h2] at b4
    rw [isLastRow_unique b4 h4]
  · have h := (hd.noPiff hw).trans (ho.absent "piff_info" (by simp))
    refine ⟨none, hr.none (by decide) h, fun q => ⟨fun h => (by cases h), ?_⟩⟩
    rintro ⟨path, base, e, row, b1, -⟩
    exact absurd ⟨_, camp, b1, by simp, rfl⟩ hw

theorem SrcDone.kept (hd : SrcDone db (some camp) old new) {k : String} (h1 : k ∉ srcKeys) (h2 : k ≠ "piff_info") {v : TVal A}
    (hv : old k = some v) : new k = some v := (hd.rest k h1 h2).trans hv

/-- The texts of a source that are recorded. -/
theorem paths_back (ho : SuppliedSrc old) (hd : SrcDone db (some camp) old new) (hr : ReadsDict rnd new d) :
    ∃ p b, old "image_path" = some (.str p) ∧ old "bkg_path" = some (.str b) ∧
      PathsFrom d ⟨p, ['s', 'c', 'i'], p, ['w', 'g', 't'], p, ['m', 's', 'k'], b, ['s', 'c', 'i']⟩ := by
  obtain ⟨p, hp⟩ := ho.texts "image_path" (by simp)
  obtain ⟨b, hb⟩ := ho.texts "bkg_path" (by simp)
  obtain ⟨p', h1, h2, h3⟩ := hd.paths
  rw [hp] at h1
  cases h1
  exact ⟨p, b, hp, hb,
    { imagePath := hr.text (by decide) (hd.kept (by decide) (by decide) hp)
      imageExt := hr.text (by decide) hd.imageExt
      bkgPath := hr.text (by decide) (hd.kept (by decide) (by decide) hb)
      bkgExt := hr.text (by decide) hd.bkgExt
      weightPath := hr.text (by decide) h2
      weightExt := hr.text (by decide) hd.weightExt
      bmaskPath := hr.text (by decide) h3
      bmaskExt := hr.text (by decide) hd.bmaskExt }⟩

/-- A source is loaded and flagged, and can be used. -/
theorem src_flagged (ho : SuppliedSrc old) (hd : SrcDone db (some camp) old new) (hs : SeesSrc new cs)
    (hf : SrcFits tile band cs e c) (hr : ReadsDict rnd new d) (fc : FlagCfg) (n : Nat) :
    ∃ (f : FlagSrc (Loaded P)) (x : InfoSrc WcsObj × Entry P), FlaggedFrom w fc n d f ∧ SourceFrom f x := by
  obtain ⟨path, hpath⟩ := ho.texts "path" (by simp)
  obtain ⟨file, hfile⟩ := ho.texts "filename" (by simp)
  obtain ⟨p, b, hp, hb, hpaths⟩ := paths_back ho hd hr
  obtain ⟨o, ho1, -⟩ := piff_back ho hd hr
  have hccd := hr.nat (by decide) (ccd_of_sees hs hf)
  have hshape := hr.shape (by decide) hd.shape
  obtain ⟨v, m, hv, hm, hscale⟩ := hd.scale
  obtain ⟨u, q, hu1, hu2, -⟩ := hr.stored (k := "magzp") (by decide) (hd.kept (by decide) (by decide) hv) hm
  obtain ⟨us, hus1, hus2⟩ := hr.num (by decide) hscale
  have hoff := hr.nat (by decide) hd.offset
  let l : Loaded P :=
    { path := some path, filename := some file, imagePath := some p, imageExt := some ['s', 'c', 'i']
      headPath := (cs.paths "head_path").join, ccdnum := some c, affineCfg := none, galsimCfg := none
      psfexPath := cs.paths "psfex_path", piffPath := cs.paths "piff_path", imageShape := some [4096, 2048], rest := d
      imageId := none, affineWcs := none, galsimPsf := none, imageWcs := none, headWcs := none, psfexPsf := none
      piffPsf := none, piffWcs := none, pixmappyWcs := none }
  let l' : Loaded P := { l with imageId := some ((n : ℤ) + 1) }
  have hview : LoadView d l :=
    { dict := hr.dict
      path := hr.maybeText (by decide) (hd.kept (by decide) (by decide) hpath)
      filename := hr.maybeText (by decide) (hd.kept (by decide) (by decide) hfile)
      imagePath := .given _ _ hpaths.imagePath rfl
      imageExt := .given _ _ hpaths.imageExt rfl
      headPath := ⟨_, hr.sees (by decide) (hs.paths "head_path" (by simp)), rfl⟩
      ccdnum := .given _ _ hccd rfl
      affineCfg := hr.none (by decide) ((hd.rest _ (by decide) (by decide)).trans (ho.absent _ (by simp)))
      galsimCfg := hr.none (by decide) ((hd.rest _ (by decide) (by decide)).trans (ho.absent _ (by simp)))
      psfexPath := hr.sees (by decide) (hs.paths "psfex_path" (by simp))
      piffPath := hr.sees (by decide) (hs.paths "piff_path" (by simp))
      imageShape := .given _ _ hshape rfl
      rest := rfl
      fresh := ⟨rfl, rfl, rfl, rfl, rfl, rfl, rfl, rfl, rfl⟩ }
  have hload : LoadedSrc w.load true n l l' :=
    { id := rfl
      same := ⟨rfl, rfl, rfl, rfl, rfl, rfl, rfl, rfl, rfl, rfl, rfl, rfl⟩
      affine := .inl ⟨rfl, rfl⟩
      galsim := .inl ⟨rfl, rfl⟩
      skipped := fun _ => ⟨rfl, rfl, rfl, rfl, rfl, rfl⟩
      named := fun h => by cases h
      image := fun h => by cases h
      head := fun h => by cases h
      psfex := fun h => by cases h
      piff := fun h => by cases h }
  let f0 : FlagSrc (Loaded P) :=
    { imageFlags := 0, piffInfo := o, ccdnum := c, hasPath := true, hasFilename := true, rest := l' }
  have hf0 : FlagView l' f0 :=
    { flags := hr.nat (by decide) hd.flags
      piff := ho1
      ccdnum := rfl
      hasPath := ⟨fun _ => ⟨_, rfl⟩, fun _ => rfl⟩
      hasFilename := ⟨fun _ => ⟨_, rfl⟩, fun _ => rfl⟩
      rest := rfl }
  obtain ⟨f, h1, h2⟩ : ∃ f, SameButFlags f f0 ∧
      ∀ b, f.imageFlags.testBit b = true ↔ f0.imageFlags.testBit b = true ∨ Adds fc f0 b := by
    have hret := (C79_returns (some fc) [f0]).mpr (.inr ⟨fc, rfl, fun ii hii => by
      simp only [List.mem_singleton] at hii
      subst hii
      intro hun
      obtain ⟨-, hun⟩ := hun
      revert hun
      simp [f0]⟩)
    have h := C79_flags fc [f0] (flagDataInInfo (some fc) [f0]).1 (Prod.ext rfl hret)
    obtain ⟨f, l, hf, -, -⟩ := List.forall₂_cons_right_iff.1 h
    exact ⟨f, hf⟩
  have hrest : f.rest = l' := h1.rest
  refine ⟨f, ({ paths := ⟨p, ['s', 'c', 'i'], p, ['w', 'g', 't'], p, ['m', 's', 'k'], b, ['s', 'c', 'i']⟩
                nums := ⟨(n : ℤ) + 1, f.imageFlags, q, rnd ((10 : ℝ) ^ ((0.4 : ℝ) * (30 - m))), 1⟩
                imageWcs := none, affine := false },
      { src := { imagePath := some p, imageExt := some ['s', 'c', 'i'], headPath := (cs.paths "head_path").join
                 affineWcs := none, piffPath := (cs.paths "piff_path").join, ccdnum := some c, galsimPsf := none
                 psfexPath := (cs.paths "psfex_path").join, imageShape := some (4096, 2048) }
        imageFlags := f.imageFlags, imageId := (n : ℤ) + 1, magzp := q, offset := 1, noiseSeeds := [], piffSeed := 0
        image := .file (p, ['s', 'c', 'i']), bkg := .file (b, ['s', 'c', 'i']), bmask := .file (p, ['m', 's', 'k'])
        weight := .file (p, ['w', 'g', 't']) }), ?_, ?_⟩
  · refine ⟨⟨l, hview, hrest ▸ hload⟩, f0, hrest ▸ hf0, h1, h2, fun _ => ⟨rfl, rfl⟩⟩
  · exact
      { paths := by rw [hrest]; exact hpaths
        nums := by
          rw [hrest]
          exact ⟨⟨u, hu1, hu2⟩, ⟨us, hus1, hus2⟩, ⟨_, hoff, by simpa using IsNumber.int 1⟩⟩
        id := by rw [hrest]
        flags := rfl
        wcs := by rw [hrest]
        affine := by rw [hrest]; simp [l', l]
        used := ⟨rfl, rfl, rfl, rfl⟩
        noSeeds := ⟨rfl, rfl⟩
        files := ⟨rfl, rfl, rfl, rfl⟩
        src := by rw [hrest]; exact ⟨rfl, rfl, rfl, rfl, rfl, rfl, rfl, rfl⟩
        shape := by rw [hrest]; rfl }

/-- A source is checked. -/
theorem src_checked (hs : SeesSrc new cs) (hf : SrcFits tile band cs e c) (hr : ReadsDict rnd new d) :
    ∃ cs', CheckSrcFrom d cs' ∧ SrcFits tile band cs' e c := by
  refine ⟨{ cs with paths := fun k => if k ∈ ["image_path", "bkg_path", "bmask_path", "piff_path", "psfex_path", "psf_path",
    "seg_path", "weight_path", "head_path"] then cs.paths k else none }, ⟨hr.dict, fun k => ⟨fun hk => ?_, fun hk => if_neg hk⟩,
    hr.seesStr (by decide) hs.band, hr.seesStr (by decide) hs.tilename, hr.seesNat (by decide) hs.expnum,
    hr.seesNat (by decide) hs.ccdnum⟩, ⟨hf.exp, hf.ccd, hf.sameBand, hf.sameTile, fun key p b h1 h2 h3 => ?_,
    fun p b h1 h2 => ?_⟩⟩
  · simp only [hk, if_true]
    refine hr.sees ?_ (hs.paths k ?_)
    · rintro rfl
      revert hk
      decide
    · revert hk
      simp only [List.mem_cons, List.not_mem_nil, or_false]
      tauto
  · refine hf.slug key p b ?_ h2 h3
    obtain ⟨g1, g2⟩ := h1
    refine ⟨?_, g2⟩
    rw [← g1]
    refine (if_pos ?_).symm
    revert h3
    simp only [List.mem_cons, List.not_mem_nil, or_false]
    tauto
  · exact hf.head p b h1 h2

end

/-! ### the description -/

section
variable {w : ProgWorld σ P V ρ} {a : GoArgs} {p : Prep A D} {gaia : FPath} {info0 info : TDict A} {src0 src : List (TDict A)}
  {tile band text : PyStr} {y cfg : Yaml} {ys : List Yaml} {co : CoaddOptions} {so : SliceOptions}

theorem Described.parts (hd : Described p gaia info src tile band) (hget : p.getInfo = .ok (info0, src0)) :
    ∃ camp, p.piffCampaign = some camp ∧
      CoaddDone p.db (fun k => if k = "gaia_stars_file" then some (.str (pathText gaia)) else info0 k) info ∧
      List.Forall₂ (SrcDone p.db (some (camp.map Char.toUpper))) src0 src := by
  obtain ⟨i0, s0, camp, h1, h2, h3, h4⟩ := hd.complete
  rw [hget] at h1
  obtain ⟨rfl, rfl⟩ := Prod.mk.inj (Except.ok.inj h1)
  exact ⟨camp, h2, h3, h4⟩

theorem CoaddDone.kept {db : TileDb A} {f : Option (TVal A)}
    (hd : CoaddDone db (fun k => if k = "gaia_stars_file" then f else info0 k) info) {k : String} (h1 : k ∉ coaddInfoKeys)
    (h2 : k ≠ "gaia_stars_file") : info k = info0 k := by
  rw [hd.rest k h1]
  exact if_neg h2

/-- The description is checked again. -/
theorem info_checked (hd : Described p gaia info src tile band) (hget : p.getInfo = .ok (info0, src0)) (hrnd : rnd 1 = 1)
    (hr : ReadsInfo rnd info src y ys) : ∃ ci, CheckFrom y ys ci ∧ Consistent ci tile band := by
  obtain ⟨camp, -, hcd, -⟩ := hd.parts hget
  obtain ⟨c, hs, hc⟩ := hd.consistent
  have hsrc : ∃ cs', List.Forall₂ CheckSrcFrom ys cs' ∧ ∀ ii ∈ cs', ∃ e n, SrcFits tile band ii e n := by
    have h1 := hs.srcs
    have h2 := hc.srcs
    have h3 := hr.srcs
    generalize c.srcs = l at h1 h2
    clear hd hs hc hr hcd
    induction h3 generalizing l with
    | nil => exact ⟨[], .nil, fun _ h => by cases h⟩
    | @cons d u ds us hdu _ ih =>
      obtain ⟨cs, l', g1, g2, rfl⟩ := List.forall₂_cons_left_iff.1 h1
      obtain ⟨e, n, hf⟩ := h2 cs (by simp)
      obtain ⟨cs', e1, e2⟩ := src_checked g1 hf hdu
      obtain ⟨l2, e3, e4⟩ := ih l' g2 (fun ii hii => h2 ii (List.mem_cons_of_mem _ hii))
      refine ⟨cs' :: l2, .cons e1 e3, fun ii hii => ?_⟩
      rcases List.mem_cons.1 hii with rfl | hii
      · exact ⟨e, n, e2⟩
      · exact e4 ii hii
  obtain ⟨cs', hsrc1, hsrc2⟩ := hsrc
  obtain ⟨u, hu1, hu2⟩ := hr.coadd.num (by decide) hcd.scale
  rw [hrnd] at hu2
  have hpath : ∀ {k q}, k ∈ ["image_path", "seg_path", "bmask_path", "psf_path", "gaia_stars_file", "cat_path"] →
      HasPath (fun k => if k ∈ ["image_path", "seg_path", "bmask_path", "psf_path", "gaia_stars_file", "cat_path"] then c.paths k
        else none) k q → HasPath c.paths k q := by
    intro k q hk h
    refine ⟨?_, h.2⟩
    rw [← h.1]
    exact (if_pos hk).symm
  have hpath' : ∀ {k q}, k ∈ ["image_path", "seg_path", "bmask_path", "psf_path", "gaia_stars_file", "cat_path"] →
      HasPath c.paths k q → HasPath (fun k => if k ∈ ["image_path", "seg_path", "bmask_path", "psf_path", "gaia_stars_file",
        "cat_path"] then c.paths k else none) k q := by
    intro k q hk h
    refine ⟨?_, h.2⟩
    rw [← h.1]
    exact if_pos hk
  have hsub : ∀ {k}, k ∈ ["image_path", "seg_path", "bmask_path", "psf_path", "gaia_stars_file"] →
      k ∈ ["image_path", "seg_path", "bmask_path", "psf_path", "gaia_stars_file", "cat_path"] := by
    intro k
    simp only [List.mem_cons, List.not_mem_nil, or_false]
    tauto
  refine ⟨⟨fun k => if k ∈ ["image_path", "seg_path", "bmask_path", "psf_path", "gaia_stars_file", "cat_path"] then c.paths k
    else none, some 1, c.band, cs'⟩, ⟨hr.coadd.dict, fun k => ⟨fun hk => ?_, fun hk => if_neg hk⟩, .given u _ hu1 hu2,
    hr.coadd.seesStr (by decide) hs.band, hsrc1⟩, ⟨rfl, hc.ownBand, ?_, ?_, ?_, ?_, ?_, ?_, ?_, hsrc2⟩⟩
  · simp only [hk, if_true]
    refine hr.coadd.sees ?_ (hs.paths k hk)
    rintro rfl
    revert hk
    decide
  · obtain ⟨k, h1, q, h2⟩ := hc.present
    exact ⟨k, h1, q, hpath' (hsub h1) h2⟩
  · exact fun k hk q b h1 h2 => hc.oneTile k hk q b (hpath (hsub hk) h1) h2
  · exact fun q h => hc.image q (hpath (by simp) h)
  · exact fun q h => hc.bmask q (hpath (by simp) h)
  · exact fun q h => hc.cat q (hpath (by simp) h)
  · exact fun q h => hc.psf q (hpath (by simp) h)
  · exact fun q h => hc.seg q (hpath (by simp) h)

/-- The sources are loaded and flagged, and can be used. -/
theorem srcs_flagged (hd : Described p gaia info src tile band) (hget : p.getInfo = .ok (info0, src0))
    (hs0 : ∀ d ∈ src0, SuppliedSrc d) (hr : ReadsInfo rnd info src y ys) (fc : FlagCfg) :
    ∃ (fl : List (FlagSrc (Loaded P))) (xs : List (InfoSrc WcsObj × Entry P)), fl.length = ys.length ∧
      (∀ (k : Nat) d f, ys[k]? = some d → fl[k]? = some f → FlaggedFrom w fc k d f) ∧ List.Forall₂ SourceFrom fl xs := by
  obtain ⟨camp, -, -, hsd⟩ := hd.parts hget
  obtain ⟨c, hs, hc⟩ := hd.consistent
  have h1 := hs.srcs
  have h2 := hc.srcs
  have h3 := hr.srcs
  rw [forall₂_index] at hsd h1 h3
  have hall : ∀ k : Fin ys.length, ∃ (f : FlagSrc (Loaded P)) (x : InfoSrc WcsObj × Entry P),
      FlaggedFrom w fc k ys[k] f ∧ SourceFrom f x := by
    intro ⟨k, hk⟩
    have k1 : k < src.length := h3.1 ▸ hk
    have k2 : k < src0.length := hsd.1 ▸ k1
    have k3 : k < c.srcs.length := h1.1 ▸ k1
    obtain ⟨e, n, hf⟩ := h2 _ (List.getElem_mem k3)
    exact src_flagged (hs0 _ (List.getElem_mem k2))
      (hsd.2 k _ _ (List.getElem?_eq_getElem k2) (List.getElem?_eq_getElem k1))
      (h1.2 k _ _ (List.getElem?_eq_getElem k1) (List.getElem?_eq_getElem k3)) hf
      (h3.2 k _ _ (List.getElem?_eq_getElem k1) (List.getElem?_eq_getElem hk)) fc k
  choose f x hfx using hall
  refine ⟨List.ofFn f, List.ofFn x, by simp, fun k d g h4 h5 => ?_, ?_⟩
  · obtain ⟨hk, rfl⟩ := List.getElem?_eq_some_iff.1 h4
    rw [List.getElem?_ofFn, dif_pos hk] at h5
    cases h5
    exact (hfx ⟨k, hk⟩).1
  · rw [forall₂_index]
    refine ⟨by simp, fun k g z h4 h5 => ?_⟩
    have hk : k < ys.length := by simpa using (List.getElem?_eq_some_iff.1 h4).1
    rw [List.getElem?_ofFn, dif_pos hk] at h4 h5
    cases h4
    cases h5
    exact (hfx ⟨k, hk⟩).2

/-- C118: a description that was prepared is accepted: the second program comes to its call, and everything that it needs is
there. -/
theorem C118_accepted (hd : Described p gaia info src tile band) (hget : p.getInfo = .ok (info0, src0))
    (hc0 : SuppliedCoadd info0) (hs0 : ∀ d ∈ src0, SuppliedSrc d) (hrnd : rnd 1 = 1) (hr : ReadsInfo rnd info src y ys)
    (hinfo : ∃ t, w.readText a.info = .ok t ∧ w.parse t = .ok y) (hcut : CanCut w a text cfg band co so)
    (himg : ∃ q h x, info0 "image_path" = some (.str q) ∧ w.load.readHeader q ['s', 'c', 'i'] = .ok h ∧
      w.load.mkWcs (mungeHeader h) = .ok x) :
    ∃ c k s, Calls w a cfg y ys c ∧ LooksUp cfg c k ∧ Needs w a cfg c s so ∧ c.band = band ∧
      info0 "tilename" = some (.str c.tilename) := by
  obtain ⟨camp, -, hcd, -⟩ := hd.parts hget
  obtain ⟨path, hpath⟩ := hc0.texts "path" (by simp)
  obtain ⟨file, hfile⟩ := hc0.texts "filename" (by simp)
  obtain ⟨tn, htn⟩ := hc0.texts "tilename" (by simp)
  obtain ⟨q, hd', x, hq, hh, hx⟩ := himg
  obtain ⟨fc, hfc⟩ := hcut.flags
  obtain ⟨fl, xs, hlen, hfl, hxs⟩ := srcs_flagged (w := w) hd hget hs0 hr fc
  obtain ⟨ci, hci1, hci2⟩ := info_checked hd hget hrnd hr
  have R := hr.coadd
  have keep : ∀ {k v}, k ∉ coaddInfoKeys → k ≠ "gaia_stars_file" → info0 k = v → info k = v :=
    fun h1 h2 h3 => (hcd.kept h1 h2).trans h3
  have hband : StoresText y "band" band := by
    have h := hci1.band
    rw [hci2.ownBand] at h
    exact (maybeText_stores h band).mp rfl
  have hg : info "gaia_stars_file" = some (.str (pathText gaia)) := by
    rw [hcd.rest _ (by decide)]
    exact if_pos rfl
  let l : Loaded P :=
    { path := some path, filename := some file, imagePath := some q, imageExt := some ['s', 'c', 'i']
      headPath := none, ccdnum := none, affineCfg := none, galsimCfg := none
      psfexPath := none, piffPath := none, imageShape := some [10000, 10000], rest := y
      imageId := none, affineWcs := none, galsimPsf := none, imageWcs := none, headWcs := none, psfexPsf := none
      piffPsf := none, piffWcs := none, pixmappyWcs := none }
  let l' : Loaded P := { l with imageId := some 0, imageWcs := some (some x) }
  have hview : LoadView y l :=
    { dict := R.dict
      path := R.maybeText (by decide) (keep (by decide) (by decide) hpath)
      filename := R.maybeText (by decide) (keep (by decide) (by decide) hfile)
      imagePath := R.maybeText (by decide) (keep (by decide) (by decide) hq)
      imageExt := R.maybeText (by decide) hcd.imageExt
      headPath := ⟨none, R.none (by decide) (keep (by decide) (by decide) (hc0.absent _ (by simp))), rfl⟩
      ccdnum := R.none (by decide) (keep (by decide) (by decide) (hc0.absent _ (by simp)))
      affineCfg := R.none (by decide) (keep (by decide) (by decide) (hc0.absent _ (by simp)))
      galsimCfg := R.none (by decide) (keep (by decide) (by decide) (hc0.absent _ (by simp)))
      psfexPath := R.none (by decide) (keep (by decide) (by decide) (hc0.absent _ (by simp)))
      piffPath := R.none (by decide) (keep (by decide) (by decide) (hc0.absent _ (by simp)))
      imageShape := .given _ _ (R.shape (by decide) hcd.shape) rfl
      rest := rfl
      fresh := ⟨rfl, rfl, rfl, rfl, rfl, rfl, rfl, rfl, rfl⟩ }
  have hload : LoadedCoadd w.load l l' :=
    { id := rfl
      same := ⟨rfl, rfl, rfl, rfl, rfl, rfl, rfl, rfl, rfl, rfl, rfl, rfl⟩
      named := ⟨by simp [l], by simp [l]⟩
      image := .inl ⟨x, ⟨q, _, hd', rfl, rfl, hh, hx⟩, rfl⟩
      affine := .inl ⟨rfl, rfl⟩
      others := ⟨rfl, rfl, rfl, rfl, rfl, rfl⟩ }
  obtain ⟨meds, hmeds⟩ := hcut.named tn
  obtain ⟨pars, hpars⟩ := hcut.pars
  obtain ⟨n, hn1, hn2⟩ := hcut.seed
  obtain ⟨cc, hcc⟩ : ∃ v, At cfg ["coadd"] v := by
    cases hcut.coadd.1.central with
    | step es _ v _ _ h1 h2 => exact ⟨v, .step _ _ _ _ _ h1 (.here _)⟩
  obtain ⟨sc, hsc, hsd⟩ : ∃ v, At cfg ["single_epoch"] v ∧ ∃ es, v = .dict es := by
    cases hcut.slices.edgeBuffer with
    | step es _ v _ _ h1 h2 =>
      cases h2 with
      | step es' => exact ⟨_, .step _ _ _ _ _ h1 (.here _), es', rfl⟩
  obtain ⟨um, hm1, hm2⟩ := R.num (by decide) hcd.magzp
  obtain ⟨us, hsc1, hsc2⟩ := R.num (by decide) hcd.scale
  refine ⟨⟨text, w.dumps y, meds, pars, cc, sc, tn, band, l', fl, some (pathText gaia)⟩,
    ⟨⟨0, 0, rnd 30, rnd 1, 1⟩, xs, some (10000, 10000), co, x⟩, w.rng n,
    { level := hcut.level
      inputs := ⟨hcut.config.1, hcut.config.2, hinfo⟩
      json := rfl
      tilename := R.text (by decide) (keep (by decide) (by decide) htn)
      band := hband
      sources := hr.list
      coadd := ⟨l, hview, hload⟩
      flagged := ⟨fc, hfc, hlen, hfl⟩
      checked := ⟨ci, tile, band, hci1, hci2⟩
      name := hmeds
      pars := hpars
      coaddCfg := hcc
      seCfg := ⟨hsc, hsd⟩
      gaia := ⟨some (some (pathText gaia)), .given _ _ (R.text (by decide) hg) (.some _ _ (by simp) rfl), rfl⟩ },
    { id := rfl
      flags := R.nat (by decide) hcd.flags
      nums := ⟨⟨um, hm1, hm2⟩, ⟨us, hsc1, hsc2⟩, ⟨_, R.nat (by decide) hcd.offset, by simpa using IsNumber.int 1⟩⟩
      srcs := hxs
      shape := rfl
      options := hcut.coadd.1
      wcs := .inl ⟨hcut.coadd.2, rfl⟩ },
    ⟨⟨n, hn1, hn2, rfl⟩, hcut.slices⟩, rfl, htn⟩

/-- Source number `n` of desmeds, its finished description, what is read and what is checked. -/
theorem src_at (hd : Described p gaia info src tile band) (hget : p.getInfo = .ok (info0, src0))
    (hr : ReadsInfo rnd info src y ys) : src0.length = ys.length ∧
    ∃ camp, p.piffCampaign = some camp ∧ ∀ (n : Nat) old d, src0[n]? = some old → ys[n]? = some d →
      ∃ new cs e c, SrcDone p.db (some (camp.map Char.toUpper)) old new ∧ ReadsDict rnd new d ∧ SeesSrc new cs ∧
        SrcFits tile band cs e c := by
  obtain ⟨camp, hcamp, -, hsd⟩ := hd.parts hget
  obtain ⟨ci, hs, hc⟩ := hd.consistent
  have h1 := hs.srcs
  have h3 := hr.srcs
  rw [forall₂_index] at hsd h1 h3
  refine ⟨by have a := hsd.1; have b := h3.1; omega, camp, hcamp, fun n old d ho hd => ?_⟩
  have k1 : n < src.length := by have a := hsd.1; have := (List.getElem?_eq_some_iff.1 ho).1; omega
  have k3 : n < ci.srcs.length := by have a := h1.1; omega
  obtain ⟨e, c, hf⟩ := hc.srcs _ (List.getElem_mem k3)
  exact ⟨src[n], ci.srcs[n], e, c, hsd.2 n _ _ ho (List.getElem?_eq_getElem k1), h3.2 n _ _ (List.getElem?_eq_getElem k1) hd,
    h1.2 n _ _ (List.getElem?_eq_getElem k1) (List.getElem?_eq_getElem k3), hf⟩

theorem src_with (hd : Described p gaia info src tile band) (hget : p.getInfo = .ok (info0, src0))
    (hr : ReadsInfo rnd info src y ys) {d : Yaml} (hm : d ∈ ys) :
    ∃ (camp : PyStr) (old new : TDict A) (cs : CheckSrc) (e c : Nat), old ∈ src0 ∧ SrcDone p.db (some (camp.map Char.toUpper)) old new ∧ ReadsDict rnd new d ∧
      SeesSrc new cs ∧ SrcFits tile band cs e c := by
  obtain ⟨hlen, camp, -, h⟩ := src_at hd hget hr
  obtain ⟨n, hn, rfl⟩ := List.mem_iff_getElem.1 hm
  obtain ⟨new, cs, e, c, h1, h2, h3, h4⟩ := h n _ _ (List.getElem?_eq_getElem (hlen ▸ hn)) (List.getElem?_eq_getElem hn)
  exact ⟨camp, _, new, cs, e, c, List.getElem_mem _, h1, h2, h3, h4⟩

end

section
variable {db : TileDb A} {camp tile band : PyStr} {old new : TDict A} {cs : CheckSrc} {e c : Nat} {d cfg : Yaml}

/-- C118: the flags that the second program computes for a source are those that the QA table of its exposure and the list
of ignored CCDs ask for. -/
theorem C118_flags (ho : SuppliedSrc old) (hd : SrcDone db (some camp) old new) (hs : SeesSrc new cs)
    (hf : SrcFits tile band cs e c) (hr : ReadsDict rnd new d) (b : Nat) : FlagBit cfg d b ↔ FlagFor db camp cfg old b := by
  obtain ⟨o, ho1, ho2⟩ := piff_back ho hd hr
  have hc1 := ccd_of_sees hs hf
  have hc2 := hr.nat (by decide) hc1
  have hc3 : old "ccdnum" = some (.nat c) := (hd.rest _ (by decide) (by decide)).symm.trans hc1
  constructor
  · intro h
    cases h with
    | own n _ h1 h2 =>
      have := h1.unique (hr.nat (by decide) hd.flags)
      simp only [Yaml.int.injEq, Nat.cast_inj] at this
      rw [this] at h2
      simp at h2
    | piff u v cuts q _ h1 h2 h3 h4 h5 =>
      obtain ⟨q', e1, e2⟩ := ho1.of_at h3
      obtain ⟨path, base, ex, row, g1, g2, g3, g4, rfl⟩ := (ho2 q').mp e1
      exact .piff u cuts path base ex row b h1 h2 g1 g2 g3 g4 (h4.unique e2 ▸ h5)
    | ccd l n h1 h2 h3 =>
      have := Yaml.int.inj (h2.unique hc2)
      subst this
      exact .ccd l c h1 hc3 h3
  · intro h
    cases h with
    | piff u cuts path base ex row _ h1 h2 h3 h4 h5 h6 h7 =>
      have := (ho2 row.qa).mpr ⟨path, base, ex, row, h3, h4, h5, h6, rfl⟩
      obtain ⟨v, g1, g2⟩ := (this ▸ ho1).some
      exact .piff u v cuts _ b h1 h2 g1 g2 h7
    | ccd l n h1 h2 h3 =>
      rw [hc3] at h2
      cases h2
      exact .ccd l _ h1 hc2 h3

theorem number_unique {u : Yaml} {q q' : ℚ} (h : IsNumber u q) (h' : IsNumber u q') : q = q' := by
  cases h <;> cases h' <;> rfl

/-- A row that says what the description says reports the source of desmeds. -/
theorem reports_of {w : ProgWorld σ P V ρ} (ho : SuppliedSrc old) (hd : SrcDone db (some camp) old new) (hs : SeesSrc new cs)
    (hf : SrcFits tile band cs e c) (hr : ReadsDict rnd new d) {n : Nat} {r : InfoRow} (h : DescribesSrc w cfg d n r) :
    Reports w.f4 rnd db camp cfg old n r := by
  obtain ⟨p, b, hp, hb, hpaths⟩ := paths_back ho hd hr
  obtain ⟨v, m, hv, hm, hscale⟩ := hd.scale
  obtain ⟨u, q, hu1, hu2, hu3⟩ := hr.stored (k := "magzp") (by decide) (hd.kept (by decide) (by decide) hv) hm
  obtain ⟨us, hus1, hus2⟩ := hr.num (by decide) hscale
  have hoff := hr.nat (by decide) hd.offset
  have hext : ∀ {key : String} {t x : PyStr}, StoresText d key t → t.length ≤ 3 →
      (∃ t', StoresText d key t' ∧ (t'.length ≤ 3 → x = t')) → x = t := by
    rintro key t x h1 h2 ⟨t', h3, h4⟩
    rw [storesText_unique h3 h1] at h4
    exact h4 h2
  refine ⟨h.id, ?_, ?_, ?_, ?_, ⟨p, hp, storesText_unique h.imagePath hpaths.imagePath,
    storesText_unique h.weightPath hpaths.weightPath, storesText_unique h.bmaskPath hpaths.bmaskPath⟩,
    ⟨b, hb, storesText_unique h.bkgPath hpaths.bkgPath⟩, hext hpaths.imageExt (by decide) h.imageExt,
    hext hpaths.weightExt (by decide) h.weightExt, hext hpaths.bmaskExt (by decide) h.bmaskExt,
    hext hpaths.bkgExt (by decide) h.bkgExt⟩
  · obtain ⟨f, h1, h2⟩ := h.flags
    exact ⟨f, h1, fun b => (h2 b).trans (C118_flags ho hd hs hf hr b)⟩
  · obtain ⟨v', q', h1, h2, h3⟩ := h.magzp
    rw [h1.unique hu1] at h2
    exact ⟨v, q, hv, hu3, by rw [h3, number_unique h2 hu2]⟩
  · obtain ⟨v', q', h1, h2, h3⟩ := h.scale
    rw [h1.unique hus1] at h2
    exact ⟨v, m, hv, hm, by rw [h3, number_unique h2 hus2]⟩
  · obtain ⟨v', h1, h2⟩ := h.offset
    rw [h1.unique hoff] at h2
    have : IsNumber (.int ((1 : Nat) : ℤ)) 1 := by simpa using IsNumber.int 1
    exact number_unique h2 this

end

section
variable {p : Prep A D} {gaia : FPath} {info0 info : TDict A} {src0 src : List (TDict A)} {tile band : PyStr} {y : Yaml}
  {ys : List Yaml}

/-- C118: in a description that was prepared the masks are apart from the other files, and sources with the same mask are of
the same CCD. -/
theorem C118_own_masks (hd : Described p gaia info src tile band) (hget : p.getInfo = .ok (info0, src0))
    (hs0 : ∀ d ∈ src0, SuppliedSrc d) (hr : ReadsInfo rnd info src y ys) : OwnMasks ys := by
  have hdec : ∀ {u v : PyStr} {x : Yaml}, u ≠ v → x = .str (String.ofList u) → x ≠ .str (String.ofList v) := by
    intro u v x huv h h'
    rw [h] at h'
    exact huv (String.ofList_injective (Yaml.str.inj h'))
  refine ⟨fun d h1 d' h1' q x hq hx => ?_, fun d h1 d' h1' q x n n' hq hx hq' hx' hn hn' => ?_⟩
  · obtain ⟨camp, old, new, cs, e, c, a1, a2, a3, a4, a5⟩ := src_with hd hget hr h1
    obtain ⟨camp', old', new', cs', e', c', b1, b2, b3, b4, b5⟩ := src_with hd hget hr h1'
    obtain ⟨i, b, -, -, g⟩ := paths_back (hs0 _ a1) a2 a3
    obtain ⟨i', b', -, -, g'⟩ := paths_back (hs0 _ b1) b2 b3
    have hx := hx.unique g.bmaskExt
    refine ⟨fun h => ?_, fun h => ?_, fun h => ?_⟩
    · exact hdec (by simp) hx (h.2.unique g'.imageExt)
    · exact hdec (by simp) hx (h.2.unique g'.bkgExt)
    · exact hdec (by simp) hx (h.2.unique g'.weightExt)
  · obtain ⟨camp, old, new, cs, e, c, a1, a2, a3, a4, a5⟩ := src_with hd hget hr h1
    obtain ⟨camp', old', new', cs', e', c', b1, b2, b3, b4, b5⟩ := src_with hd hget hr h1'
    obtain ⟨i, _, hi, -, g⟩ := paths_back (hs0 _ a1) a2 a3
    obtain ⟨i', _, hi', -, g'⟩ := paths_back (hs0 _ b1) b2 b3
    have hii : i = i' := by
      have := (hq.unique g.bmaskPath).symm.trans (hq'.unique g'.bmaskPath)
      exact String.ofList_injective (Yaml.str.inj this)
    subst hii
    have hne : i ≠ [] := fun h => (hs0 _ a1).file (h ▸ hi)
    have hs : ∀ {old new : TDict A} {camp : PyStr} {cs : CheckSrc}, SrcDone p.db (some (camp.map Char.toUpper)) old new →
        SeesSrc new cs → old "image_path" = some (.str i) → HasPath cs.paths "image_path" i := by
      intro old new camp cs h1 h2 h3
      have h4 := h2.paths "image_path" (by simp)
      rw [h1.kept (by decide) (by decide) h3] at h4
      generalize hp : cs.paths "image_path" = o at h4
      cases h4
      exact ⟨hp, hne⟩
    obtain ⟨r, e1⟩ := a5.slug "image_path" i _ (hs a2 a4 hi) (pyBasename_isBase i) (by simp)
    obtain ⟨r', e2⟩ := b5.slug "image_path" i _ (hs b2 b4 hi') (pyBasename_isBase i) (by simp)
    have hcc : c = c' := by
      have h := e1.symm.trans e2
      have h' : decimalPad 8 e ++ '_' :: (band ++ ('_' :: 'c' :: (decimalPad 2 c ++ '_' :: r))) =
          decimalPad 8 e' ++ '_' :: (band ++ ('_' :: 'c' :: (decimalPad 2 c' ++ '_' :: r'))) := by
        simpa using h
      obtain ⟨-, h2⟩ := split_first h' (under_notin_pad _ _) (under_notin_pad _ _)
      have h3 := List.append_cancel_left h2
      simp only [List.cons.injEq, true_and] at h3
      obtain ⟨h4, -⟩ := split_first h3 (under_notin_pad _ _) (under_notin_pad _ _)
      exact decimalPad_inj h4
    have h5 := hn.unique (a3.nat (by decide) (ccd_of_sees a4 a5))
    have h6 := hn'.unique (b3.nat (by decide) (ccd_of_sees b4 b5))
    rw [h5, h6, hcc]

/-- The texts that are recorded do not end in a NUL character. -/
theorem plain_back (hd : Described p gaia info src tile band) (hget : p.getInfo = .ok (info0, src0))
    (hs0 : ∀ d ∈ src0, SuppliedSrc d) (hr : ReadsInfo rnd info src y ys)
    (hpl : ∀ d ∈ src0, ∀ k ∈ ["image_path", "bkg_path"], ∀ s, d k = some (.str s) → ∀ t, s ≠ t ++ ['\x00']) :
    ∀ d ∈ ys, PlainTexts d := by
  intro d hm
  obtain ⟨camp, old, new, cs, e, c, a1, a2, a3, a4, a5⟩ := src_with hd hget hr hm
  obtain ⟨i, b, hi, hb, g⟩ := paths_back (hs0 _ a1) a2 a3
  have fin : ∀ {key : String} {s : String} {u : PyStr}, At d [key] (.str s) → StoresText d key u → (∀ t, u ≠ t ++ ['\x00']) →
      ∀ t, s.toList ≠ t ++ ['\x00'] := by
    intro key s u h1 h2 h3
    rw [Yaml.str.inj (h1.unique h2), String.toList_ofList]
    exact h3
  have short : ∀ (x y z : Char), z ≠ '\x00' → ∀ t : PyStr, [x, y, z] ≠ t ++ ['\x00'] := by
    intro x y z hz t h
    have h1 := congrArg List.getLast? h
    rw [List.getLast?_append_of_ne_nil _ (by simp)] at h1
    exact hz (by simpa using h1)
  have ti := hpl _ a1 "image_path" (by simp) i hi
  have tb := hpl _ a1 "bkg_path" (by simp) b hb
  intro key hk s hs
  simp only [List.mem_cons, List.not_mem_nil, or_false] at hk
  rcases hk with rfl | rfl | rfl | rfl | rfl | rfl | rfl | rfl
  · exact fin hs g.imagePath ti
  · exact fin hs g.imageExt (short _ _ _ (by decide))
  · exact fin hs g.bkgPath tb
  · exact fin hs g.bkgExt (short _ _ _ (by decide))
  · exact fin hs g.weightPath ti
  · exact fin hs g.weightExt (short _ _ _ (by decide))
  · exact fin hs g.bmaskPath ti
  · exact fin hs g.bmaskExt (short _ _ _ (by decide))

end

section
variable {w : ProgWorld σ P V ρ} {a : GoArgs} {p : Prep A D} {gaia : FPath} {info0 info : TDict A} {src0 src : List (TDict A)}
  {tile band : PyStr} {y cfg : Yaml} {ys : List Yaml}

/-- What is read is the description. -/
theorem calls_reads (hinfo : ∃ t, w.readText a.info = .ok t ∧ w.parse t = .ok y) (hr : ReadsInfo rnd info src y ys)
    {info' : Yaml} {srcs : List Yaml} {c : Called P} (h : Calls w a cfg info' srcs c) : info' = y ∧ srcs = ys := by
  obtain ⟨t, h1, h2⟩ := hinfo
  obtain ⟨t', h3, h4⟩ := h.inputs.info
  cases h1.symm.trans h3
  cases h2.symm.trans h4
  exact ⟨rfl, Yaml.list.inj (h.sources.unique hr.list)⟩

/-- C118: a description that was prepared meets what is assumed about the masks and the texts. -/
theorem C118_good (hd : Described p gaia info src tile band) (hget : p.getInfo = .ok (info0, src0))
    (hs0 : ∀ d ∈ src0, SuppliedSrc d) (hr : ReadsInfo rnd info src y ys)
    (hinfo : ∃ t, w.readText a.info = .ok t ∧ w.parse t = .ok y) (work : Option FPath) (hg : GoodRun w a work src0) :
    GoodRequest w a work := by
  refine ⟨fun cfg info' srcs c k s so h1 h2 h3 => ?_⟩
  obtain ⟨rfl, rfl⟩ := calls_reads hinfo hr h1
  obtain ⟨g1, g2, g3⟩ := hg.good _ _ _ _ _ _ _ h1 h2 h3
  exact ⟨C118_own_masks hd hget hs0 hr, g1, plain_back hd hget hs0 hr hg.plain, g2, g3⟩

/-- A file that says what the description says delivers what desmeds supplied. -/
theorem delivers_of (hd : Described p gaia info src tile band) (hget : p.getInfo = .ok (info0, src0))
    (hs0 : ∀ d ∈ src0, SuppliedSrc d) (hr : ReadsInfo rnd info src y ys) {text : PyStr} {ss : List Section}
    (h : WritesFile w text cfg y ys ss) : ∃ camp, p.piffCampaign = some camp ∧
      Delivers w.f4 rnd p.db (camp.map Char.toUpper) cfg src0 ss := by
  obtain ⟨hlen, camp, hcamp, hat⟩ := src_at hd hget hr
  obtain ⟨hdus, objs, eps, md, bytes, rows, stars, e1, e2, -, -, -, -, e3, -, e4⟩ := h.parts
  have mem : ∀ {n : Nat} {old : TDict A}, src0[n]? = some old → old ∈ src0 := fun h => List.mem_of_getElem? h
  refine ⟨camp, hcamp, hdus, objs, eps, md, bytes, rows, stars, e1, fun r hr => ?_, by rw [e3, hlen], fun n old r h1 h2 => ?_⟩
  · obtain ⟨n, d, h1, h2, h3⟩ := e2 r hr
    have hn : n < src0.length := hlen ▸ (List.getElem?_eq_some_iff.1 h1).1
    obtain ⟨new, cs, e, c, a1, a2, a3, a4⟩ := hat n _ _ (List.getElem?_eq_getElem hn) h1
    exact ⟨n, _, List.getElem?_eq_getElem hn, h2, fun b hb =>
      h3 b ((C118_flags (hs0 _ (List.getElem_mem hn)) a1 a3 a4 a2 b).mpr hb)⟩
  · have hn : n < ys.length := hlen ▸ (List.getElem?_eq_some_iff.1 h1).1
    obtain ⟨new, cs, e, c, a1, a2, a3, a4⟩ := hat n _ _ h1 (List.getElem?_eq_getElem hn)
    exact reports_of (hs0 _ (mem h1)) a1 a3 a4 a2 (e4 n _ r (List.getElem?_eq_getElem hn) h2)

theorem gaia_back (hd : Described p gaia info src tile band) (hget : p.getInfo = .ok (info0, src0))
    (hr : ReadsInfo rnd info src y ys) {c : Called P} (h : Calls w a cfg y ys c) : c.gaia = some (pathText gaia) := by
  obtain ⟨camp, -, hcd, -⟩ := hd.parts hget
  have hg : info "gaia_stars_file" = some (.str (pathText gaia)) := by
    rw [hcd.rest _ (by decide)]
    exact if_pos rfl
  obtain ⟨o, h1, h2⟩ := h.gaia
  have h3 := hr.coadd.text (by decide) hg
  rw [h2]
  cases h1 with
  | absent h1 => exact absurd h3 (h1 _)
  | given v o h1 h4 =>
    cases h1.unique h3
    cases h4 with
    | some _ t _ h4 =>
      have : t = pathText gaia := String.ofList_injective (Yaml.str.inj h4).symm
      rw [this]
      rfl

/-- C118: preparing a tile and then cutting it.  If both programs succeed and the second one reads back what the first one
wrote, then the output has a row for every source that desmeds supplied, which says what desmeds, the data base and the
configuration say about it, only sources without flags have epochs, and the stars are those of the file that was fetched
from the archive. -/
theorem C118_pipeline {D' : Type} (env : FsEnv D) (meds tdir : FPath) (conf : PyStr) (fs : FS D)
    (hat : PrepAt p meds tdir conf) (hclean : p.clean = false)
    (hdl : ∀ r rp, GaiaFile p r rp → ∀ fs,
      (p.download fs).fs.files (gaiaPlace tdir p.band rp r) = fs.files (gaiaPlace tdir p.band rp r))
    (hprep : (prepTile env p fs).out = .ok ()) (hget : p.getInfo = .ok (info0, src0)) (hs0 : ∀ d ∈ src0, SuppliedSrc d)
    (hread : ∀ info src, (prepTile env p fs).fs.files (infoPlace meds conf p.tilename p.band) = some (p.dump (info, src)) →
      ∃ t y ys, w.readText a.info = .ok t ∧ w.parse t = .ok y ∧ ReadsInfo rnd info src y ys)
    {useTmp : Bool} {tmpdir : Option FPath} {dflt : FPath} {name : String} {st : Proc P} {act : FM D' Unit}
    {sto : Storage D'} {env' : FsEnv D'} {valid : D' → Bool} (hw : SoundWorld w)
    (hg : GoodRun w a (workDir useTmp tmpdir dflt name) src0) (hn : NewProcess w st)
    (h : MainRun w a sto env' valid useTmp tmpdir dflt name st act) (dir : FPath) (n : String)
    (hm : ∀ cfg info srcs c, Calls w a cfg info srcs c → w.expand c.meds = dir ++ [n]) (fs' : FS D') (hwf : fs'.WF)
    (htmp : ∀ t, workDir useTmp tmpdir dflt name = some t →
      ¬ t <+: dir ++ [n ++ ".fz"] ∧ ∀ seed ss, (sto.fpack seed ss).left.isSome = true)
    (hok : (act fs').out = .ok ()) :
    ∃ r rp g stars camp text cfg y ys c ss x, GaiaFile p r rp ∧ '/' :: g = pathText (rp ++ [String.ofList r.filename]) ∧
      p.archive g = some stars ∧ (prepTile env p fs).fs.files (gaiaPlace tdir p.band rp r) = some stars ∧
      p.piffCampaign = some camp ∧ w.readText a.config = .ok text ∧ w.parse text = .ok cfg ∧
      Calls w a cfg y ys c ∧ c.gaia = some (pathText (gaiaPlace tdir p.band rp r)) ∧
      Delivers w.f4 rnd p.db (camp.map Char.toUpper) cfg src0 ss ∧
      (sto.fpack (hashToInt (w.sha (c.tilename ++ c.band))) ss).left = some x ∧
      (act fs').fs.files (dir ++ [n ++ ".fz"]) = some x := by
  obtain ⟨r, rp, info, src, tile, band, x, g, hgf, hd, hf, hpath, harch, hstars⟩ :=
    C112_written env p meds tdir conf fs hat hclean hdl hprep
  obtain ⟨t, y, ys, ht, hy, hr⟩ := hread info src hf
  have hgr := C118_good (w := w) (a := a) hd hget hs0 hr ⟨t, ht, hy⟩ _ hg
  obtain ⟨cfg, info', srcs, c, k, s, so, pr, ss, z, h1, -, -, -, -, h2, h3, -, h4⟩ :=
    C117_published hw hgr hn h dir n hm fs' hwf htmp hok
  obtain ⟨rfl, rfl⟩ := calls_reads ⟨t, ht, hy⟩ hr h1
  obtain ⟨camp, hcamp, hdel⟩ := delivers_of hd hget hs0 hr h2
  exact ⟨r, rp, g, x, camp, _, cfg, _, _, c, ss, z, hgf, hpath, harch, hstars, hcamp, h1.inputs.config, h1.inputs.cfg, h1,
    gaia_back hd hget hr h1, hdel, h3, h4⟩

end

end Pizza
