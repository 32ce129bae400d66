import Verif.Props.Program

/-!
C117: what is in the file that the program writes.
-/

namespace Pizza

variable {σ P V ρ : Type} {w : ProgWorld σ P V ρ} {a : GoArgs} {cfg info : Yaml} {srcs : List Yaml} {c : Called P}
  {k : Looked P} {s : ρ} {so : SliceOptions}

theorem IsCuts.unique {y : Yaml} {a b : PiffCuts} (h : IsCuts y a) (h' : IsCuts y b) : a = b := by
  rw [← piffCutsOf_ok] at h h'
  rw [h] at h'
  exact Except.ok.inj h'

theorem IsPiffInfo.unique {y : Yaml} {a b : PiffInfo} (h : IsPiffInfo y a) (h' : IsPiffInfo y b) : a = b := by
  rw [← piffInfoOf_ok] at h h'
  rw [h] at h'
  exact Except.ok.inj h'

theorem MaybeAt.some {α : Type} {R : Yaml → α → Prop} {y : Yaml} {p : List String} {x : α} (h : MaybeAt R y p (some x)) :
    ∃ v, At y p v ∧ R v x := by
  cases h with
  | given v _ h1 h2 => exact ⟨v, h1, h2⟩

theorem MaybeAt.of_at {α : Type} {R : Yaml → α → Prop} {y v : Yaml} {p : List String} {o : Option α}
    (h : MaybeAt R y p o) (hv : At y p v) : ∃ x, o = Option.some x ∧ R v x := by
  cases h with
  | absent h => exact absurd hv (h v)
  | given v' x h1 h2 => exact ⟨x, rfl, hv.unique h1 ▸ h2⟩

/-- The flags of a source after flagging. -/
theorem flagBit_iff {fc : FlagCfg} (hfe : FlagEntries cfg fc) {n : Nat} {d : Yaml} {f : FlagSrc (Loaded P)}
    (h : FlaggedFrom w fc n d f) (b : Nat) : f.imageFlags.testBit b = true ↔ FlagBit cfg d b := by
  obtain ⟨⟨l, hv, hl⟩, ⟨f0, g1, g2, g3, -⟩⟩ := h
  have er : f.rest.rest = d := by rw [hl.same.rest, hv.rest]
  have hflags := g1.flags
  have hpiff := g1.piff
  have hccd := g1.ccdnum
  rw [er] at hflags hpiff
  rw [hl.same.ccdnum] at hccd
  rw [g3 b]
  constructor
  · rintro (h | h)
    · exact .own _ b hflags h
    · cases h with
      | piff cu p _ h1 h2 h3 =>
        obtain ⟨y, a1, a2⟩ := (h1 ▸ hfe.cuts).some
        obtain ⟨v, a3, a4⟩ := (h2 ▸ hpiff).some
        exact .piff y v cu p b a1 a2 a3 a4 h3
      | ccd l' h1 h2 =>
        obtain ⟨y, a1, rfl⟩ := (h1 ▸ hfe.ccds).some
        obtain ⟨v, a3, rfl⟩ := (hccd ▸ hv.ccdnum).some
        exact .ccd l' _ a1 a3 h2
  · intro h
    cases h with
    | own n _ h1 h2 =>
      left
      have := h1.unique hflags
      simp only [Yaml.int.injEq, Nat.cast_inj] at this
      rw [← this]
      exact h2
    | piff y v cu p _ h1 h2 h3 h4 h5 =>
      right
      obtain ⟨cu', e1, e2⟩ := hfe.cuts.of_at h1
      obtain ⟨p', e3, e4⟩ := hpiff.of_at h3
      exact .piff cu' p' b e1 e3 (h2.unique e2 ▸ h4.unique e4 ▸ h5)
    | ccd l' m h1 h2 h3 =>
      right
      obtain ⟨l2, e1, e2⟩ := hfe.ccds.of_at h1
      obtain ⟨m2, e3, e4⟩ := hv.ccdnum.of_at h2
      have e5 : l' = l2 := by
        have := Yaml.list.inj e2
        exact List.map_injective_iff.2 (fun _ _ h => Yaml.int.inj h) this
      have e6 : m = m2 := Yaml.int.inj e4
      rw [e3] at hccd
      have e7 := Option.some.inj hccd
      exact .ccd l2 e1 (e7 ▸ e6 ▸ e5 ▸ h3)

/-- A source that is used, and its description. -/
theorem source_at (h : Calls w a cfg info srcs c) (hk : LooksUp cfg c k) {n : Nat} {x : InfoSrc WcsObj × Entry P}
    (hx : k.srcs[n]? = some x) : ∃ d f fc, srcs[n]? = some d ∧ c.srcs[n]? = some f ∧ FlagEntries cfg fc ∧
      FlaggedFrom w fc n d f ∧ SourceFrom f x := by
  obtain ⟨fc, hfe, hlen, hf⟩ := h.flagged
  have hn := (List.getElem?_eq_some_iff.1 hx).1
  have hn2 : n < c.srcs.length := hk.srcs.length_eq ▸ hn
  have hn1 : n < srcs.length := hlen ▸ hn2
  refine ⟨_, _, fc, List.getElem?_eq_getElem hn1, List.getElem?_eq_getElem hn2, hfe,
    hf n _ _ (List.getElem?_eq_getElem hn1) (List.getElem?_eq_getElem hn2), ?_⟩
  exact (forall₂_index.mp hk.srcs).2 n _ _ (List.getElem?_eq_getElem hn2) hx

theorem FlaggedFrom.restRest {fc : FlagCfg} {n : Nat} {d : Yaml} {f : FlagSrc (Loaded P)} (h : FlaggedFrom w fc n d f) :
    f.rest.rest = d := by
  obtain ⟨⟨l, hv, hl⟩, -⟩ := h
  rw [hl.same.rest, hv.rest]

theorem FlaggedFrom.id {fc : FlagCfg} {n : Nat} {d : Yaml} {f : FlagSrc (Loaded P)} (h : FlaggedFrom w fc n d f) :
    f.rest.imageId = some ((n : ℤ) + 1) := by
  obtain ⟨⟨l, hv, hl⟩, -⟩ := h
  exact hl.id

theorem plain_of {d : Yaml} (h : PlainTexts d) {key : String} {s : PyStr}
    (hk : key ∈ ["image_path", "image_ext", "bkg_path", "bkg_ext", "weight_path", "weight_ext", "bmask_path", "bmask_ext"])
    (hs : At d [key] (.str (String.ofList s))) : Plain s := by
  intro t ht
  refine h key hk _ hs t ?_
  rw [String.toList_ofList]
  exact ht

theorem plainPaths_of {d : Yaml} (h : PlainTexts d) {p : InfoPaths} (hp : PathsFrom d p) : PlainPaths p :=
  ⟨plain_of h (by simp) hp.imagePath, plain_of h (by simp) hp.imageExt, plain_of h (by simp) hp.weightPath,
    plain_of h (by simp) hp.weightExt, plain_of h (by simp) hp.bmaskPath, plain_of h (by simp) hp.bmaskExt,
    plain_of h (by simp) hp.bkgPath, plain_of h (by simp) hp.bkgExt⟩

theorem storesText_unique {d : Yaml} {key : String} {p q : PyStr} (h : StoresText d key p) (h' : StoresText d key q) :
    p = q := String.ofList_injective (Yaml.str.inj (h.unique h'))

theorem maybeText_stores {d : Yaml} {key : String} {o : Option PyStr} (h : MaybeAt IsText d [key] o) (p : PyStr) :
    o = some p ↔ StoresText d key p := by
  constructor
  · rintro rfl
    obtain ⟨v, h1, rfl⟩ := h.some
    exact h1
  · intro hp
    obtain ⟨x, rfl, e⟩ := h.of_at hp
    rw [String.ofList_injective (Yaml.str.inj e)]

theorem headerWcs_iff {d : Yaml} {p e : PyStr} (hp : StoresText d "image_path" p) (he : StoresText d "image_ext" e)
    (x : WcsObj) : HeaderWcs w d x ↔ (w.load.readHeader p e >>= fun h => w.load.mkWcs (mungeHeader h)) = .ok x := by
  rw [bind_eq_ok]
  constructor
  · rintro ⟨p', e', h, h1, h2, h3, h4⟩
    rw [storesText_unique h1 hp, storesText_unique h2 he] at h3
    exact ⟨h, h3, h4⟩
  · rintro ⟨h, h3, h4⟩
    exact ⟨p, e, h, hp, he, h3, h4⟩

/-- The WCS of the coadd is that of its header. -/
theorem coaddStored {l c : Loaded P} (hv : LoadView info l) (hl : LoadedCoadd w.load l c) {t : PyStr}
    (ht : w.dumpsWcs c.imageWcs.join = .ok t) : WcsStored w info t := by
  have hiff : ∀ x, ReadsImage w.load l x ↔ HeaderWcs w info x := by
    intro x
    unfold ReadsImage HeaderWcs
    simp only [maybeText_stores hv.imagePath, maybeText_stores hv.imageExt]
  rcases hl.image with ⟨x, h1, h2⟩ | ⟨h1, h2, h3⟩
  · rw [h2] at ht
    exact .inl ⟨x, (hiff x).mp h1, ht⟩
  · rw [h3] at ht
    refine .inr ⟨fun x hx => h1 x ((hiff x).mpr hx), ?_, ht⟩
    cases hc : l.affineCfg with
    | none => exact absurd hc h2
    | some y =>
      obtain ⟨v, h, -⟩ := (hc ▸ hv.affineCfg).some
      exact ⟨v, h⟩

/-- The WCS of a source is read for the table. -/
theorem srcStored {fc : FlagCfg} {n : Nat} {d : Yaml} {f : FlagSrc (Loaded P)} {x : InfoSrc WcsObj × Entry P}
    (hf : FlaggedFrom w fc n d f) (hs : SourceFrom f x) {t : PyStr}
    (ht : WritesWcs ⟨fun p e => w.load.readHeader p e >>= fun h => w.load.mkWcs (mungeHeader h), w.dumpsWcs⟩ x.1 t) :
    WcsStored w d t := by
  have hpaths := hf.restRest ▸ hs.paths
  have hiff := headerWcs_iff (w := w) hpaths.imagePath hpaths.imageExt
  obtain ⟨⟨l, hv, hl⟩, -⟩ := hf
  have hnone : x.1.imageWcs = none := by rw [hs.wcs, (hl.skipped rfl).1, hv.fresh.2.2.2.1]
  rcases ht with ⟨y, h, -⟩ | ⟨-, y, h1, h2⟩ | ⟨-, h1, h2, h3⟩
  · rw [hnone] at h
    cases h
  · exact .inl ⟨y, (hiff y).mpr h1, h2⟩
  · refine .inr ⟨fun y hy => h2 y ((hiff y).mp hy), ?_, h3⟩
    obtain ⟨y, hy⟩ := hs.affine.mp h1
    rw [hl.same.affineCfg] at hy
    obtain ⟨v, h, -⟩ := (hy ▸ hv.affineCfg).some
    exact ⟨v, h⟩

/-- C117: the table `image_info` of a run has a row for every source of the description, after that of the coadd, and it says
what the description says: the identity, the flags with those added for the PSF model and the CCD, the numbers, the files
and the WCS in the header of the image. -/
theorem C117_image_info (h : Calls w a cfg info srcs c) (hk : LooksUp cfg c k) (tmpdir : Option FPath)
    (hpl : ∀ d ∈ srcs, PlainTexts d) (p : Prepared) (hp : prepare (goMake w a tmpdir c k s so).fresh = .ok p) :
    p.imageInfo.length = srcs.length + 1 ∧
    (∀ r, p.imageInfo[0]? = some r → DescribesCoadd w info r) ∧
    ∀ (n : Nat) d r, srcs[n]? = some d → p.imageInfo[n + 1]? = some r → DescribesSrc w cfg d n r := by
  obtain ⟨-, hii, -⟩ := (C110_tables _ p).mp hp
  have hii : buildImageInfo (goMake w a tmpdir c k s so).args.io w.f4 k.nums c.coadd.imageWcs.join (k.srcs.map Prod.fst) =
    .ok p.imageInfo := hii
  have hplain : ∀ se ∈ k.srcs.map Prod.fst, PlainPaths se.paths := by
    intro se hse
    obtain ⟨x, hx, rfl⟩ := List.mem_map.1 hse
    obtain ⟨n, hn⟩ := List.mem_iff_getElem?.1 hx
    obtain ⟨d, f, fc, e1, e2, e3, e4, e5⟩ := source_at h hk hn
    exact plainPaths_of (hpl d (List.mem_of_getElem? e1)) (e4.restRest ▸ e5.paths)
  obtain ⟨g1, g2, g3, g4⟩ := C67_rows _ _ _ _ _ hplain _ hii
  have hlen : k.srcs.length = srcs.length := by
    rw [← hk.srcs.length_eq]
    obtain ⟨fc, -, hlen, -⟩ := h.flagged
    exact hlen
  refine ⟨by rw [g1, List.length_map, hlen], fun r hr => ?_, fun n d r hd hr => ?_⟩
  · obtain ⟨hn, hpa, ct, hct, hw⟩ := g3 r hr
    obtain ⟨l, hv, hl⟩ := h.coadd
    have er : c.coadd.rest = info := by rw [hl.same.rest, hv.rest]
    have hnums := er ▸ hk.nums
    refine ⟨by simpa using g2 0 r hr, ?_, ?_, ?_, ?_, hpa, ct, ?_, hw⟩
    · rw [hn]
      exact er ▸ hk.flags
    · obtain ⟨v, h1, h2⟩ := hnums.magzp
      exact ⟨v, _, h1, h2, by rw [hn]⟩
    · obtain ⟨v, h1, h2⟩ := hnums.scale
      exact ⟨v, _, h1, h2, by rw [hn]⟩
    · obtain ⟨v, h1, h2⟩ := hnums.offset
      exact ⟨v, h1, by rw [hn]; exact h2⟩
    · exact coaddStored hv hl hct
  have hn : n < k.srcs.length := hlen ▸ (List.getElem?_eq_some_iff.1 hd).1
  obtain ⟨d', f, fc, e1, e2, e3, e4, e5⟩ := source_at h hk (List.getElem?_eq_getElem hn)
  rw [hd] at e1
  cases e1
  have hse : (k.srcs.map Prod.fst)[n]? = some k.srcs[n].1 := by rw [List.getElem?_map, List.getElem?_eq_getElem hn]; rfl
  obtain ⟨t, hwt, hrow⟩ := g4 n _ r hse hr
  obtain ⟨x1, x2, x3, x4⟩ := C68_ext_partial _ _ _ _ _ hplain _ hii n _ r hse hr
  have hpaths := e4.restRest ▸ e5.paths
  have hnums := e4.restRest ▸ e5.nums
  have hid : k.srcs[n].1.nums.imageId = n + 1 := by
    have := e5.id
    rw [e4.id] at this
    exact (Option.some.inj this).symm
  have hst : ∀ {key : String} {t u : PyStr}, u = t → At d [key] (.str (String.ofList t)) → StoresText d key u := by
    rintro key t u rfl h
    exact h
  refine ⟨hrow.imageId.trans hid, ⟨f.imageFlags, hrow.imageFlags.trans e5.flags, flagBit_iff e3 e4⟩, ?_, ?_, ?_,
    hst hrow.imagePath hpaths.imagePath, hst hrow.bkgPath hpaths.bkgPath, hst hrow.weightPath hpaths.weightPath,
    hst hrow.bmaskPath hpaths.bmaskPath, ⟨_, hpaths.imageExt, x1⟩, ⟨_, hpaths.bkgExt, x4⟩, ⟨_, hpaths.weightExt, x2⟩,
    ⟨_, hpaths.bmaskExt, x3⟩, t, srcStored (w := w) e4 e5 hwt, hrow.wcs⟩
  · obtain ⟨v, h1, h2⟩ := hnums.magzp
    exact ⟨v, _, h1, h2, hrow.magzp⟩
  · obtain ⟨v, h1, h2⟩ := hnums.scale
    exact ⟨v, _, h1, h2, hrow.scale⟩
  · obtain ⟨v, h1, h2⟩ := hnums.offset
    exact ⟨v, h1, hrow.positionOffset ▸ h2⟩

/-- Every row of the table of epochs of a slice is of an SE image without flags. -/
theorem epochs_unflagged {A σ S : Type} {v : SliceEnv A σ S} {box psfBox : Nat} (hv : SoundEnv v box psfBox) {i seed : Nat}
    {r : SliceRes Flt EpochRow} (h : coaddSingleSlice v i seed = .ok r) {row : EpochRow} (hr : row ∈ r.epochs) :
    ∃ ra dec raPsf decPsf, ∃ s ∈ v.sources ra dec raPsf decPsf, s.imageFlags = 0 ∧ row.imageId = s.imageId := by
  obtain ⟨-, orow, lay, gaia, cfg, inp, ho, -, -, hcfg, hin, -, he, -⟩ := C93_slice v box psfBox hv i seed r h
  have hor := List.mem_of_getElem? ho
  have hx : Sane v.ext cfg (v.sources orow.ra orow.dec lay.raPsf lay.decPsf) := by
    obtain ⟨a1, a2, a3, a4⟩ := hv.sane hor gaia orow.ra orow.dec lay.raPsf lay.decPsf
    refine ⟨by rw [hcfg.box]; exact a1, ?_, a3, a4⟩
    have : cfg.fracBuffer = v.cfg.fracBuffer := (congrArg BuildCfg.fracBuffer hcfg.rest :)
    rw [this]
    exact hv.frac
  obtain ⟨c1, c2, c3, c4⟩ := C46_accounted _ _ _ _ _ hx hin
  have hsrc : ∀ e ∈ inp.slices ++ inp.notUsed, e.src ∈ v.sources orow.ra orow.dec lay.raPsf lay.decPsf ∧
      e.src.imageFlags = 0 := by
    classical
    intro e hemem
    by_cases hg : ∃ s ∈ v.sources orow.ra orow.dec lay.raPsf lay.decPsf, s.Passes cfg ∧ s.psfFlag = .ok false
    · have hperm := (c1 hg).perm
      have : e.src ∈ inp.slices.map Epoch.src ++ inp.notUsed.map Epoch.src := by
        rw [← List.map_append]
        exact List.mem_map_of_mem hemem
      have := hperm.mem_iff.1 this
      obtain ⟨m1, m2⟩ := List.mem_filter.1 this
      exact ⟨m1, (of_decide_eq_true m2).1⟩
    · obtain ⟨e1, e2⟩ := c2 hg
      rw [e1, e2] at hemem
      cases hemem
  have hp := buildSliceInputs_place hx hin
  obtain ⟨ra, rb, h1, la, lb, ha, hb⟩ := C64_rows orow.id inp.weights inp.slices inp.notUsed inp.flags c3 c4
    fun e he => (hp e he).placed
  rw [h1] at he
  rw [← Except.ok.inj he] at hr
  refine ⟨orow.ra, orow.dec, lay.raPsf, lay.decPsf, ?_⟩
  rcases List.mem_append.1 hr with hr | hr
  · obtain ⟨n, hn, rfl⟩ := List.getElem_of_mem hr
    have hs : n < inp.slices.length := la ▸ hn
    have hmem : inp.slices[n] ∈ inp.slices ++ inp.notUsed := List.mem_append_left _ (List.getElem_mem hs)
    exact ⟨_, (hsrc _ hmem).1, (hsrc _ hmem).2, (ha n hn hs (c3 ▸ hs)).2.2.2.imageId⟩
  · obtain ⟨n, hn, rfl⟩ := List.getElem_of_mem hr
    have hs : n < inp.notUsed.length := lb ▸ hn
    have hmem : inp.notUsed[n] ∈ inp.slices ++ inp.notUsed := List.mem_append_right _ (List.getElem_mem hs)
    exact ⟨_, (hsrc _ hmem).1, (hsrc _ hmem).2, (hb n hn hs (c4 ▸ hs)).2.2.2.imageId⟩

theorem freshSrc_id {A σ S : Type} (w : ProcWorld A σ S P) (t : Tile A S P) (ra dec raPsf decPsf : ℚ) (e : Entry P) :
    (freshSrc w t ra dec raPsf decPsf e).imageId = e.imageId ∧ (freshSrc w t ra dec raPsf decPsf e).imageFlags = e.imageFlags := by
  unfold freshSrc
  split <;> exact ⟨rfl, rfl⟩

/-- C117: an epoch is recorded only for sources that are used: none of the bits of its flags is set, neither in the
description nor for its PSF model nor for its CCD. -/
theorem C117_unused (h : Calls w a cfg info srcs c) (hk : LooksUp cfg c k) (tmpdir : Option FPath) (box psfBox : Nat)
    (hm : SoundMake (goMake w a tmpdir c k s so).fresh box psfBox) (p : Prepared)
    (hp : prepare (goMake w a tmpdir c k s so).fresh = .ok p) (i : ℤ) (r : SliceRes Flt EpochRow)
    (hr : SliceGives (goMake w a tmpdir c k s so).fresh p.objects i (.ok r)) (row : EpochRow) (hrow : row ∈ r.epochs) :
    ∃ (n : Nat) (d : Yaml), srcs[n]? = some d ∧ row.imageId = n + 1 ∧ ∀ b, ¬ FlagBit cfg d b := by
  obtain ⟨j, seed, v, -, -, hv, hs⟩ := hr
  rw [tileEnv_iff] at hv
  subst hv
  obtain ⟨ra, dec, raPsf, decPsf, sr, hsr, hfl, hid⟩ := epochs_unflagged (hm.sound hp) hs hrow
  have hsr : sr ∈ ((k.srcs.map Prod.snd).zip (runSeeds (goMake w a tmpdir c k s so).fresh p.objects.length).srcs).map fun x =>
      freshSrc (w.proc so.wcsColor) (goTile w a tmpdir c k so) ra dec raPsf decPsf
        { x.1 with noiseSeeds := x.2.noise, piffSeed := x.2.piff } := hsr
  obtain ⟨⟨e, sd⟩, hx, rfl⟩ := List.mem_map.1 hsr
  obtain ⟨x, hx', rfl⟩ := List.mem_map.1 (List.of_mem_zip hx).1
  obtain ⟨n, hn⟩ := List.mem_iff_getElem?.1 hx'
  obtain ⟨d, f, fc, e1, e2, e3, e4, e5⟩ := source_at h hk hn
  rw [(freshSrc_id ..).2] at hfl
  rw [(freshSrc_id ..).1] at hid
  dsimp only at hfl hid
  obtain ⟨u1, u2, -⟩ := e5.used
  refine ⟨n, d, e1, ?_, fun b hb => ?_⟩
  · have := e5.id
    rw [e4.id] at this
    rw [hid, u2, ← Option.some.inj this]
  · rw [← flagBit_iff e3 e4 b] at hb
    rw [u1] at hfl
    rw [Nat.cast_eq_zero] at hfl
    rw [hfl] at hb
    simp at hb

/-- C117: the theorems about whole calls apply to a run if the configured sizes can be used, the files of every SE image have
its shape and the libraries do what they should. -/
theorem C117_sound (hw : SoundWorld w) (tmpdir : Option FPath) (box psfBox : Nat) (hs : SoundSizes k.co so box psfBox)
    (hf : SoundFiles (w.proc so.wcsColor) so k) : SoundMake (goMake w a tmpdir c k s so).fresh box psfBox := by
  refine C116_sound _ box psfBox hs.sizePos hs.psfOdd hs.size.symm hs.psfSize.symm hs.frac ?_ (hw.noise _) (hw.keeps _)
    (hw.fwhm _) hw.ops hw.argsort hw.rows0
  intro e he
  obtain ⟨x, hx, rfl⟩ := List.mem_map.1 (show e ∈ k.srcs.map Prod.snd from he)
  exact hf x hx

theorem spells_tmpText (t : FPath) : SpellsPath t (tmpText t) := by
  unfold tmpText
  induction t using List.reverseRecOn with
  | nil => exact .nil
  | append_singleton p c ih =>
    rw [List.flatMap_append, List.flatMap_singleton]
    exact .snoc ih

/-- C117: the call of `make_des_pizza_slices` is the one that the command line and the two input files ask for. -/
theorem C117_request (h : Calls w a cfg info srcs c) (hk : LooksUp cfg c k) (hs : Needs w a cfg c s so)
    (work : Option FPath) : MadeFrom w a work cfg info srcs (goMake w a work c k s so) := by
  obtain ⟨l, hl, hc⟩ := h.coadd
  have er : c.coadd.rest = info := hc.same.rest.trans hl.rest
  have hlen : k.srcs.length = srcs.length := by
    rw [← hk.srcs.length_eq]
    obtain ⟨fc, -, hlen, -⟩ := h.flagged
    exact hlen
  have hopt : ∃ f, runOptions c.gaia.isSome cfg (String.ofList c.band) = .ok (f, k.co, so) := by
    obtain ⟨fc, hfe, -⟩ := h.flagged
    exact ⟨some fc, (C115_options c.gaia.isSome cfg (String.ofList c.band) (some fc) k.co so).mpr
      ⟨⟨fc, rfl, hfe⟩, hk.options, hs.options⟩⟩
  obtain ⟨f, hopt⟩ := hopt
  exact {
    config := ⟨_, h.inputs, rfl⟩
    json := h.json
    names := ⟨_, _, h.tilename, h.band, rfl, _, C115_tile _ _ _ _ _ _ hopt _ _ _⟩
    entries := by
      refine ⟨(List.length_map _).trans hlen, fun n d e hd he => ?_⟩
      have he : (k.srcs.map Prod.snd)[n]? = some e := he
      rw [List.getElem?_map] at he
      obtain ⟨x, hx, rfl⟩ := Option.map_eq_some_iff.1 he
      obtain ⟨d', f, fc, e1, e2, e3, e4, e5⟩ := source_at h hk hx
      rw [hd] at e1
      cases e1
      obtain ⟨u1, u2, u3, u4⟩ := e5.used
      obtain ⟨f1, f2, f3, f4⟩ := e5.files
      obtain ⟨s1, s2, s3, s4, s5, s6, s7, s8⟩ := e5.src
      have hp := e4.restRest ▸ e5.paths
      have hn := e4.restRest ▸ e5.nums
      have hid : x.1.nums.imageId = n + 1 := by
        have := e5.id
        rw [e4.id] at this
        exact (Option.some.inj this).symm
      obtain ⟨⟨l0, hv, hl0⟩, -⟩ := id e4
      obtain ⟨-, n2, n3, -⟩ := hv.fresh
      exact {
        id := u2.trans hid
        flags := ⟨f.imageFlags, u1, flagBit_iff e3 e4⟩
        magzp := by rw [u3]; exact hn.magzp
        offset := by rw [u4]; exact hn.offset
        image := ⟨_, _, hp.imagePath, hp.imageExt, f1⟩
        bkg := ⟨_, _, hp.bkgPath, hp.bkgExt, f2⟩
        bmask := ⟨_, _, hp.bmaskPath, hp.bmaskExt, f3⟩
        weight := ⟨_, _, hp.weightPath, hp.weightExt, f4⟩
        imagePath := by rw [s1, hl0.same.imagePath]; exact hv.imagePath
        imageExt := by rw [s2, hl0.same.imageExt]; exact hv.imageExt
        headPath := by rw [s3, hl0.same.headPath]; exact hv.headPath
        piffPath := by rw [s5, hl0.same.piffPath]; exact ⟨_, hv.piffPath, rfl⟩
        psfexPath := by rw [s8, hl0.same.psfexPath]; exact ⟨_, hv.psfexPath, rfl⟩
        ccdnum := by rw [s6, hl0.same.ccdnum]; exact hv.ccdnum
        affine := by rw [s4]; exact ⟨_, hv.affineCfg, n2 ▸ hl0.affine⟩
        galsim := by rw [s7]; exact ⟨_, hv.galsimCfg, n3 ▸ hl0.galsim⟩
        shape := ⟨_, hv.imageShape, hl0.same.imageShape ▸ e5.shape⟩ }
    wcs := ⟨l, c.coadd, _, k.wcs, hl, hc, hk.options.wcsType, hk.wcs, rfl, rfl, rfl, rfl, rfl⟩
    offset := er ▸ hk.nums.offset
    gaia := h.gaia
    extra := rfl
    central := hk.options.central
    buffer := hk.options.buffer
    psfBox := hk.options.psfBox
    shape := ⟨_, hl.imageShape, hc.same.imageShape ▸ hk.shape⟩
    header := by
      intro p e hp he
      obtain ⟨p', h1, h2⟩ := hl.imagePath.of_at hp
      obtain ⟨e', h3, h4⟩ := hl.imageExt.of_at he
      have h1 := hc.same.imagePath.trans h1
      have h3 := hc.same.imageExt.trans h3
      have e1 : p' = p := (String.ofList_injective (Yaml.str.inj h2)).symm
      have e2 : e' = e := (String.ofList_injective (Yaml.str.inj h4)).symm
      show (do let p ← lookup c.coadd.imagePath; let e ← lookup c.coadd.imageExt; w.sizes p e) = w.sizes p e
      rw [h1, h3, e1, e2]
      rfl
    color := by obtain ⟨v, h1, h2⟩ := hs.options.wcsColor; exact ⟨v, _, h1, h2, rfl⟩
    seed := hs.seed
    range := ⟨fun h => by show (match a.sliceRange with | none => _ | some r => _) = _; rw [h], fun r h => by
      show (match a.sliceRange with | none => _ | some r => _) = _; rw [h]⟩
    pars := h.pars
    jobs := ⟨rfl, rfl⟩
    work := ⟨fun h => by subst h; rfl, fun t h => by subst h; exact ⟨_, rfl, spells_tmpText t⟩⟩
    libraries := ⟨rfl, rfl, rfl, rfl, rfl, rfl, rfl, rfl⟩ }

theorem plain_ascii {json : PyStr} {b : List Nat} (h : encodeAscii json = .ok b) :
    (∀ x ∈ b, x < 128) ∧ b.map Char.ofNat = json := by
  unfold encodeAscii at h
  split at h
  · rename_i hall
    cases h
    refine ⟨fun x hx => ?_, ?_⟩
    · obtain ⟨ch, hc, rfl⟩ := List.mem_map.1 hx
      exact of_decide_eq_true (List.all_eq_true.1 hall ch hc)
    · rw [List.map_map]
      exact List.map_id'' (fun ch => Char.ofNat_toNat ch) _
  · cases h

/-- C117: what is in the file. -/
theorem C117_file (h : Calls w a cfg info srcs c) (hk : LooksUp cfg c k) (tmpdir : Option FPath) (box psfBox : Nat)
    (hm : SoundMake (goMake w a tmpdir c k s so).fresh box psfBox) (hpl : ∀ d ∈ srcs, PlainTexts d) (p : Prepared)
    (hp : prepare (goMake w a tmpdir c k s so).fresh = .ok p) (ss : List Section)
    (hb : FitsBody (goMake w a tmpdir c k s so).fresh p ss none) : WritesFile w c.configText cfg info srcs ss := by
  obtain ⟨req, rs, fits, o, gaia, -, -, -, hgive, -, -, hss, -⟩ := C110_file _ box psfBox hm p hp ss hb
  obtain ⟨g1, g2⟩ := C117_image_info h hk tmpdir hpl p hp
  obtain ⟨hmd, -, -⟩ := (C110_tables _ p).mp hp
  have hmd : buildMetadata w.environ w.versions c.configText c.json = .ok (p.md, p.json) := hmd
  unfold buildMetadata at hmd
  obtain ⟨md, h1, hmd⟩ := bind_eq_ok.1 hmd
  obtain ⟨bytes, h2, hmd⟩ := bind_eq_ok.1 hmd
  obtain ⟨m1, m2⟩ := Prod.mk.inj (Except.ok.inj hmd)
  subst m2
  obtain ⟨b1, b2⟩ := plain_ascii h2
  refine ⟨⟨o.fits, _, _, _, p.json, p.imageInfo, gaia, hss, ?_, ?_, ?_, b1, b2.trans h.json, g1, g2⟩⟩
  · intro row hrow
    obtain ⟨l, hl, hrow⟩ := List.mem_flatten.1 hrow
    obtain ⟨r, hr, rfl⟩ := List.mem_map.1 hl
    exact C117_unused h hk tmpdir box psfBox hm p hp _ r (hgive r hr) row hrow
  · intro ht
    rw [← m1]
    exact npStr_eq ht (Nat.le_refl _)
  · intro he
    rw [he] at h1
    cases h1

theorem within_seeded (tmpdir : Option FPath) : (goMake w a tmpdir c k s so).Within (w.proc so.wcsColor)
    (Seeded (goTile w a tmpdir c k so)) := by
  refine ⟨rfl, fun t h1 h2 => ⟨?_, h2⟩⟩
  have hlen : (runSeeds (goMake w a tmpdir c k s so).fresh t.objects.length).srcs.length =
      (goTile w a tmpdir c k so).entries.length := by
    refine ((C71_seeds _ _ _ _ _).2.1).trans ?_
    exact (List.length_map _).trans (List.length_map _).symm
  have h1 : List.Forall₂ (fun (e : Entry P) (x : Entry P × SrcSeeds) =>
      e = { x.1 with noiseSeeds := x.2.noise, piffSeed := x.2.piff }) t.entries
      ((goTile w a tmpdir c k so).entries.zip (runSeeds (goMake w a tmpdir c k s so).fresh t.objects.length).srcs) := h1
  rw [forall₂_index] at h1 ⊢
  obtain ⟨l1, h1⟩ := h1
  rw [List.length_zip, hlen, min_self] at l1
  refine ⟨l1.symm, fun n e f he hf => ?_⟩
  have hn := (List.getElem?_eq_some_iff.1 he).1
  exact ⟨_, _, h1 n f (e, _) hf (List.getElem?_zip_eq_some.2 ⟨he, List.getElem?_eq_getElem (hlen ▸ hn)⟩)⟩

/-- C117: a process can work on a tile if the masks are files of their own and the hashes of the SE images tell them
apart. -/
theorem C117_orderly (h : Calls w a cfg info srcs c) (hk : LooksUp cfg c k) (tmpdir : Option FPath) (hm : OwnMasks srcs)
    (hh : HashTells (w.proc so.wcsColor) (goTile w a tmpdir c k so)) :
    Orderly (w.proc so.wcsColor) (Seeded (goTile w a tmpdir c k so)) ∧
    (goMake w a tmpdir c k s so).Within (w.proc so.wcsColor) (Seeded (goTile w a tmpdir c k so)) := by
  refine ⟨?_, within_seeded tmpdir⟩
  have hent : ∀ t e, Seeded (goTile w a tmpdir c k so) t → e ∈ t.entries → ∃ d ∈ srcs, ∃ fp : InfoPaths, PathsFrom d fp ∧
      e.image = .file (fp.imagePath, fp.imageExt) ∧ e.bkg = .file (fp.bkgPath, fp.bkgExt) ∧
      e.bmask = .file (fp.bmaskPath, fp.bmaskExt) ∧ e.weight = .file (fp.weightPath, fp.weightExt) ∧
      ∃ m, e.src.ccdnum = some m ∧ At d ["ccdnum"] (.int m) := by
    intro t e ht he
    obtain ⟨n, hn⟩ := List.mem_iff_getElem?.1 he
    have ht1 := ht.1
    rw [forall₂_index] at ht1
    have hn' : n < (goTile w a tmpdir c k so).entries.length := ht1.1 ▸ (List.getElem?_eq_some_iff.1 hn).1
    obtain ⟨l, m, rfl⟩ := ht1.2 n _ e (List.getElem?_eq_getElem hn') hn
    have hx : (k.srcs.map Prod.snd)[n]? = some (goTile w a tmpdir c k so).entries[n] := List.getElem?_eq_getElem hn'
    generalize (goTile w a tmpdir c k so).entries[n] = e0 at hx
    rw [List.getElem?_map] at hx
    obtain ⟨x, hx', rfl⟩ := Option.map_eq_some_iff.1 hx
    obtain ⟨d, f, fc, e1, e2, e3, e4, e5⟩ := source_at h hk hx'
    obtain ⟨f1, f2, f3, f4⟩ := e5.files
    refine ⟨d, List.mem_of_getElem? e1, x.1.paths, e4.restRest ▸ e5.paths, f1, f2, f3, f4, ?_⟩
    obtain ⟨⟨l0, hv, hl⟩, ⟨f0, g1, -⟩⟩ := e4
    obtain ⟨-, -, -, -, -, hc, -⟩ := e5.src
    refine ⟨f0.ccdnum, hc.trans g1.ccdnum, ?_⟩
    have := g1.ccdnum
    rw [hl.same.ccdnum] at this
    obtain ⟨v, a1, rfl⟩ := (this ▸ hv.ccdnum).some
    exact a1
  have hwcs : ∀ t, Seeded (goTile w a tmpdir c k so) t → t.wcs = (goTile w a tmpdir c k so).wcs := fun t ht =>
    (congrArg Tile.wcs ht.2 :)
  refine ⟨?_, ?_, ?_, ?_⟩
  · intro t e t' e' ht he ht' he' _
    obtain ⟨d, hd, fp, q1, -, -, q4, -, -⟩ := hent t e ht he
    obtain ⟨d', hd', fp', q1', q2', q3', -, q5', -⟩ := hent t' e' ht' he'
    obtain ⟨n1, n2, n3⟩ := hm.apart d hd d' hd' _ _ q1.bmaskPath q1.bmaskExt
    rw [q4, q2', q3', q5']
    refine ⟨fun he => n1 ?_, fun he => n2 ?_, fun he => n3 ?_⟩ <;> simp only [Loc.file.injEq, Prod.mk.injEq] at he <;>
      rw [he.1, he.2]
    · exact ⟨q1'.imagePath, q1'.imageExt⟩
    · exact ⟨q1'.bkgPath, q1'.bkgExt⟩
    · exact ⟨q1'.weightPath, q1'.weightExt⟩
  · intro t e t' e' ht he ht' he' hb heq
    obtain ⟨d, hd, fp, q1, -, -, q4, -, m, q6, q7⟩ := hent t e ht he
    obtain ⟨d', hd', fp', q1', -, -, q4', -, m', q6', q7'⟩ := hent t' e' ht' he'
    refine ⟨?_, ?_⟩
    · have e1 : t.tapeBumps = (goTile w a tmpdir c k so).tapeBumps := (congrArg Tile.tapeBumps ht.2 :)
      have e2 : t'.tapeBumps = (goTile w a tmpdir c k so).tapeBumps := (congrArg Tile.tapeBumps ht'.2 :)
      rw [e2, ← e1]; exact hb
    · rw [q4, q4'] at heq
      simp only [Loc.file.injEq, Prod.mk.injEq] at heq
      have := hm.ccd d hd d' hd' _ _ _ _ q1.bmaskPath q1.bmaskExt (heq.1 ▸ q1'.bmaskPath) (heq.2 ▸ q1'.bmaskExt) q7 q7'
      rw [q6, q6', Yaml.int.inj this]
  · intro n t e n' t' e' ht he ht' he' heq
    rw [hwcs t ht, hwcs t' ht']
    exact hh n t e n' t' e' ht he ht' he' heq
  · intro t t' ht ht' _
    exact ⟨(congrArg Tile.fwd ht.2 :).trans (congrArg Tile.fwd ht'.2 :).symm,
      (congrArg Tile.inv ht.2 :).trans (congrArg Tile.inv ht'.2 :).symm,
      (congrArg Tile.celestial ht.2 :).trans (congrArg Tile.celestial ht'.2 :).symm⟩

section
variable {D : Type} {sto : Storage D} {env : FsEnv D} {valid : D → Bool}

/-- What a run that comes to the end of its FITS file has computed. -/
theorem computed_of {work : Option FPath} {st : Proc P} {pk : Fpack D} (h : Written w a sto work st pk) (hn : NewProcess w st)
    (hg : GoodRequest w a work) : ∃ cfg info srcs c k s so p ss, Calls w a cfg info srcs c ∧ LooksUp cfg c k ∧
      Needs w a cfg c s so ∧ prepare (goMake w a work c k s so).fresh = .ok p ∧
      FitsBody (goMake w a work c k s so).fresh p ss none ∧ pk = sto.fpack (hashToInt (w.sha (c.tilename ++ c.band))) ss := by
  obtain ⟨c, k, s, so, p, ss, st', h1, h2, h3, h4, h5, h6⟩ := h
  obtain ⟨cfg, info, srcs, hc⟩ := (C117_calls w a c).mp h1
  have hk := (C117_looked_up w a cfg info srcs c hc k).mp h2
  have hs := (C117_needed w a cfg info srcs c hc s so).mp h3
  obtain ⟨g1, g2, -⟩ := hg.good cfg info srcs c k s so hc hk hs
  obtain ⟨o1, o2⟩ := C117_orderly (s := s) hc hk work g1 g2
  obtain ⟨sizes, count, rfl⟩ := hn so.wcsColor
  exact ⟨cfg, info, srcs, c, k, s, so, p, ss, hc, hk, hs, h4, C116_call o1 _ o2 p _ st' (.fresh sizes count) ss none h5, h6⟩

/-- A run that succeeds has raised nothing, and the output is what `fpack` has made. -/
theorem cliMain_ok {useTmp : Bool} {tmpdir : Option FPath} {dflt : FPath} {name : String} {logLevel : PyStr}
    {pre : Option Err} {cp : Compute D} {pk : Fpack D} {dir : FPath} {n : String} {fs : FS D} (hwf : fs.WF)
    (htmp : ∀ t, workDir useTmp tmpdir dflt name = some t → ¬ t <+: dir ++ [n ++ ".fz"] ∧ pk.left.isSome = true)
    (hok : (cliMain env (dir ++ [n]) logLevel useTmp tmpdir dflt name pre cp pk valid fs).out = .ok ()) :
    pre = none ∧ cp.raised = none ∧ ∃ x, pk.left = some x ∧ valid x = true ∧
      (cliMain env (dir ++ [n]) logLevel useTmp tmpdir dflt name pre cp pk valid fs).fs.files (dir ++ [n ++ ".fz"]) =
        some x := by
  by_cases hu : useTmp = true ∨ tmpdir.isSome = true
  · obtain ⟨t1, t2⟩ := htmp _ (if_pos hu)
    obtain ⟨x, hx⟩ := Option.isSome_iff_exists.1 t2
    obtain ⟨b1, b2, b3, b4⟩ := C106_tmpdir_output env dir n logLevel useTmp tmpdir dflt name pre cp pk valid fs hwf hu _ rfl
      t1 x hx hok
    exact ⟨b1, b2, x, hx, b3, b4⟩
  · obtain ⟨rfl, rfl⟩ : useTmp = false ∧ tmpdir = none := by
      push Not at hu
      exact ⟨Bool.eq_false_iff.2 hu.1, Option.not_isSome_iff_eq_none.1 hu.2⟩
    obtain ⟨-, g2, g3⟩ := C106_plain env dir n logLevel dflt name pre cp pk valid fs hwf
    obtain ⟨⟨x, b1, b2, b3⟩, -⟩ := g3 hok
    have hno : ¬ (pre.isSome = true ∨ cp.raised.isSome = true) := by
      intro h
      obtain ⟨⟨e, he⟩, -⟩ := g2 h
      rw [he] at hok
      cases hok
    push Not at hno
    exact ⟨Option.not_isSome_iff_eq_none.1 hno.1, Option.not_isSome_iff_eq_none.1 hno.2, x, b1, b2, b3⟩

/-- C117: a run that succeeds leaves at the output path what `fpack` makes of a file that is computed from the two input files
and the files that they name, with nothing kept in between, and that says what they say. -/
theorem C117_published {useTmp : Bool} {tmpdir : Option FPath} {dflt : FPath} {name : String} {st : Proc P} {act : FM D Unit}
    (hw : SoundWorld w) (hg : GoodRequest w a (workDir useTmp tmpdir dflt name)) (hn : NewProcess w st)
    (h : MainRun w a sto env valid useTmp tmpdir dflt name st act) (dir : FPath) (n : String)
    (hm : ∀ cfg info srcs c, Calls w a cfg info srcs c → w.expand c.meds = dir ++ [n]) (fs : FS D) (hwf : fs.WF)
    (htmp : ∀ t, workDir useTmp tmpdir dflt name = some t →
      ¬ t <+: dir ++ [n ++ ".fz"] ∧ ∀ seed ss, (sto.fpack seed ss).left.isSome = true)
    (hok : (act fs).out = .ok ()) :
    ∃ cfg info srcs c k s so p ss x, Calls w a cfg info srcs c ∧ LooksUp cfg c k ∧ Needs w a cfg c s so ∧
      prepare (goMake w a (workDir useTmp tmpdir dflt name) c k s so).fresh = .ok p ∧
      FitsBody (goMake w a (workDir useTmp tmpdir dflt name) c k s so).fresh p ss none ∧
      WritesFile w c.configText cfg info srcs ss ∧
      (sto.fpack (hashToInt (w.sha (c.tilename ++ c.band))) ss).left = some x ∧ valid x = true ∧
      (act fs).fs.files (dir ++ [n ++ ".fz"]) = some x := by
  obtain ⟨pre, cp, pk, rfl, -, -, h3, seed, ss', hpk⟩ := mainRun_cli h (dir ++ [n]) (fun c hc => by
    obtain ⟨cfg, info, srcs, h⟩ := (C117_calls w a c).mp hc
    exact hm cfg info srcs c h)
  obtain ⟨hp, hr, x, hx, hv, hf⟩ := cliMain_ok hwf (fun t ht => ⟨(htmp t ht).1, hpk ▸ (htmp t ht).2 seed ss'⟩) hok
  obtain ⟨cfg, info, srcs, c, k, s, so, p, ss, a1, a2, a3, a4, a5, rfl⟩ := computed_of (h3 hp hr) hn hg
  obtain ⟨-, -, g3, ⟨box, psfBox, g4⟩, g5⟩ := hg.good cfg info srcs c k s so a1 a2 a3
  exact ⟨cfg, info, srcs, c, k, s, so, p, ss, x, a1, a2, a3, a4, a5,
    C117_file a1 a2 _ box psfBox (C117_sound hw _ box psfBox g4 g5) g3 p a4 ss a5, hx, hv, hf⟩

theorem calls_other {nJobs : Nat} {nChunks : Option Nat} {logLevel : PyStr}
    (hl : w.level (a.logLevel.map Char.toUpper) = .ok ())
    (h : Calls w { a with nJobs := nJobs, nChunks := nChunks, logLevel := logLevel } cfg info srcs c) :
    Calls w a cfg info srcs c :=
  ⟨hl, ⟨h.inputs.config, h.inputs.cfg, h.inputs.info⟩, h.json, h.tilename, h.band, h.sources, h.coadd, h.flagged, h.checked,
    h.name, h.pars, h.coaddCfg, h.seCfg, h.gaia⟩

theorem calls_unique {cfg' info' : Yaml} {srcs' : List Yaml} {c' : Called P} {nJobs : Nat} {nChunks : Option Nat}
    {logLevel : PyStr} (h : Calls w a cfg info srcs c)
    (h' : Calls w { a with nJobs := nJobs, nChunks := nChunks, logLevel := logLevel } cfg' info' srcs' c') : c' = c := by
  have := calls_other h.level h'
  have e1 := (C117_calls w a c).mpr ⟨_, _, _, h⟩
  have e2 := (C117_calls w a c').mpr ⟨_, _, _, this⟩
  rw [e1] at e2
  exact (Except.ok.inj e2).symm

/-- C117: the numbers of jobs and of chunks, the log level and the temporary directory do not matter.  If two runs that
differ in nothing else succeed, the files that are packed have the same extensions in the same order, with the same
contents but for the order of the blocks of `epochs_info`, and are packed with the same seed. -/
theorem C117_same {useTmp useTmp' : Bool} {tmpdir tmpdir' : Option FPath} {dflt dflt' : FPath} {name name' : String}
    {st st' : Proc P} {act act' : FM D Unit} (nJobs : Nat) (nChunks : Option Nat) (logLevel : PyStr) (a' : GoArgs)
    (ha' : a' = { a with nJobs := nJobs, nChunks := nChunks, logLevel := logLevel })
    (hw : SoundWorld w) (hg : GoodRequest w a (workDir useTmp tmpdir dflt name))
    (hg' : GoodRequest w a' (workDir useTmp' tmpdir' dflt' name')) (hn : NewProcess w st) (hn' : NewProcess w st')
    (h : MainRun w a sto env valid useTmp tmpdir dflt name st act)
    (h' : MainRun w a' sto env valid useTmp' tmpdir' dflt' name' st' act') (dir : FPath) (n : String)
    (hm : ∀ cfg info srcs c, Calls w a cfg info srcs c → w.expand c.meds = dir ++ [n]) (fs fs' : FS D) (hwf : fs.WF)
    (hwf' : fs'.WF)
    (htmp : ∀ t, workDir useTmp tmpdir dflt name = some t ∨ workDir useTmp' tmpdir' dflt' name' = some t →
      ¬ t <+: dir ++ [n ++ ".fz"] ∧ ∀ seed ss, (sto.fpack seed ss).left.isSome = true)
    (hok : (act fs).out = .ok ()) (hok' : (act' fs').out = .ok ()) :
    ∃ seed ss ss', List.Forall₂ SameSection ss ss' ∧
      (act fs).fs.files (dir ++ [n ++ ".fz"]) = (sto.fpack seed ss).left ∧
      (act' fs').fs.files (dir ++ [n ++ ".fz"]) = (sto.fpack seed ss').left := by
  subst ha'
  obtain ⟨cfg, info, srcs, c, k, s, so, p, ss, x, a1, a2, a3, a4, a5, -, a6, -, a7⟩ :=
    C117_published hw hg hn h dir n hm fs hwf (fun t ht => htmp t (.inl ht)) hok
  have hm' : ∀ cfg' info' srcs' c', Calls w { a with nJobs := nJobs, nChunks := nChunks, logLevel := logLevel } cfg' info' srcs'
      c' → w.expand c'.meds = dir ++ [n] := by
    intro cfg' info' srcs' c' hc'
    rw [calls_unique a1 hc']
    exact hm _ _ _ _ a1
  obtain ⟨cfg', info', srcs', c', k', s', so', p', ss', x', b1, b2, b3, b4, b5, -, b6, -, b7⟩ :=
    C117_published hw hg' hn' h' dir n hm' fs' hwf' (fun t ht => htmp t (.inr ht)) hok'
  obtain rfl := calls_unique a1 b1
  have ek : k' = k := by
    have e1 := (C117_looked_up w a _ _ _ _ a1 k).mpr a2
    have e2 := (C117_looked_up w _ _ _ _ _ b1 k').mpr b2
    rw [e1] at e2
    exact (Except.ok.inj e2).symm
  subst ek
  have es : (s', so') = (s, so) := by
    have e1 := (C117_needed w a _ _ _ _ a1 s so).mpr a3
    have e2 := (C117_needed w _ _ _ _ _ b1 s' so').mpr b3
    have e3 : needLater w a c' = .ok (s', so') := e2
    rw [e1] at e3
    exact (Except.ok.inj e3).symm
  obtain ⟨rfl, rfl⟩ := Prod.mk.inj es
  obtain ⟨-, -, -, ⟨box, psfBox, g4⟩, g5⟩ := hg.good cfg info srcs c' k' s' so' a1 a2 a3
  have hs := C117_sound (s := s') (a := a) (c := c') hw (workDir useTmp tmpdir dflt name) box psfBox g4 g5
  refine ⟨_, ss, ss', ?_, a7.trans a6.symm, b7.trans b6.symm⟩
  exact C110_same _ box psfBox hs p p' nJobs nChunks a4 b4 ss ss' a5 b5

/-- C117: the program comes to an end, in every process that may be there. -/
theorem C117_ends (hw : SoundWorld w) (useTmp : Bool) (tmpdir : Option FPath) (dflt : FPath) (name : String)
    (hg : GoodRequest w a (workDir useTmp tmpdir dflt name)) (st : Proc P) (hn : NewProcess w st) :
    ∃ act, MainRun w a sto env valid useTmp tmpdir dflt name st act := by
  have key : ∃ act, GoRun w a sto env valid (workDir useTmp tmpdir dflt name) st act := by
    cases h1 : readGo w a with
    | error e => exact ⟨_, .read e h1⟩
    | ok c =>
      cases h2 : lookUp c with
      | error e => exact ⟨_, .looked c e h1 h2⟩
      | ok k =>
        cases h3 : needLater w a c with
        | error e => exact ⟨_, .later c k e e h1 h2 h3⟩
        | ok x =>
          obtain ⟨s, so⟩ := x
          obtain ⟨cfg, info, srcs, hc⟩ := (C117_calls w a c).mp h1
          have hk := (C117_looked_up w a cfg info srcs c hc k).mp h2
          have hs := (C117_needed w a cfg info srcs c hc s so).mp h3
          obtain ⟨g1, g2, -, ⟨box, psfBox, g4⟩, g5⟩ := hg.good cfg info srcs c k s so hc hk hs
          obtain ⟨o1, o2⟩ := C117_orderly (s := s) hc hk (workDir useTmp tmpdir dflt name) g1 g2
          obtain ⟨sizes, count, rfl⟩ := hn so.wcsColor
          cases hp : prepare (goMake w a (workDir useTmp tmpdir dflt name) c k s so).plan with
          | error e => exact ⟨_, .run c k s so _ _ h1 h2 h3 (.early e hp)⟩
          | ok p =>
            obtain ⟨ss, r, st', h⟩ := C116_ends o1 _ o2 box psfBox (C117_sound hw _ box psfBox g4 g5) p hp _
              (.fresh sizes count)
            exact ⟨_, .run c k s so _ _ h1 h2 h3 (.run p ss r st' hp h)⟩
  obtain ⟨act, h⟩ := key
  by_cases hu : useTmp = true ∨ tmpdir.isSome = true
  · rw [show workDir useTmp tmpdir dflt name = some (tmpdir.getD dflt ++ [name]) from if_pos hu] at h
    exact ⟨_, .tmp act hu h⟩
  · rw [show workDir useTmp tmpdir dflt name = none from if_neg hu] at h
    exact ⟨_, .plain act hu h⟩

/-- Hashes that tell the numbers of SE images tell them apart. -/
theorem hashTells_of_id (h : Calls w a cfg info srcs c) (hk : LooksUp cfg c k) (work : Option FPath)
    (hh : ∀ n t e n' t' e', (w.proc so.wcsColor).hash n t e = (w.proc so.wcsColor).hash n' t' e' → e.imageId = e'.imageId) :
    HashTells (w.proc so.wcsColor) (goTile w a work c k so) := by
  have hent : ∀ t e, Seeded (goTile w a work c k so) t → e ∈ t.entries → ∃ (m : Nat) (e0 : Entry P),
      (goTile w a work c k so).entries[m]? = some e0 ∧ e.imageId = m + 1 ∧ e.offset = e0.offset ∧ e.src = e0.src := by
    intro t e ht he
    obtain ⟨m, hm⟩ := List.mem_iff_getElem?.1 he
    have ht1 := ht.1
    rw [forall₂_index] at ht1
    have hm' : m < (goTile w a work c k so).entries.length := ht1.1 ▸ (List.getElem?_eq_some_iff.1 hm).1
    obtain ⟨l, j, rfl⟩ := ht1.2 m _ e (List.getElem?_eq_getElem hm') hm
    refine ⟨m, _, List.getElem?_eq_getElem hm', ?_, rfl, rfl⟩
    have hx : (k.srcs.map Prod.snd)[m]? = some (goTile w a work c k so).entries[m] := List.getElem?_eq_getElem hm'
    rw [List.getElem?_map] at hx
    obtain ⟨x, hx', hxe⟩ := Option.map_eq_some_iff.1 hx
    obtain ⟨d, f, fc, e1, e2, e3, e4, e5⟩ := source_at h hk hx'
    show (goTile w a work c k so).entries[m].imageId = _
    rw [← hxe, e5.used.2.1]
    have := e5.id
    rw [e4.id] at this
    exact (Option.some.inj this).symm
  intro n u e n' u' e' hu he hu' he' heq
  obtain ⟨m, e0, a1, a2, a3, a4⟩ := hent u e hu he
  obtain ⟨m', e0', b1, b2, b3, b4⟩ := hent u' e' hu' he'
  have hm : m = m' := by
    have := hh n u e n' u' e' heq
    rw [a2, b2] at this
    exact_mod_cast add_right_cancel this
  subst hm
  rw [a1] at b1
  cases b1
  rw [a3, b3, a4, b4]
  exact ⟨rfl, rfl⟩

/-- What is assumed of a request does not depend on the numbers of jobs and chunks. -/
theorem goodRequest_other {work : Option FPath} (hg : GoodRequest w a work) (hl : w.level (a.logLevel.map Char.toUpper) = .ok ())
    (nJobs : Nat) (nChunks : Option Nat) (logLevel : PyStr) :
    GoodRequest w { a with nJobs := nJobs, nChunks := nChunks, logLevel := logLevel } work :=
  ⟨fun cfg info srcs c k s so h hk hs => hg.good cfg info srcs c k s so (calls_other hl h) hk ⟨hs.seed, hs.options⟩⟩

end

end Pizza
