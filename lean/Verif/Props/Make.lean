import Verif.Spec.Make
import Verif.Props.ImageInfo
import Verif.Props.Publish
import Verif.Props.Slice
import Verif.Props.SliceRange

/-!
C110: the file that a run publishes.  C111: which requests can be processed.
-/

namespace Pizza

variable {A σ S W ρ : Type}

/-! ### parts -/

theorem pyRange3_nodup (start stop step : ℤ) : (pyRange3 start stop step).Nodup := by
  unfold pyRange3
  by_cases hs : step = 0
  · subst hs
    simp
  · refine List.Nodup.map (fun a b h => ?_) List.nodup_range
    have : (a : ℤ) * step = b * step := by simpa using h
    exact_mod_cast mul_right_cancel₀ hs this

theorem extractSliceRange_nodup {spec : RangeSpec} {num : Nat} {l : List ℤ}
    (h : extractSliceRange spec num = .ok l) : l.Nodup := by
  have key : ∀ a b c, checkRange num a b c = .ok l → l.Nodup := by
    intro a b c h
    unfold checkRange at h
    split at h
    · cases h
    · cases h
      exact pyRange3_nodup _ _ _
  unfold extractSliceRange at h
  split at h
  · cases h
    exact pyRange3_nodup _ _ _
  · split at h
    · obtain ⟨a, _, h⟩ := bind_eq_ok.1 h
      obtain ⟨b, _, h⟩ := bind_eq_ok.1 h
      exact key _ _ _ h
    · cases h
  · exact key _ _ _ h
  · cases h
  · cases h

theorem natIndices_ok {l : List ℤ} {ns : List Nat} (h : natIndices l = .ok ns) :
    l = ns.map fun n : Nat => (n : ℤ) := by
  unfold natIndices at h
  split at h
  · rename_i hall
    cases h
    rw [List.map_map]
    conv_lhs => rw [← List.map_id l]
    refine List.map_congr_left fun i hi => ?_
    have := List.all_eq_true.1 hall i hi
    simp only [decide_eq_true_eq] at this
    simp [this]
  · cases h

/-- The selected slices. -/
theorem selectSlices_ok {m : MakeIn A σ S W ρ} {objs : List ObjRow} {slices : List Nat}
    (hs : IsArgsort m.argsort) (h : selectSlices m objs = .ok slices) :
    ∃ req shape, extractSliceRange m.range objs.length = .ok req ∧ m.imageShape = some shape ∧
      (slices.map fun n : Nat => (n : ℤ)).Perm req ∧ slices.Nodup := by
  unfold selectSlices at h
  obtain ⟨req, h1, h'⟩ := bind_eq_ok.1 h
  obtain ⟨ns, h2, h''⟩ := bind_eq_ok.1 h'
  obtain ⟨shape, h3, h4⟩ := bind_eq_ok.1 h''
  clear h h' h''
  have hnd := extractSliceRange_nodup h1
  have e := natIndices_ok h2
  subst e
  have hns : ns.Nodup := List.Nodup.of_map _ hnd
  obtain ⟨p1, p2⟩ := C58_permutation _ _ _ hs _ _ _ _ h4
  refine ⟨_, shape, h1, ?_, p1.map _, (p2 hns).1⟩
  unfold lookup at h3
  cases hi : m.imageShape with
  | none => rw [hi] at h3; cases h3
  | some s => rw [hi] at h3; cases h3; rfl

theorem SoundMake.sound {m : MakeIn A σ S W ρ} {box psfBox : Nat} (hm : SoundMake m box psfBox) {p : Prepared}
    (hp : prepare m = .ok p) : SoundEnv (sliceEnvFor m p.objects) box psfBox := by
  have hr : ∀ row ∈ p.objects, row.boxSize = box ∧ row.psfBoxSize = psfBox := by
    unfold prepare at hp
    obtain ⟨_, _, hp⟩ := bind_eq_ok.1 hp
    obtain ⟨_, _, hp⟩ := bind_eq_ok.1 hp
    obtain ⟨w, _, hp⟩ := bind_eq_ok.1 hp
    obtain ⟨objs, ho, hp⟩ := bind_eq_ok.1 hp
    cases hp
    rw [hm.psfBoxSize] at ho
    exact C93_boxes _ _ _ _ _ _ _ _ _ hm.boxSize ho
  have h := hm.env p.objects.length
  exact ⟨h.boxPos, h.psfOdd, hr, h.frac, h.shape, h.noises, h.psf, h.keeps, h.fwhm⟩

theorem pixelCounts_ok {box psfBox : Nat} : ∀ {objs : List ObjRow},
    (∀ row ∈ objs, row.boxSize = box ∧ row.psfBoxSize = psfBox) → ∀ {n}, pixelCounts objs = .ok n →
    n = (box * box, psfBox * psfBox, objs.length * (box * box), objs.length * (psfBox * psfBox)) := by
  intro objs hr n h
  have hsum : ∀ (f : ObjRow → ℤ) (b : Nat) (l : List ObjRow), (∀ row ∈ l, f row = b) →
      (l.map fun o : ObjRow => f o ^ 2).sum = ((l.length * (b * b) : Nat) : ℤ) := by
    intro f b l hl
    induction l with
    | nil => simp
    | cons a l ih =>
      rw [List.map_cons, List.sum_cons, ih fun row hr => hl row (by simp [hr]), hl a (by simp)]
      push_cast
      rw [List.length_cons]
      push_cast
      ring
  unfold pixelCounts at h
  split at h
  · cases h
  · rename_i r l
    cases h
    rw [hsum ObjRow.boxSize box _ fun row h => (hr row h).1,
      hsum ObjRow.psfBoxSize psfBox _ fun row h => (hr row h).2, (hr r (by simp)).1, (hr r (by simp)).2]
    have e : ∀ b : Nat, (((b : ℤ) ^ 2).toNat : Nat) = b * b := by
      intro b
      rw [pow_two, ← Nat.cast_mul, Int.toNat_natCast]
    rw [e, e, Int.toNat_natCast, Int.toNat_natCast]

/-- What a loop over the slices that returns has done. -/
theorem sliceRun_ok {c : RunShape Flt} {compute : Nat → Nat → Except Err (SliceRes Flt EpochRow)}
    {nJobs : Nat} {nChunks : Option Nat} {slices seeds : List Nat} {rows0 : List RunRow} {o : Out Flt EpochRow}
    (hrows : rows0.length = c.n) (hc : ∀ jobs, GoodCompute c compute jobs) (hnd : slices.Nodup)
    (h : SliceRun c compute nJobs nChunks slices seeds ⟨c.reserved, rows0, []⟩ (.ok o)) :
    ∃ rs : List (SliceRes Flt EpochRow), (rs.map SliceRes.i).Perm slices ∧
      (∀ r ∈ rs, compute r.i (seeds.getD r.i 0) = .ok r) ∧
      Holds c.ops c.n c.npix c.npixPsf c.reserved rows0 rs o := by
  have fin : ∀ (gj : List (Nat × Nat)) (rs : List (SliceRes Flt EpochRow)), gj.Perm (jobsOf seeds slices) →
      gj.map (fun j => compute j.1 j.2) = rs.map .ok →
      (rs.map SliceRes.i).Perm slices ∧ ∀ r ∈ rs, compute r.i (seeds.getD r.i 0) = .ok r := by
    intro gj rs hp hr
    obtain ⟨_, g2⟩ := results_good (hc gj) hr fun _ h => h
    refine ⟨?_, fun r hrm => ?_⟩
    · rw [g2, ← jobsOf_fst seeds slices]
      exact hp.map _
    · have : Except.ok r ∈ gj.map fun j => compute j.1 j.2 := by
        rw [hr]
        exact List.mem_map.2 ⟨r, hrm, rfl⟩
      obtain ⟨j, hj, hj'⟩ := List.mem_map.1 this
      have hi := (hc gj j hj r hj').1
      rw [hp.mem_iff] at hj
      obtain ⟨i, _, rfl⟩ := List.mem_map.1 hj
      dsimp only at hi hj'
      rw [hi]
      exact hj'
  generalize hres : (Except.ok o : Except Err (Out Flt EpochRow)) = res at h
  cases h with
  | seq hj =>
    have h' : runSeq c compute ⟨c.reserved, rows0, []⟩ (jobsOf seeds slices) = .ok o := hres.symm
    obtain ⟨rs, hrs⟩ := runSeq_ok_inv h'
    obtain ⟨o', a1, a2, _⟩ := runSeq_holds hrows (hc _) (by rw [jobsOf_fst]; exact hnd) hrs
    rw [h'] at a1
    cases a1
    obtain ⟨f1, f2⟩ := fin _ rs (List.Perm.refl _) hrs
    exact ⟨rs, f1, f2, a2⟩
  | noChunks e => cases hres
  | parRaised => cases hres
  | parDone chunks k s hj hch hrun hd =>
    cases hres
    obtain ⟨h1, _⟩ := chunks_of hch
    have hl : slices.length = chunks.flatten.length := by rw [h1, jobsOf, List.length_map]
    rw [hl] at hrun
    obtain ⟨gj, rs, g1, g2, g3⟩ := (run_inv hrows (hc _) (by rw [h1, jobsOf_fst]; exact hnd) hrun).2.2 hd
    obtain ⟨f1, f2⟩ := fin gj rs (h1 ▸ g1) g2
    exact ⟨rs, f1, f2, g3⟩

/-- Two loops over the same slices that return have written the same, but for the order of the epochs. -/
theorem sliceRun_unique {c : RunShape Flt} {compute : Nat → Nat → Except Err (SliceRes Flt EpochRow)}
    {nJobs nJobs' : Nat} {nChunks nChunks' : Option Nat} {slices seeds : List Nat} {rows0 : List RunRow}
    {o o' : Out Flt EpochRow}
    (hrows : rows0.length = c.n) (hc : ∀ jobs, GoodCompute c compute jobs) (hnd : slices.Nodup)
    (h : SliceRun c compute nJobs nChunks slices seeds ⟨c.reserved, rows0, []⟩ (.ok o))
    (h' : SliceRun c compute nJobs' nChunks' slices seeds ⟨c.reserved, rows0, []⟩ (.ok o')) :
    o.fits = o'.fits ∧ o.rows = o'.rows ∧ o.epochs.Perm o'.epochs := by
  obtain ⟨rs, p1, c1, h1⟩ := sliceRun_ok hrows hc hnd h
  obtain ⟨rs', p2, c2, h2⟩ := sliceRun_ok hrows hc hnd h'
  have key : ∀ (rs : List (SliceRes Flt EpochRow)), (∀ r ∈ rs, compute r.i (seeds.getD r.i 0) = .ok r) →
      (jobsOf seeds (rs.map SliceRes.i)).map (fun j => compute j.1 j.2) = rs.map .ok := by
    intro rs hr
    rw [jobsOf, List.map_map, List.map_map]
    exact List.map_congr_left fun r hm => hr r hm
  have hpj : (jobsOf seeds (rs.map SliceRes.i)).Perm (jobsOf seeds (rs'.map SliceRes.i)) :=
    (p1.trans p2.symm).map _
  obtain ⟨rs'', q1, q2⟩ := perm_results hpj (key rs c1)
  have e : rs'' = rs' := by
    have := q1.symm.trans (key rs' c2)
    exact List.map_injective_iff.2 (fun a b h => Except.ok.inj h) this
  subst e
  obtain ⟨g, _⟩ := results_good (hc _) (key rs c1) fun _ h => h
  exact holds_unique c rows0 hrows rs rs'' q2 g _ _ h1 h2

theorem tables_not_cutouts (nExtra : Nat) :
    ∀ s ∈ ["object_data", "epochs_info", "metadata", "tile_info", "image_info", "gaia_stars"],
      s ∉ allNames nExtra := by
  intro s hs hm
  unfold allNames at hm
  rcases List.mem_append.1 hm with hm | hm
  · rcases List.mem_append.1 hm with hm | hm
    · have key : ∀ s ∈ ["object_data", "epochs_info", "metadata", "tile_info", "image_info", "gaia_stars"],
        s ∉ baseNames := by decide
      exact key s hs hm
    · obtain ⟨k, _, _, rfl⟩ := extraNoiseNames_mem.1 hm
      have h := noiseExt_toList k
      simp only [List.mem_cons, List.not_mem_nil, or_false] at hs
      rcases hs with hs | hs | hs | hs | hs | hs <;> rw [hs] at h <;> simp at h
  · have key : ∀ s ∈ ["object_data", "epochs_info", "metadata", "tile_info", "image_info", "gaia_stars"],
        s ∉ [PSF_EXT] := by decide
    exact key s hs hm

theorem fileNames_eq (nExtra : Nat) (gaia : Bool) : fileNames nExtra gaia = allNames nExtra ++
    ["object_data", "epochs_info", "metadata", "tile_info", "image_info"] ++
    if gaia = true then ["gaia_stars"] else [] := by
  unfold fileNames allNames extraNoiseNames noiseExt baseNames IMAGE_EXT WEIGHT_EXT SEG_EXT BMASK_EXT ORMASK_EXT
    NOISE_EXT MFRAC_EXT PSF_EXT
  simp only [List.append_assoc, List.cons_append, List.nil_append]

theorem fileNames_nodup (nExtra : Nat) (gaia : Bool) : (fileNames nExtra gaia).Nodup := by
  rw [fileNames_eq, List.append_assoc]
  refine List.Nodup.append (allNames_nodup _) ?_ ?_
  · cases gaia <;> decide
  · intro s hs hs'
    refine tables_not_cutouts nExtra s ?_ hs
    cases gaia <;> simp at hs' ⊢ <;> tauto

theorem names_nodup {ss : List Section} {n : Nat} {g : Bool} (h : ss.map Section.name = fileNames n g) :
    ss.map Section.name = fileNames n g ∧ (ss.map Section.name).Nodup :=
  ⟨h, by rw [h]; exact fileNames_nodup _ _⟩

theorem tileEnv_iff {m : MakeIn A σ S W ρ} {objs : List ObjRow} {v : SliceEnv A σ S} :
    TileEnv m objs v ↔ v = sliceEnvFor m objs := by
  constructor
  · rintro ⟨h1, h2, h3⟩
    obtain ⟨⟩ := v
    unfold sliceEnvFor
    rw [← h3]
    dsimp only at h1 h2 ⊢
    subst h1 h2
    rfl
  · rintro rfl
    exact ⟨rfl, rfl, rfl⟩

theorem sliceGives_iff {m : MakeIn A σ S W ρ} {objs : List ObjRow} {i : Nat} (hi : i < objs.length)
    {r : Except Err (SliceRes Flt EpochRow)} :
    SliceGives m objs i r ↔ coaddSingleSlice (sliceEnvFor m objs) i ((seedsFor m objs).slices.getD i 0) = r := by
  have hlen : (runSeeds m objs.length).slices.length = objs.length :=
    (C71_seeds m.rand m.randState objs.length m.srcs.length m.slice.nExtra).1
  constructor
  · rintro ⟨k, seed, v, hk, h1, h2, h3⟩
    obtain rfl : k = i := by exact_mod_cast hk
    rw [tileEnv_iff] at h2
    subst h2
    rw [List.getD_eq_getElem?_getD, show (seedsFor m objs) = runSeeds m objs.length from rfl, h1]
    exact h3
  · intro h
    refine ⟨i, (runSeeds m objs.length).slices[i], _, rfl, List.getElem?_eq_getElem (by omega), tileEnv_iff.2 rfl, ?_⟩
    rw [← h, show (seedsFor m objs) = runSeeds m objs.length from rfl,
      List.getD_eq_getElem?_getD, List.getElem?_eq_getElem (by omega)]
    rfl

theorem imageWidth_iff {m : MakeIn A σ S W ρ} {w : ℤ} : imageWidth m = .ok w ↔ WidthIs m w := by
  unfold imageWidth getImageWidth
  constructor
  · intro h
    rcases hs : m.imageShape with _ | ⟨nrow, ncol⟩
    · rw [hs] at h
      obtain ⟨hd, h1, h2⟩ := bind_eq_ok.1 h
      rcases hz : hd "znaxis1" with _ | z
      · rw [hz] at h2
        dsimp only at h2
        unfold lookup at h2
        rcases hn : hd "naxis1" with _ | n
        · rw [hn] at h2; cases h2
        · rw [hn] at h2; cases h2
          exact .plain hd _ hs h1 hz hn
      · rw [hz] at h2
        cases h2
        exact .packed hd _ hs h1 hz
    · rw [hs] at h
      cases h
      exact .shape nrow ncol hs
  · intro h
    cases h with
    | shape nrow ncol h => rw [h]
    | packed hd w h1 h2 h3 => rw [h1, h2]; simp [ok_bind, h3, pure, Except.pure]
    | plain hd w h1 h2 h3 h4 => rw [h1, h2]; simp [ok_bind, h3, h4, lookup]

/-! ### C110 -/

/-- **C110, the tables.**  The tables of a run are the metadata, the image info and the rows of all slices
of a coadd image of the given width. -/
theorem C110_tables (m : MakeIn A σ S W ρ) (p : Prepared) :
    prepare m = .ok p ↔
      buildMetadata m.environ m.versions m.config m.json = .ok (p.md, p.json) ∧
      buildImageInfo m.io m.f4 m.coaddNums m.coaddWcs m.srcs = .ok p.imageInfo ∧
      ∃ width, WidthIs m width ∧
        buildObjectData m.central m.buffer width m.psfBox m.slice.fwd m.jac m.slice.offset = .ok p.objects := by
  unfold prepare
  constructor
  · intro h
    obtain ⟨md, h1, h⟩ := bind_eq_ok.1 h
    obtain ⟨ii, h2, h⟩ := bind_eq_ok.1 h
    obtain ⟨w, h3, h⟩ := bind_eq_ok.1 h
    obtain ⟨objs, h4, h⟩ := bind_eq_ok.1 h
    cases h
    exact ⟨h1, h2, w, imageWidth_iff.1 h3, h4⟩
  · rintro ⟨h1, h2, w, h3, h4⟩
    rw [h1, ok_bind, h2, ok_bind, imageWidth_iff.2 h3, ok_bind, h4]
    rfl

/-- **C110, the file.**  When the block that writes the FITS file does not raise, sequential or parallel, the
requested slices (at least one) have each been computed once with their seeds, and the file has exactly the
cutout images that hold the results, the table of all slices of the tile, the tables of epochs of the
requested slices, the metadata, the tile info and the image info, and the stars if there is a catalog.  The
names of the extensions are those given, in this order, without repetition. -/
theorem C110_file (m : MakeIn A σ S W ρ) (box psfBox : Nat) (hm : SoundMake m box psfBox) (p : Prepared)
    (hp : prepare m = .ok p) (ss : List Section) (h : FitsBody m p ss none) :
    ∃ (req : List ℤ) (rs : List (SliceRes Flt EpochRow)) (fits : List (Hdu Flt)) (o : Out Flt EpochRow)
      (gaia : List Section),
      extractSliceRange m.range p.objects.length = .ok req ∧ req ≠ [] ∧
      (rs.map fun r => (r.i : ℤ)).Perm req ∧
      (∀ r ∈ rs, SliceGives m p.objects r.i (.ok r)) ∧
      reserveImages m.ops m.pars (p.objects.length * (box * box)) (p.objects.length * (psfBox * psfBox))
        m.slice.nExtra (box * box) (psfBox * psfBox) = .ok fits ∧
      Holds m.ops p.objects.length (box * box) (psfBox * psfBox) fits (m.rows0 p.objects.length) rs o ∧
      ss = o.fits.map .image ++ [.objectData (p.objects.zip o.rows), .epochsInfo (rs.map (·.epochs)).flatten,
        .metadata p.md, .tileInfo p.json, .imageInfo p.imageInfo] ++ gaia ∧
      (m.slice.gaiaFile = none ∧ gaia = [] ∨ ∃ cat, m.slice.gaiaFile = some (.ok cat) ∧
        gaia = [.gaiaStars (readGaiaStars m.slice.inv m.slice.offset cat)]) ∧
      ss.map Section.name = fileNames m.slice.nExtra m.slice.gaiaFile.isSome ∧
      (ss.map Section.name).Nodup := by
  generalize hr : (none : Option Err) = r at h
  cases h with
  | select e => cases hr
  | counts => cases hr
  | reserve => cases hr
  | slices => cases hr
  | finish slices n fits o hsel hcnt hres hrun =>
    have hv := hm.sound hp
    have hn := pixelCounts_ok hv.rows hcnt
    subst hn
    dsimp only at hres hrun
    obtain ⟨req, shape, q1, -, q3, q4⟩ := selectSlices_ok hm.argsort hsel
    have hgood := C95_good (sliceEnvFor m p.objects) box psfBox hv m.ops hm.ops m.pars
    have hfits := reserved_of (c := runShapeOf (sliceEnvFor m p.objects) m.ops m.pars box psfBox) hres
    subst hfits
    obtain ⟨rs, r1, r2, r3⟩ := sliceRun_ok (c := runShapeOf (sliceEnvFor m p.objects) m.ops m.pars box psfBox)
      (hm.rows0 _) hgood q4 hrun
    have hlen : o.epochs.length = slices.length := by
      rw [r3.epochs, List.length_map, ← List.length_map (f := SliceRes.i), r1.length_eq]
    have hperm : (rs.map fun r => (r.i : ℤ)).Perm req := by
      have := (r1.map fun n : Nat => (n : ℤ)).trans q3
      rwa [List.map_map] at this
    have r2' : ∀ r ∈ rs, SliceGives m p.objects r.i (.ok r) := by
      intro r hr
      refine (sliceGives_iff ?_).2 (r2 r hr)
      exact (C93_storable _ box psfBox hv m.ops hm.ops _ _ _ (r2 r hr)).1
    have hnames : (o.fits.map Section.image).map Section.name = allNames m.slice.nExtra := by
      rw [List.map_map]
      have : (o.fits.map Hdu.name) = allNames m.slice.nExtra := by
        rw [(forall₂_names r3.shape).1, RunShape.reserved, reserved_names]
        rfl
      rw [← this]
      rfl
    unfold finishFile at hr ⊢
    simp only [hlen, ne_eq, not_true_eq_false, if_false] at hr ⊢
    cases he : o.epochs with
    | nil =>
      rw [he] at hr
      cases hr
    | cons e0 es =>
      rw [he] at hr
      have hreq : req ≠ [] := by
        rintro rfl
        have h0 := hperm.length_eq
        have h1 := congrArg List.length he
        rw [r3.epochs, List.length_map] at h1
        rw [List.length_map] at h0
        simp at h0 h1
        rw [h0] at h1
        simp at h1
      have hep : (e0 :: es : List (List EpochRow)) = rs.map (·.epochs) := by rw [← he, r3.epochs]
      dsimp only at hr ⊢
      rw [hep]
      cases hg : m.slice.gaiaFile with
      | none =>
        rw [hg] at hr
        refine ⟨req, rs, _, o, [], q1, hreq, hperm, r2', hres, r3, by simp, .inl ⟨rfl, rfl⟩, ?_⟩
        refine names_nodup ?_
        rw [fileNames_eq, ← hnames]
        simp [Section.name]
      | some f =>
        rw [hg] at hr
        cases f with
        | error e => cases hr
        | ok cat =>
          refine ⟨req, rs, _, o, _, q1, hreq, hperm, r2', hres, r3, by simp, .inr ⟨cat, rfl, rfl⟩, ?_⟩
          refine names_nodup ?_
          rw [fileNames_eq, ← hnames]
          simp [Section.name]

/-- A run of the block that raises nothing has come to its end. -/
theorem fitsBody_none {m : MakeIn A σ S W ρ} {p : Prepared} {ss : List Section} (h : FitsBody m p ss none) :
    ∃ slices n fits o, selectSlices m p.objects = .ok slices ∧ pixelCounts p.objects = .ok n ∧
      reserveImages m.ops m.pars n.2.2.1 n.2.2.2 m.slice.nExtra n.1 n.2.1 = .ok fits ∧
      SliceRun ⟨m.ops, m.pars, p.objects.length, n.1, n.2.1, m.slice.nExtra⟩
        (coaddSingleSlice (sliceEnvFor m p.objects)) m.nJobs m.nChunks slices (seedsFor m p.objects).slices
        ⟨fits, m.rows0 p.objects.length, []⟩ (.ok o) ∧
      ss = (finishFile m p slices.length o).1 ∧ (finishFile m p slices.length o).2 = none := by
  have key : ∀ r, FitsBody m p ss r → r = none → ∃ slices n fits o, selectSlices m p.objects = .ok slices ∧
      pixelCounts p.objects = .ok n ∧
      reserveImages m.ops m.pars n.2.2.1 n.2.2.2 m.slice.nExtra n.1 n.2.1 = .ok fits ∧
      SliceRun ⟨m.ops, m.pars, p.objects.length, n.1, n.2.1, m.slice.nExtra⟩
        (coaddSingleSlice (sliceEnvFor m p.objects)) m.nJobs m.nChunks slices (seedsFor m p.objects).slices
        ⟨fits, m.rows0 p.objects.length, []⟩ (.ok o) ∧
      ss = (finishFile m p slices.length o).1 ∧ (finishFile m p slices.length o).2 = none := by
    intro r h hr
    cases h with
    | select e => cases hr
    | counts => cases hr
    | reserve => cases hr
    | slices => cases hr
    | finish slices n fits o hsel hcnt hres hrun => exact ⟨slices, n, fits, o, hsel, hcnt, hres, hrun, rfl, hr⟩
  exact key _ h rfl

theorem SameSection.forall₂_refl (l : List Section) : List.Forall₂ SameSection l l :=
  List.forall₂_same.2 fun s _ => .refl s

theorem finishFile_same {m m' : MakeIn A σ S W ρ} {p : Prepared} {n : Nat} {o o' : Out Flt EpochRow}
    (hg : m.slice = m'.slice) (h1 : o.fits = o'.fits) (h2 : o.rows = o'.rows) (h3 : o.epochs.Perm o'.epochs)
    (hn : (finishFile m p n o).2 = none) (hn' : (finishFile m' p n o').2 = none) :
    List.Forall₂ SameSection (finishFile m p n o).1 (finishFile m' p n o').1 := by
  obtain ⟨f, r, es⟩ := o
  obtain ⟨f', r', es'⟩ := o'
  dsimp only at h1 h2 h3
  subst h1 h2
  unfold finishFile at hn hn' ⊢
  rw [← hg] at hn' ⊢
  dsimp only at hn hn' ⊢
  by_cases hl : es.length = n
  · have hl' : es'.length = n := by rw [← hl, h3.length_eq]
    simp only [hl, hl', ne_eq, not_true_eq_false, if_false] at hn hn' ⊢
    cases es with
    | nil => cases hn
    | cons a as =>
      cases es' with
      | nil => cases hn'
      | cons b bs =>
        dsimp only at hn hn' ⊢
        have hs : ∀ t : List Section, List.Forall₂ SameSection
            (f.map Section.image ++ [.objectData (p.objects.zip r)] ++
              [.epochsInfo (a :: as).flatten, .metadata p.md, .tileInfo p.json, .imageInfo p.imageInfo] ++ t)
            (f.map Section.image ++ [.objectData (p.objects.zip r)] ++
              [.epochsInfo (b :: bs).flatten, .metadata p.md, .tileInfo p.json, .imageInfo p.imageInfo] ++ t) := by
          intro t
          refine List.rel_append ?_ (SameSection.forall₂_refl t)
          refine List.rel_append (SameSection.forall₂_refl _) ?_
          exact .cons (.epochs _ _ h3) (SameSection.forall₂_refl _)
        cases hgf : m.slice.gaiaFile with
        | none => simpa using hs []
        | some c =>
          cases c with
          | error e => rw [hgf] at hn; cases hn
          | ok cat => exact hs _
  · simp [hl] at hn

/-- **C110, the same file.**  Two runs of the same request that do not raise, with any numbers of jobs and
chunks, have written the same extensions in the same order, but for the order of the blocks of
`epochs_info`. -/
theorem C110_same (m : MakeIn A σ S W ρ) (box psfBox : Nat) (hm : SoundMake m box psfBox) (p p' : Prepared)
    (nJobs : Nat) (nChunks : Option Nat) (hp : prepare m = .ok p)
    (hp' : prepare { m with nJobs := nJobs, nChunks := nChunks } = .ok p') (ss ss' : List Section)
    (h : FitsBody m p ss none) (h' : FitsBody { m with nJobs := nJobs, nChunks := nChunks } p' ss' none) :
    List.Forall₂ SameSection ss ss' := by
  have e : p' = p := by
    have : prepare { m with nJobs := nJobs, nChunks := nChunks } = prepare m := rfl
    rw [this, hp] at hp'
    cases hp'
    rfl
  subst e
  obtain ⟨slices, n, fits, o, a1, a2, a3, a4, rfl, a6⟩ := fitsBody_none h
  obtain ⟨slices', n', fits', o', b1, b2, b3, b4, rfl, b6⟩ := fitsBody_none h'
  have e1 : slices' = slices := by
    have : selectSlices { m with nJobs := nJobs, nChunks := nChunks } p'.objects = selectSlices m p'.objects := rfl
    rw [this, a1] at b1
    cases b1
    rfl
  subst e1
  rw [a2] at b2
  cases b2
  have hv := hm.sound hp
  have hn := pixelCounts_ok hv.rows a2
  subst hn
  dsimp only at a3 a4 b3 b4
  rw [a3] at b3
  cases b3
  obtain ⟨_, _, _, _, _, hnd⟩ := selectSlices_ok hm.argsort a1
  have hfits := reserved_of (c := runShapeOf (sliceEnvFor m p'.objects) m.ops m.pars box psfBox) a3
  subst hfits
  obtain ⟨u1, u2, u3⟩ := sliceRun_unique
    (c := runShapeOf (sliceEnvFor m p'.objects) m.ops m.pars box psfBox) (hm.rows0 _)
    (C95_good (sliceEnvFor m p'.objects) box psfBox hv m.ops hm.ops m.pars) hnd a4 b4
  exact finishFile_same rfl u1 u2 u3 a6 b6

/-- The loop over the slices: it can come to an end, and it returns exactly if every slice can be computed. -/
theorem sliceRun_outcome {c : RunShape Flt} {compute : Nat → Nat → Except Err (SliceRes Flt EpochRow)}
    {nJobs : Nat} {nChunks : Option Nat} {slices seeds : List Nat} {rows0 : List RunRow}
    (hrows : rows0.length = c.n) (hc : ∀ jobs, GoodCompute c compute jobs) (hnd : slices.Nodup)
    (hf : reserveImages c.ops c.pars (c.n * c.npix) (c.n * c.npixPsf) c.nExtra c.npix c.npixPsf = .ok c.reserved)
    (hk : 1 < nJobs → nChunks ≠ some 0) :
    (∃ r, SliceRun c compute nJobs nChunks slices seeds ⟨c.reserved, rows0, []⟩ r) ∧
    ((∀ i ∈ slices, ∃ r, compute i (seeds.getD i 0) = .ok r) → ∀ e,
      ¬ SliceRun c compute nJobs nChunks slices seeds ⟨c.reserved, rows0, []⟩ (.error e)) ∧
    ((∃ i ∈ slices, ∃ e, compute i (seeds.getD i 0) = .error e) → ∀ o,
      ¬ SliceRun c compute nJobs nChunks slices seeds ⟨c.reserved, rows0, []⟩ (.ok o)) := by
  refine ⟨?_, ?_, ?_⟩
  · by_cases hj : nJobs ≤ 1
    · exact ⟨_, .seq hj⟩
    · have hch : 1 ≤ nChunks.getD nJobs := by
        cases nChunks with
        | none => simp; omega
        | some k =>
          have := hk (by omega)
          simp at this ⊢
          omega
      obtain ⟨chunks, h1, _⟩ := C59_partition slices seeds _ hch
      obtain ⟨k, t, t1, t2⟩ := C61_completes c compute slices.length nJobs (10 * nJobs) 0
        (PState.init chunks ⟨c.reserved, rows0, []⟩) _ (.refl _)
      cases hs : t.status with
      | done => exact ⟨_, .parDone _ _ _ (by omega) h1 t1 hs⟩
      | raised e => exact ⟨_, .parRaised _ _ _ e (by omega) h1 t1 hs⟩
      | running =>
        exact absurd (C61_progress c compute rows0 hrows _ hf slices seeds hnd (hc _) _ nJobs (10 * nJobs) _
          (by omega) (by omega) chunks h1 t t1 hs) t2
  · intro hall e h
    generalize hres : (Except.error e : Except Err (Out Flt EpochRow)) = res at h
    cases h with
    | seq hj =>
      have : ∃ rs : List (SliceRes Flt EpochRow), (jobsOf seeds slices).map (fun j => compute j.1 j.2) = rs.map .ok := by
        rw [jobsOf, List.map_map]
        clear hnd hres
        induction slices with
        | nil => exact ⟨[], rfl⟩
        | cons a l ih =>
          obtain ⟨r, hr⟩ := hall a (by simp)
          obtain ⟨rs, hrs⟩ := ih fun i hi => hall i (by simp [hi])
          refine ⟨r :: rs, ?_⟩
          rw [List.map_cons, List.map_cons, hrs, Function.comp_apply, hr]
      obtain ⟨rs, hrs⟩ := this
      obtain ⟨o', a1, _⟩ := runSeq_holds hrows (hc _) (by rw [jobsOf_fst]; exact hnd) hrs
      have hres' : (Except.error e : Except Err (Out Flt EpochRow)) =
        runSeq c compute ⟨c.reserved, rows0, []⟩ (jobsOf seeds slices) := hres
      rw [a1] at hres'
      cases hres'
    | noChunks e' hj hch =>
      have hch' : 1 ≤ nChunks.getD nJobs := by
        cases nChunks with
        | none => simp; omega
        | some k =>
          have := hk (by omega)
          simp at this ⊢
          omega
      obtain ⟨chunks, h1, _⟩ := C59_partition slices seeds _ hch'
      rw [h1] at hch
      cases hch
    | parDone => cases hres
    | parRaised chunks k s e' hj hch hrun hst =>
      have hend : ¬ ∃ t, Step c compute slices.length nJobs (10 * nJobs) s t := by
        rintro ⟨t, ht⟩
        cases ht <;> simp_all
      have := (C61_outcome c compute rows0 hrows _ hf slices seeds hnd (hc _) _ nJobs (10 * nJobs) _
        (by omega) (by omega) chunks hch s hrun hend).1 hall
      rw [this] at hst
      cases hst
  · rintro ⟨i, hi, e, he⟩ o h
    obtain ⟨rs, p1, c1, _⟩ := sliceRun_ok hrows hc hnd h
    have : i ∈ rs.map SliceRes.i := p1.symm.subset hi
    obtain ⟨r, hr, rfl⟩ := List.mem_map.1 this
    rw [c1 r hr] at he
    cases he

/-- The outcome of the block in terms of the ordered list of slices. -/
theorem fitsBody_outcome (m : MakeIn A σ S W ρ) (box psfBox : Nat) (hm : SoundMake m box psfBox) (p : Prepared)
    (hp : prepare m = .ok p) (slices : List Nat) (hsel : selectSlices m p.objects = .ok slices)
    (hne : slices ≠ []) (hg : ∀ e, m.slice.gaiaFile ≠ some (.error e))
    (hk : 1 < m.nJobs → m.nChunks ≠ some 0) :
    (∃ ss r, FitsBody m p ss r) ∧
    ((∀ i ∈ slices, ∃ r, coaddSingleSlice (sliceEnvFor m p.objects) i
        ((seedsFor m p.objects).slices.getD i 0) = .ok r) → ∀ ss e, ¬ FitsBody m p ss (some e)) ∧
    ((∃ i ∈ slices, ∃ e, coaddSingleSlice (sliceEnvFor m p.objects) i
        ((seedsFor m p.objects).slices.getD i 0) = .error e) → ∀ ss, ¬ FitsBody m p ss none) := by
  have hv := hm.sound hp
  obtain ⟨_, shape, _, _, _, hnd⟩ := selectSlices_ok hm.argsort hsel
  have hobj : p.objects ≠ [] := by
    intro h0
    unfold selectSlices at hsel
    obtain ⟨req, _, hsel'⟩ := bind_eq_ok.1 hsel
    obtain ⟨ns, _, hsel''⟩ := bind_eq_ok.1 hsel'
    obtain ⟨shape, _, ho⟩ := bind_eq_ok.1 hsel''
    obtain ⟨ds, hd, _⟩ := bind_eq_ok.1 ho
    have hperm := (C58_permutation _ _ _ hm.argsort _ _ _ _ ho).1
    cases ns with
    | nil => exact hne (List.Perm.eq_nil hperm)
    | cons a l =>
      rw [List.mapM_cons] at hd
      obtain ⟨d, hd1, _⟩ := bind_eq_ok.1 hd
      unfold curveDistance at hd1
      obtain ⟨q, hq, _⟩ := bind_eq_ok.1 hd1
      rw [h0] at hq
      unfold objRow at hq
      cases hq
  have hcnt : ∃ n, pixelCounts p.objects = .ok n := by
    unfold pixelCounts
    split
    · exact absurd (by assumption) hobj
    · exact ⟨_, rfl⟩
  obtain ⟨n, hcnt⟩ := hcnt
  have hn := pixelCounts_ok hv.rows hcnt
  subst hn
  have hgood := C95_good (sliceEnvFor m p.objects) box psfBox hv m.ops hm.ops m.pars
  obtain ⟨fits, hres, _⟩ := C63_reserved m.ops m.pars (p.objects.length * (box * box))
    (p.objects.length * (psfBox * psfBox)) m.slice.nExtra (box * box) (psfBox * psfBox)
  have hfits := reserved_of (c := runShapeOf (sliceEnvFor m p.objects) m.ops m.pars box psfBox) hres
  subst hfits
  obtain ⟨⟨r, e1⟩, e2, e3⟩ := sliceRun_outcome (nChunks := m.nChunks) (seeds := (seedsFor m p.objects).slices)
    (c := runShapeOf (sliceEnvFor m p.objects) m.ops m.pars box psfBox) (hm.rows0 _) hgood hnd hres hk
  refine ⟨?_, ?_, ?_⟩
  · cases r with
    | ok o => exact ⟨_, _, .finish slices _ _ o hsel hcnt hres e1⟩
    | error e => exact ⟨[], _, .slices slices _ _ _ e hsel hcnt hres e1⟩
  · intro hall ss e h
    have key : ∀ r, FitsBody m p ss r → r = none := by
      intro r h
      cases h with
      | select e' h0 => rw [hsel] at h0; cases h0
      | counts s e' h1 h2 => rw [hcnt] at h2; cases h2
      | reserve s n ss e' h1 h2 h3 =>
        rw [hcnt] at h2
        cases h2
        cases hres.symm.trans h3
      | slices s n f ss e' h1 h2 h3 h4 =>
        rw [hsel] at h1
        cases h1
        rw [hcnt] at h2
        cases h2
        cases hres.symm.trans h3
        exact absurd h4 (e2 hall e')
      | finish s n f o h1 h2 h3 h4 =>
        rw [hsel] at h1
        cases h1
        rw [hcnt] at h2
        cases h2
        cases hres.symm.trans h3
        obtain ⟨rs, r1, _, r3⟩ := sliceRun_ok
          (c := runShapeOf (sliceEnvFor m p.objects) m.ops m.pars box psfBox) (hm.rows0 _) hgood hnd h4
        have hlen : o.epochs.length = slices.length := by
          rw [r3.epochs, List.length_map, ← List.length_map (f := SliceRes.i), r1.length_eq]
        unfold finishFile
        simp only [hlen, ne_eq, not_true_eq_false, if_false]
        cases he : o.epochs with
        | nil =>
          rw [he] at hlen
          exact absurd (List.length_eq_zero_iff.1 hlen.symm) hne
        | cons a as =>
          dsimp only
          cases hgf : m.slice.gaiaFile with
          | none => rfl
          | some f =>
            cases f with
            | ok cat => rfl
            | error e => exact absurd hgf (hg e)
    cases key _ h
  · intro hbad ss h
    obtain ⟨s, n, f, o, h1, h2, h3, h4, _⟩ := fitsBody_none h
    rw [hsel] at h1
    cases h1
    rw [hcnt] at h2
    cases h2
    cases hres.symm.trans h3
    exact e3 hbad o h4

/-- **C110, the outcome.**  A call comes to an end, whatever the request (if the number of chunks is not 0).
If one of the requested slices cannot be computed, the block always raises. -/
theorem C110_outcome (m : MakeIn A σ S W ρ) (box psfBox : Nat) (hm : SoundMake m box psfBox) (p : Prepared)
    (hp : prepare m = .ok p) :
    ((1 < m.nJobs → m.nChunks ≠ some 0) → ∃ ss r, FitsBody m p ss r) ∧
    ∀ req, extractSliceRange m.range p.objects.length = .ok req → ∀ i ∈ req, ∀ e,
      SliceGives m p.objects i (.error e) → ∀ ss, ¬ FitsBody m p ss none := by
  constructor
  · intro hk
    cases hsel : selectSlices m p.objects with
    | error e => exact ⟨_, _, .select e hsel⟩
    | ok slices =>
      cases hcnt : pixelCounts p.objects with
      | error e => exact ⟨_, _, .counts slices e hsel hcnt⟩
      | ok n =>
        have hv := hm.sound hp
        have hn := pixelCounts_ok hv.rows hcnt
        subst hn
        obtain ⟨_, _, _, _, _, hnd⟩ := selectSlices_ok hm.argsort hsel
        have hgood := C95_good (sliceEnvFor m p.objects) box psfBox hv m.ops hm.ops m.pars
        obtain ⟨fits, hres, _⟩ := C63_reserved m.ops m.pars (p.objects.length * (box * box))
          (p.objects.length * (psfBox * psfBox)) m.slice.nExtra (box * box) (psfBox * psfBox)
        have hfits := reserved_of (c := runShapeOf (sliceEnvFor m p.objects) m.ops m.pars box psfBox) hres
        subst hfits
        obtain ⟨⟨r, e1⟩, _⟩ := sliceRun_outcome (nChunks := m.nChunks) (seeds := (seedsFor m p.objects).slices)
          (c := runShapeOf (sliceEnvFor m p.objects) m.ops m.pars box psfBox) (hm.rows0 _) hgood hnd hres hk
        cases r with
        | ok o => exact ⟨_, _, .finish slices _ _ o hsel hcnt hres e1⟩
        | error e => exact ⟨[], _, .slices slices _ _ _ e hsel hcnt hres e1⟩
  · intro req hreq i hi e he ss h
    obtain ⟨req', rs, _, _, _, h1, _, h2, h3, _⟩ := C110_file m box psfBox hm p hp ss h
    rw [hreq] at h1
    cases h1
    obtain ⟨r, hr, rfl⟩ := List.mem_map.1 (h2.symm.subset hi)
    obtain ⟨k, seed, v, hk, a1, a2, a3⟩ := h3 r hr
    obtain ⟨k', seed', v', hk', b1, b2, b3⟩ := he
    obtain rfl : k' = k := by exact_mod_cast hk'.trans hk.symm
    rw [a1] at b1
    cases b1
    rw [tileEnv_iff] at a2 b2
    subst a2 b2
    rw [a3] at b3
    cases b3

/-- **C110, what is published.**  Under the conditions of C77, a call of `make_des_pizza_slices` that
returns has made the file described by `C110_file`, and leaves at the output path what `fpack`, with a seed
that depends on tile name and band only, has made of that file in this run, and it is valid. -/
theorem C110_published {D : Type} (m : MakeIn A σ S W ρ) (st : Storage D) (env : FsEnv D) (dir : FPath)
    (n : String) (tmpdir : Option FPath) (rm : Bool) (valid : D → Bool) (act : FM D Unit)
    (hact : MakeRun m st env (dir ++ [n]) tmpdir rm valid act) (fs : FS D) (hwf : fs.WF)
    (hok : (act fs).out = .ok ())
    (hcase : (∀ ss, (st.fpack (hashToInt m.digest) ss).left.isSome = true) ∨ tmpdir = none ∨
      tmpdir = some dir ∨ fs.files (dir ++ [n ++ ".fz"]) = none) :
    ∃ p ss x, prepare m = .ok p ∧ FitsBody m p ss none ∧
      (st.fpack (hashToInt m.digest) ss).left = some x ∧ valid x = true ∧
      (act fs).fs.files (dir ++ [n ++ ".fz"]) = some x := by
  cases hact with
  | early e he => cases hok
  | run p ss raised hp hb =>
    obtain ⟨h1, x, h2, h3, h4⟩ := C77_fresh_partial env dir n tmpdir _ _ rm valid fs hwf hok
      (hcase.imp_left fun h => h ss)
    dsimp only at h1
    subst h1
    exact ⟨p, ss, x, hp, hb, h2, h3, h4⟩

/-! ### C111 -/

/-- **C111** (part) A request is processed if the description of the tile has the shape of a coadd image that
is not empty, the accepted range is not empty and has slice numbers only, every slice can be computed, the
catalog (if any) can be read and the number of chunks is not 0.  Missing: descriptions without a shape and
empty ranges, see `C111_shape_fails` and `C111_empty_range_fails`. -/
theorem C111_processed_partial (m : MakeIn A σ S W ρ) (box psfBox : Nat) (hm : SoundMake m box psfBox)
    (p : Prepared) (hp : prepare m = .ok p) (req : List ℤ)
    (hreq : extractSliceRange m.range p.objects.length = .ok req)
    (hin : ∀ i ∈ req, 0 ≤ i ∧ i < p.objects.length)
    (hall : ∀ i ∈ req, ∃ r, SliceGives m p.objects i (.ok r))
    (hg : ∀ e, m.slice.gaiaFile ≠ some (.error e)) (hk : 1 < m.nJobs → m.nChunks ≠ some 0)
    (hne : req ≠ []) (shape : Nat × Nat) (hshape : m.imageShape = some shape) (h1 : 1 ≤ shape.1)
    (h2 : 1 ≤ shape.2) :
    (∃ ss, FitsBody m p ss none) ∧ ∀ ss e, ¬ FitsBody m p ss (some e) := by
  have hnat : natIndices req = .ok (req.map Int.toNat) := by
    unfold natIndices
    rw [if_pos]
    rw [List.all_eq_true]
    intro i hi
    simpa using (hin i hi).1
  obtain ⟨out, ho, _⟩ := C58_sorted (fun i => (objRow p.objects i).map fun r => m.slice.inv r.ra r.dec) m.dist
    m.argsort hm.argsort shape.1 shape.2 (req.map Int.toNat) h1 h2 (by
      intro i hi
      obtain ⟨j, hj, rfl⟩ := List.mem_map.1 hi
      have hlt : j.toNat < p.objects.length := by
        have := hin j hj
        omega
      refine ⟨m.slice.inv (p.objects[j.toNat]).ra (p.objects[j.toNat]).dec, ?_⟩
      simp [objRow, List.getElem?_eq_getElem hlt, Except.map])
  have hsel : selectSlices m p.objects = .ok out := by
    unfold selectSlices
    rw [hreq]
    show (do
      let ns ← natIndices req
      let shape ← lookup m.imageShape
      orderSlices _ m.dist m.argsort shape.1 shape.2 ns) = _
    rw [hnat, hshape]
    exact ho
  have hperm := (C58_permutation _ _ _ hm.argsort _ _ _ _ ho).1
  have hout : out ≠ [] := by
    rintro rfl
    have := hperm.length_eq
    rw [List.length_map] at this
    exact hne (List.length_eq_zero_iff.1 this.symm)
  obtain ⟨⟨ss, r, hr⟩, hno, _⟩ := fitsBody_outcome m box psfBox hm p hp out hsel hout hg hk
  have hno' := hno (by
    intro i hi
    obtain ⟨j, hj, rfl⟩ := List.mem_map.1 (hperm.subset hi)
    obtain ⟨j0, jlt⟩ := hin j hj
    obtain ⟨r, hr⟩ := hall j hj
    rw [← Int.toNat_of_nonneg j0] at hr
    exact ⟨r, (sliceGives_iff (by omega)).1 hr⟩)
  refine ⟨⟨ss, ?_⟩, hno'⟩
  cases r with
  | none => exact hr
  | some e => exact absurd hr (hno' ss e)

/-- C111 fails: for a description without `image_shape` the width of the coadd is read from its header, but
then nothing can be processed: whatever the request, the block raises, and for a range that is accepted and
has slice numbers only it raises KeyError. -/
theorem C111_shape_fails (m : MakeIn A σ S W ρ) (p : Prepared) (hshape : m.imageShape = none) (ss : List Section)
    (r : Option Err) (h : FitsBody m p ss r) :
    r ≠ none ∧ ∀ req, extractSliceRange m.range p.objects.length = .ok req → (∀ i ∈ req, 0 ≤ i) →
      r = some .keyError := by
  have hsel : ∃ e, selectSlices m p.objects = .error e ∧
      ∀ req, extractSliceRange m.range p.objects.length = .ok req → (∀ i ∈ req, 0 ≤ i) → e = .keyError := by
    unfold selectSlices
    cases hr : extractSliceRange m.range p.objects.length with
    | error e => exact ⟨e, rfl, by simp⟩
    | ok req =>
      cases hn : natIndices req with
      | error e =>
        refine ⟨e, by simp [ok_bind, hn]; rfl, ?_⟩
        intro req' h' hin
        cases h'
        unfold natIndices at hn
        rw [if_pos] at hn
        · cases hn
        · rw [List.all_eq_true]
          intro i hi
          simpa using hin i hi
      | ok ns => exact ⟨.keyError, by simp [ok_bind, hn, hshape, lookup]; rfl, fun _ _ _ => rfl⟩
  obtain ⟨e, he, hk⟩ := hsel
  have : r = some e := by
    cases h with
    | select e' h => rw [he] at h; cases h; rfl
    | counts s e' h1 => rw [he] at h1; cases h1
    | reserve s n _ e' h1 => rw [he] at h1; cases h1
    | slices s n f _ e' h1 => rw [he] at h1; cases h1
    | finish s n f o h1 => rw [he] at h1; cases h1
  subst this
  exact ⟨by simp, fun req h1 h2 => by rw [hk req h1 h2]⟩

/-- C111 fails: an empty range is accepted, but the block raises. -/
theorem C111_empty_range_fails (m : MakeIn A σ S W ρ) (box psfBox : Nat) (hm : SoundMake m box psfBox)
    (p : Prepared) (hp : prepare m = .ok p) (hreq : extractSliceRange m.range p.objects.length = .ok [])
    (ss : List Section) (r : Option Err) (h : FitsBody m p ss r) : r ≠ none := by
  rintro rfl
  obtain ⟨req, _, _, _, _, h1, h2, _⟩ := C110_file m box psfBox hm p hp ss h
  rw [hreq] at h1
  cases h1
  exact h2 rfl

end Pizza
