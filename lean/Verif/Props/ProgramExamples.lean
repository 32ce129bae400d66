import Verif.Props.MakeProcExamples
import Verif.Props.ProgramFile

/-!
A case that meets the hypotheses of C117: a tile of four slices with three SE images, one of them on a CCD to be ignored.
-/

namespace Pizza

/-- The configuration. -/
def exGoCfg : Yaml := .dict [
  ("fpack_pars", .dict [("FZQVALUE", .int 4)]),
  ("coadd", .dict [("central_size", .int 1), ("buffer_size", .int 1), ("psf_box_size", .int 3), ("wcs_type", .str "image"),
    ("coadding_weight", .str "noise")]),
  ("single_epoch", .dict [("frac_buffer", .int 1), ("se_wcs_interp_delta", .int 8), ("coadd_wcs_interp_delta", .int 4),
    ("reject_outliers", .bool false), ("symmetrize_masking", .bool false), ("copy_masked_edges", .bool false),
    ("noise_interp_flags", .list [.int 1]), ("spline_interp_flags", .list [.int 2]), ("bad_image_flags", .list [.int 4]),
    ("max_masked_fraction", .num (1 / 2)), ("mask_tape_bumps", .bool true), ("mask_piff_failure", .null),
    ("edge_buffer", .int 0), ("wcs_type", .str "image"), ("wcs_color", .num (11 / 10)), ("psf_type", .str "psfex"),
    ("psf_kwargs", .dict [("r", .dict [])]), ("ignored_ccds", .list [.int 31])])]

/-- The description of an SE image. -/
def exGoSrc (slug : String) (ccd : ℤ) : Yaml := .dict [
  ("path", .str (slug ++ "im")), ("filename", .str "im"),
  ("image_path", .str (slug ++ "im")), ("image_ext", .str "s"), ("bkg_path", .str (slug ++ "bkg")), ("bkg_ext", .str "b"),
  ("weight_path", .str (slug ++ "im")), ("weight_ext", .str "w"), ("bmask_path", .str (slug ++ "im")), ("bmask_ext", .str "m"),
  ("psfex_path", .str (slug ++ "psf")), ("band", .str "r"), ("tilename", .str "T"), ("expnum", .int 12), ("ccdnum", .int ccd),
  ("magzp", .int 30), ("scale", .int 1), ("position_offset", .int 0), ("image_flags", .int 0)]

/-- The description of the tile. -/
def exGoInfo : Yaml := .dict [
  ("tilename", .str "T"), ("band", .str "r"), ("path", .str "T_r.fits"), ("filename", .str "T_r.fits"),
  ("image_path", .str "T_r.fits"), ("image_ext", .str "s"), ("image_shape", .list [.int 4, .int 4]), ("scale", .int 1),
  ("magzp", .int 30), ("position_offset", .int 0), ("image_flags", .int 0),
  ("src_info", .list [exGoSrc "D00000012_r_c03_" 3, exGoSrc "D00000012_r_c31_" 31, exGoSrc "D00000012_r_c04_" 4])]

/-- The WCS of the coadd. -/
def exIdWcs : WcsObj := ⟨.affine, fun x y => (x, y), fun x y => (x, y), fun _ _ => (1, 0, 0, 1)⟩

/-- External functions, see `exExt`. -/
def exGoExt : Ext ℚ Nat where
  rotate := fun _ m => m
  interp := fun _ _ => .ok fun _ => 5
  normals := fun s n m => (⟨n, m, fun _ _ => (s : ℚ)⟩, s + 1)
  invSqrt := fun v => v
  fwhm := fun _ => .ok 1
  outliers := fun _ wts => .ok fun i => wts.getD i ⟨0, 0, fun _ _ => 0⟩

/-- The files of the SE images, see `exProcWorld`. -/
def exGoProc : ProcWorld ℚ Nat Yaml Unit where
  ext := exGoExt
  seeded := id
  draw := fun _ n _ => ⟨n, n, fun _ _ => 0⟩
  pow10 := id
  f4 := id
  disk := { exProcWorld.disk with
    imageWcs := fun p _ => if pyStartsWith p "D00000012_r_c03_".toList then .ok (exProcShift 3) else .ok (exProcShift 2)
    psfex := fun _ => .ok () }
  files := exProcWorld.files
  arrays := exProcWorld.arrays
  gaia := fun _ => .error .ioError
  zpScale := id
  memNoise := exProcWorld.memNoise
  toUV := fun _ _ _ _ => (0, 0)
  psfKind := fun _ => .psfex
  setupDim := fun _ _ _ _ _ => 3
  drawPsf := fun _ _ _ _ _ _ _ _ _ => .ok ⟨3, 3, fun _ _ => 1⟩
  tGrid := fun _ _ _ _ => .error .ioError
  fit := exPlane
  spl := fun _ _ _ => .ok fun _ _ => 1
  cosd := fun _ => 1
  hash := fun _ _ e => e.imageId

/-- What is outside of the program. -/
def exGoWorld : ProgWorld Nat Unit Unit Nat where
  level := fun l => if l = "DEBUG".toList then .ok () else .error .keyError
  readText := .ok
  parse := fun t => if t = "c".toList then .ok exGoCfg else .ok exGoInfo
  dumps := fun _ => "{}".toList
  render := fun _ => []
  fpackText := fun _ => "4"
  load :=
    { readHeader := fun _ _ => .ok ⟨[], fun _ => .error .keyError⟩
      readScamp := fun _ => .error .ioError
      mkWcs := fun _ => .ok exIdWcs
      affine := fun _ => .error .keyError
      buildGs := fun _ => .error .keyError
      parseGs := fun _ => .error .keyError
      psfex := fun _ => .ok ()
      piff := fun _ _ => .error .ioError }
  proc := fun _ => exGoProc
  environ := (exMake none .none).environ
  versions := (exMake none .none).versions
  f4 := id
  rows0 := (exMake none .none).rows0
  dist := (exMake none .none).dist
  argsort := exArgsort
  rand := ⟨fun _ _ s => (7, s)⟩
  rng := id
  ops := exFltOps
  sha := fun _ => 12340000
  dumpsWcs := fun _ => .ok "w".toList
  wcsHash := fun _ => 0
  sizes := fun _ _ => .error .ioError
  expand := fun _ => ["out"] ++ ["x.fits"]

/-- The command line. -/
def exGoArgs : GoArgs := ⟨"c".toList, "i".toList, none, "x.fits".toList, "debug".toList, 42, some "1:3".toList, 1, none, 0⟩

def exCalled : Called Unit := (readGo exGoWorld exGoArgs).toOption.get (by decide +kernel)

def exLooked : Looked Unit := (lookUp exCalled).toOption.get (by decide +kernel)

def exNeeded : Nat × SliceOptions := (needLater exGoWorld exGoArgs exCalled).toOption.get (by decide +kernel)

theorem toOption_get {ε α : Type} {x : Except ε α} (h : x.toOption.isSome = true) : x = .ok (x.toOption.get h) := by
  cases x with
  | ok a => rfl
  | error e => cases h

theorem exGo_read : readGo exGoWorld exGoArgs = .ok exCalled := toOption_get _

theorem exGo_looked : lookUp exCalled = .ok exLooked := toOption_get _

theorem exGo_needed : needLater exGoWorld exGoArgs exCalled = .ok exNeeded := toOption_get _

/-- The program comes to its call, and all that is looked up is there. -/
theorem exGo_calls : ∃ cfg info srcs, Calls exGoWorld exGoArgs cfg info srcs exCalled ∧ LooksUp cfg exCalled exLooked ∧
    Needs exGoWorld exGoArgs cfg exCalled exNeeded.1 exNeeded.2 := by
  obtain ⟨cfg, info, srcs, h⟩ := (C117_calls _ _ _).mp exGo_read
  exact ⟨cfg, info, srcs, h, (C117_looked_up _ _ _ _ _ _ h _).mp exGo_looked,
    (C117_needed _ _ _ _ _ _ h _ _).mp exGo_needed⟩

theorem exGoWorld_sound : SoundWorld exGoWorld where
  noise := fun _ _ _ => ⟨rfl, rfl⟩
  keeps := by
    intro _ ims wts f h i w hw
    cases h
    simp [hw]
  fwhm := by
    intro _ im x h
    cases h
    norm_num
  ops := fun _ h => h
  argsort := exArgsort_spec
  rows0 := fun n => List.length_replicate

theorem exGo_unique {cfg info : Yaml} {srcs : List Yaml} {c : Called Unit} {k : Looked Unit} {s : Nat} {so : SliceOptions}
    (h : Calls exGoWorld exGoArgs cfg info srcs c) (hk : LooksUp cfg c k) (hs : Needs exGoWorld exGoArgs cfg c s so) :
    srcs = [exGoSrc "D00000012_r_c03_" 3, exGoSrc "D00000012_r_c31_" 31, exGoSrc "D00000012_r_c04_" 4] ∧ c = exCalled ∧
    k = exLooked ∧ (s, so) = exNeeded := by
  have h1 := (C117_calls _ _ _).mpr ⟨cfg, info, srcs, h⟩
  rw [exGo_read] at h1
  obtain rfl := Except.ok.inj h1
  have h2 := (C117_looked_up _ _ _ _ _ _ h _).mpr hk
  rw [exGo_looked] at h2
  have h3 := (C117_needed _ _ _ _ _ _ h _ _).mpr hs
  rw [exGo_needed] at h3
  refine ⟨?_, rfl, (Except.ok.inj h2).symm, (Except.ok.inj h3).symm⟩
  obtain ⟨t, e1, e2⟩ := h.inputs.info
  cases e1
  cases (Except.ok.inj e2 : exGoInfo = info)
  have : At exGoInfo ["src_info"] (.list [exGoSrc "D00000012_r_c03_" 3, exGoSrc "D00000012_r_c31_" 31,
    exGoSrc "D00000012_r_c04_" 4]) := .step _ _ _ _ _ rfl (.here _)
  exact Yaml.list.inj (h.sources.unique this)

theorem exGo_sizes : SoundSizes exLooked.co exNeeded.2 3 3 := by
  have : exLooked.co.central = 1 ∧ exLooked.co.buffer = 1 ∧ exLooked.co.psfBox = 3 ∧ exNeeded.2.frac = 1 := by decide +kernel
  exact ⟨by rw [this.1, this.2.1]; rfl, by norm_num, by rw [this.2.2.1]; rfl, rfl, by rw [this.2.2.2]⟩

theorem exGo_files : SoundFiles exGoProc exNeeded.2 exLooked := by
  have h : ∀ x ∈ exLooked.srcs, (match (seInit exGoProc.disk x.2.src x.2.offset (.named exNeeded.2.wcsType)
      (.named exNeeded.2.psfType)).out with
    | .ok con => decide (con.shape = (8, 8))
    | .error _ => true) = true := by decide +kernel
  intro x hx con hc
  have := h x hx
  rw [hc] at this
  rw [of_decide_eq_true this]
  have hf : ∀ key im, exGoProc.files key = .ok im → im.dims = (8, 8) := by
    intro key im h
    simp only [exGoProc, exProcWorld] at h
    split_ifs at h <;> (cases h; rfl)
  have hloc : ∀ x ∈ exLooked.srcs, (match x.2.image, x.2.bmask, x.2.weight with
    | .file _, .file _, .file _ => true
    | _, _, _ => false) = true := by decide +kernel
  have := hloc x hx
  cases h1 : x.2.image <;> cases h2 : x.2.bmask <;> cases h3 : x.2.weight <;> rw [h1, h2, h3] at this <;> try cases this
  exact ⟨fun im h => hf _ im h, fun im h => hf _ im h, fun im h => hf _ im h⟩

theorem exGo_text {slug : String} {ccd : ℤ} {key : String} {v u : Yaml}
    (h : At (exGoSrc slug ccd) [key] v) (hu : (match exGoSrc slug ccd with | .dict l => l.lookup key | _ => none) = some u) :
    v = u := by
  exact h.unique (.step _ _ _ _ _ hu (.here _))

theorem exGo_good (work : Option FPath) : GoodRequest exGoWorld exGoArgs work where
  good := by
    intro cfg info srcs c k s so h hk hs
    obtain ⟨e1, e2, e3, e4⟩ := exGo_unique h hk hs
    have hh := hashTells_of_id (so := so) h hk work (fun _ _ _ _ _ _ h => h)
    subst e1 e2 e3
    obtain ⟨rfl, rfl⟩ := Prod.mk.inj e4
    refine ⟨?_, hh, ?_, ⟨3, 3, exGo_sizes⟩, exGo_files⟩
    · constructor
      · intro d hd d' hd' p e hp he
        have a2 : e = .str "m" := by
          simp only [List.mem_cons, List.not_mem_nil, or_false] at hd
          rcases hd with rfl | rfl | rfl <;> exact exGo_text he rfl
        have a3 : ∀ y, At d' ["image_ext"] y → y = .str "s" := by
          intro y hy
          simp only [List.mem_cons, List.not_mem_nil, or_false] at hd'
          rcases hd' with rfl | rfl | rfl <;> exact exGo_text hy rfl
        have a4 : ∀ y, At d' ["bkg_ext"] y → y = .str "b" := by
          intro y hy
          simp only [List.mem_cons, List.not_mem_nil, or_false] at hd'
          rcases hd' with rfl | rfl | rfl <;> exact exGo_text hy rfl
        have a5 : ∀ y, At d' ["weight_ext"] y → y = .str "w" := by
          intro y hy
          simp only [List.mem_cons, List.not_mem_nil, or_false] at hd'
          rcases hd' with rfl | rfl | rfl <;> exact exGo_text hy rfl
        subst a2
        refine ⟨fun h => ?_, fun h => ?_, fun h => ?_⟩
        · have := Yaml.str.inj (a3 _ h.2); revert this; decide
        · have := Yaml.str.inj (a4 _ h.2); revert this; decide
        · have := Yaml.str.inj (a5 _ h.2); revert this; decide
      · intro d hd d' hd' p e n n' hp he hp' he' hn hn'
        simp only [List.mem_cons, List.not_mem_nil, or_false] at hd hd'
        rcases hd with rfl | rfl | rfl <;> rcases hd' with rfl | rfl | rfl <;>
          first
          | exact hn.unique hn'
          | (exfalso; have := Yaml.str.inj ((exGo_text hp rfl).symm.trans (exGo_text hp' rfl)); revert this; decide)
    · intro d hd key hkey s hs t ht
      simp only [List.mem_cons, List.not_mem_nil, or_false] at hd hkey
      have : s.toList.getLast? = some '\x00' := by rw [ht]; simp
      rcases hd with rfl | rfl | rfl <;> rcases hkey with rfl | rfl | rfl | rfl | rfl | rfl | rfl | rfl <;>
        (rw [Yaml.str.inj (exGo_text hs rfl)] at this; revert this; decide)

/-- The call. -/
def exGoMake (work : Option FPath) : MakeP ℚ Nat Yaml Unit WcsObj Nat :=
  goMake exGoWorld exGoArgs work exCalled exLooked exNeeded.1 exNeeded.2

theorem exGo_sound (work : Option FPath) : SoundMake (exGoMake work).fresh 3 3 :=
  C117_sound exGoWorld_sound work 3 3 exGo_sizes exGo_files

theorem exGo_prepare (work : Option FPath) : ∃ p, prepare (exGoMake work).plan = .ok p ∧ p.objects.length = 4 := by
  have h : ((prepare (exGoMake none).plan).toOption.map fun p => p.objects.length) = some 4 := by decide +kernel
  have h : ((prepare (exGoMake work).plan).toOption.map fun p => p.objects.length) = some 4 := h
  cases hp : prepare (exGoMake work).plan with
  | ok p => rw [hp] at h; exact ⟨p, rfl, Option.some.inj h⟩
  | error e => rw [hp] at h; cases h

theorem exGo_slice (p : Prepared) (hp : prepare (exGoMake none).plan = .ok p) (i : Nat) (hi : i < 4) :
    ∃ r, coaddSingleSlice (sliceEnvFor (exGoMake none).fresh p.objects) i
      ((seedsFor (exGoMake none).fresh p.objects).slices.getD i 0) = .ok r := by
  have h : ∀ j < 4, (match prepare (exGoMake none).plan with
    | .error _ => none
    | .ok p => exProcSummary 1 (coaddSingleSlice (sliceEnvFor (exGoMake none).fresh p.objects) j
      ((seedsFor (exGoMake none).fresh p.objects).slices.getD j 0))).isSome = true := by decide +kernel
  have := h i hi
  rw [hp] at this
  obtain ⟨x, hx⟩ := Option.isSome_iff_exists.1 this
  exact exProcSummary_ok hx

/-- The command line with other numbers of jobs and chunks. -/
def exGoJobs (nJobs : Nat) (nChunks : Option Nat) : GoArgs :=
  { exGoArgs with nJobs := nJobs, nChunks := nChunks, logLevel := "debug".toList }

/-- The request is processed in a new process. -/
theorem exGo_processed (nJobs : Nat) (nChunks : Option Nat) (work : Option FPath) (hk : 1 < nJobs → nChunks ≠ some 0)
    (st : Proc Unit) (hn : NewProcess exGoWorld st) :
    ∃ p ss st', prepare (goMake exGoWorld (exGoJobs nJobs nChunks) work exCalled exLooked exNeeded.1 exNeeded.2).plan = .ok p ∧
      FitsBodyP (goMake exGoWorld (exGoJobs nJobs nChunks) work exCalled exLooked exNeeded.1 exNeeded.2) p st ss none st' := by
  obtain ⟨p, hp, hlen⟩ := exGo_prepare work
  obtain ⟨cfg, info, srcs, hc, hl, hs⟩ := exGo_calls
  have hc' : Calls exGoWorld (exGoJobs nJobs nChunks) cfg info srcs exCalled :=
    calls_other (a := exGoJobs nJobs nChunks) (nJobs := 1) (nChunks := none) (logLevel := exGoArgs.logLevel) rfl hc
  obtain ⟨g1, g2, -⟩ := (exGo_good work).good _ _ _ _ _ _ _ hc hl hs
  obtain ⟨o1, o2⟩ := C117_orderly (s := exNeeded.1) hc' hl work g1 g2
  obtain ⟨sizes, count, rfl⟩ := hn exNeeded.2.wcsColor
  have hsound : SoundMake (goMake exGoWorld (exGoJobs nJobs nChunks) work exCalled exLooked exNeeded.1 exNeeded.2).fresh 3 3 :=
    C117_sound exGoWorld_sound work 3 3 exGo_sizes exGo_files
  obtain ⟨ss, r, st', h⟩ := C116_ends o1 _ o2 3 3 hsound p hp _ (.fresh sizes count)
  have hb := C116_call o1 _ o2 p _ st' (.fresh sizes count) ss r h
  have hreq : extractSliceRange (.str "1:3".toList) 4 = .ok [1, 2] := by
    have := C57_string 4 1 3
    rw [if_pos (by norm_num)] at this
    exact this
  obtain ⟨-, hno⟩ := C111_processed_partial _ 3 3 hsound p hp [1, 2] (by rw [hlen]; exact hreq) (by rw [hlen]; simp)
    (by
      intro i hi
      simp only [List.mem_cons, List.not_mem_nil, or_false] at hi
      rcases hi with rfl | rfl
      · obtain ⟨r, hr⟩ := exGo_slice p hp 1 (by norm_num)
        exact ⟨r, (sliceGives_iff (i := 1) (by rw [hlen]; norm_num)).2 hr⟩
      · obtain ⟨r, hr⟩ := exGo_slice p hp 2 (by norm_num)
        exact ⟨r, (sliceGives_iff (i := 2) (by rw [hlen]; norm_num)).2 hr⟩)
    (fun e h => by cases h) hk (by simp) (4, 4) rfl (by norm_num) (by norm_num)
  cases r with
  | none => exact ⟨p, ss, st', hp, h⟩
  | some e => exact absurd hb (hno ss e)

/-- A storage. -/
def exGoSto : Storage String := ⟨fun _ => "fits", fun _ _ => ⟨true, some "packed"⟩⟩

theorem exGo_publish :
    (publishRun (exEnv true) ["out", "x.fits"] none ⟨"fits", none⟩ ⟨true, some "packed"⟩
      (cliRemoveFits "debug".toList none) (fun _ => true) (exFS (some "old") none)).out = .ok () := by decide +kernel

theorem exGo_publish_tmp :
    (withTempDir ["tmp"] "t0" (fun _ => publishRun (exEnv true) ["out", "x.fits"] (some ["tmp", "t0"]) ⟨"fits", none⟩
      ⟨true, some "packed"⟩ (cliRemoveFits "debug".toList (some ["tmp", "t0"])) (fun _ => true))
      (exFS (some "old") none)).out = .ok () := by decide +kernel

/-- There is a run without temporary directory that succeeds, and one with three jobs and a temporary directory. -/
theorem exGo_runs (nJobs : Nat) (nChunks : Option Nat) (useTmp : Bool) (hk : 1 < nJobs → nChunks ≠ some 0)
    (st : Proc Unit) (hn : NewProcess exGoWorld st) :
    ∃ act, MainRun exGoWorld (exGoJobs nJobs nChunks) exGoSto (exEnv true) (fun _ => true) useTmp none ["tmp"] "t0" st act ∧
      (act (exFS (some "old") none)).out = .ok () := by
  obtain ⟨p, ss, st', hp, h⟩ := exGo_processed nJobs nChunks (workDir useTmp none ["tmp"] "t0") hk st hn
  obtain ⟨cfg, info, srcs, hc, hl, hs⟩ := exGo_calls
  have h1 : readGo exGoWorld (exGoJobs nJobs nChunks) = .ok exCalled := (C117_calls _ _ _).mpr ⟨_, _, _,
    calls_other (a := exGoJobs nJobs nChunks) (nJobs := 1) (nChunks := none) (logLevel := exGoArgs.logLevel) rfl hc⟩
  have hr := GoRun.run (a := exGoJobs nJobs nChunks) (sto := exGoSto) (env := exEnv true) (valid := fun _ => true)
    exCalled exLooked exNeeded.1 exNeeded.2 _ st' h1 exGo_looked exGo_needed (.run p ss none st' hp h)
  cases useTmp with
  | false => exact ⟨_, .plain _ (by simp) hr, exGo_publish⟩
  | true => exact ⟨_, .tmp _ (.inl rfl) hr, exGo_publish_tmp⟩

theorem exGo_new : NewProcess exGoWorld (Proc.fresh (fun _ => 2) exProcWorld.arrays 0) := fun _ => ⟨_, 0, rfl⟩

/-- C117: a run in one process, one with three jobs and a temporary directory, and what they leave. -/
example : ∃ act act', MainRun exGoWorld exGoArgs exGoSto (exEnv true) (fun _ => true) false none ["tmp"] "t0"
      (Proc.fresh (fun _ => 2) exProcWorld.arrays 0) act ∧
    MainRun exGoWorld (exGoJobs 3 (some 5)) exGoSto (exEnv true) (fun _ => true) true none ["tmp"] "t0"
      (Proc.fresh (fun _ => 2) exProcWorld.arrays 0) act' ∧
    (∃ cfg info srcs c ss x, Calls exGoWorld exGoArgs cfg info srcs c ∧ WritesFile exGoWorld c.configText cfg info srcs ss ∧
      (exGoSto.fpack (hashToInt 12340000) ss).left = some x ∧
      (act (exFS (some "old") none)).fs.files ["out", "x.fits.fz"] = some x) ∧
    ∃ seed ss ss', List.Forall₂ SameSection ss ss' ∧
      (act (exFS (some "old") none)).fs.files ["out", "x.fits.fz"] = (exGoSto.fpack seed ss).left ∧
      (act' (exFS (some "old") none)).fs.files ["out", "x.fits.fz"] = (exGoSto.fpack seed ss').left := by
  obtain ⟨act, h, hok⟩ := exGo_runs 1 none false (by simp) _ exGo_new
  obtain ⟨act', h', hok'⟩ := exGo_runs 3 (some 5) true (by simp) _ exGo_new
  refine ⟨act, act', h, h', ?_, ?_⟩
  · obtain ⟨cfg, info, srcs, c, k, s, so, p, ss, x, a1, -, -, -, -, a2, a3, -, a4⟩ := C117_published exGoWorld_sound
      (exGo_good _) exGo_new h ["out"] "x.fits" (fun _ _ _ _ _ => rfl) (exFS (some "old") none) (exFS_wf _ _)
      (fun t ht => by simp [workDir] at ht) hok
    exact ⟨cfg, info, srcs, c, ss, x, a1, a2, a3, a4⟩
  · exact C117_same 3 (some 5) "debug".toList _ rfl exGoWorld_sound (exGo_good _)
      (goodRequest_other (exGo_good _) rfl 3 (some 5) "debug".toList) exGo_new exGo_new h h' ["out"] "x.fits"
      (fun _ _ _ _ _ => rfl) (exFS (some "old") none) (exFS (some "old") none) (exFS_wf _ _) (exFS_wf _ _)
      (by
        rintro t (ht | ht)
        · simp [workDir] at ht
        · have : t = ["tmp", "t0"] := by simpa [workDir] using ht.symm
          subst this
          exact ⟨by decide, fun _ _ => rfl⟩) hok hok'

/-- `C117_looked_up` and `C117_needed`: see `exGo_calls`. -/
example := exGo_calls

/-- `C117_request`, `C117_orderly`, `C117_sound`, `C117_image_info`, `C117_file` and `C117_unused` for this command
line. -/
example (hpl : ∀ cfg info srcs, Calls exGoWorld exGoArgs cfg info srcs exCalled → ∀ d ∈ srcs, PlainTexts d) :
    ∃ cfg info srcs p ss, MadeFrom exGoWorld exGoArgs none cfg info srcs (exGoMake none) ∧
      prepare (exGoMake none).fresh = .ok p ∧ p.imageInfo.length = srcs.length + 1 ∧
      WritesFile exGoWorld exCalled.configText cfg info srcs ss ∧
      ∀ r, SliceGives (exGoMake none).fresh p.objects 1 (.ok r) → ∀ row ∈ r.epochs,
        ∃ (n : Nat) (d : Yaml), srcs[n]? = some d ∧ row.imageId = n + 1 ∧ ∀ b, ¬ FlagBit cfg d b := by
  obtain ⟨cfg, info, srcs, hc, hl, hs⟩ := exGo_calls
  obtain ⟨p, ss, st', hp, h⟩ := exGo_processed 1 none none (fun h => by omega) _ exGo_new
  have hm := exGo_sound none
  obtain ⟨g1, g2, -⟩ := (exGo_good none).good _ _ _ _ _ _ _ hc hl hs
  obtain ⟨o1, o2⟩ := C117_orderly (s := exNeeded.1) hc hl none g1 g2
  have hb : FitsBody (exGoMake none).fresh p ss none := C116_call o1 _ o2 p _ st' (.fresh _ _) ss none h
  exact ⟨cfg, info, srcs, p, ss, C117_request hc hl hs none, hp,
    (C117_image_info hc hl none (hpl _ _ _ hc) p hp).1, C117_file hc hl none 3 3 hm (hpl _ _ _ hc) p hp ss hb,
    fun r hr row hrow => C117_unused hc hl none 3 3 hm p hp 1 r hr row hrow⟩

/-- `C117_ends`, `C117_plain` and `C117_tmpdir`. -/
example : ∃ act act', MainRun exGoWorld exGoArgs exGoSto (exEnv true) (fun _ => true) false none ["tmp"] "t0"
      (Proc.fresh (fun _ => 2) exProcWorld.arrays 0) act ∧
    MainRun exGoWorld exGoArgs exGoSto (exEnv true) (fun _ => true) true none ["tmp"] "t0"
      (Proc.fresh (fun _ => 2) exProcWorld.arrays 0) act' ∧
    (∀ s ∈ crashStates act (exFS (some "old") none),
      SameFilesExcept [["out", "x.fits"], ["out", "x.fits.fz"]] s (exFS (some "old") none)) ∧
    SameFilesExcept [["out", "x.fits.fz"]] (act' (exFS (some "old") none)).fs (exFS (some "old") none) := by
  obtain ⟨act, h⟩ := C117_ends (sto := exGoSto) (env := exEnv true) (valid := fun _ => true) exGoWorld_sound false none
    ["tmp"] "t0" (exGo_good _) _ exGo_new
  obtain ⟨act', h'⟩ := C117_ends (sto := exGoSto) (env := exEnv true) (valid := fun _ => true) exGoWorld_sound true none
    ["tmp"] "t0" (exGo_good _) _ exGo_new
  exact ⟨act, act', h, h',
    (C117_plain h ["out"] "x.fits" (fun _ _ _ _ _ => rfl) (exFS (some "old") none) (exFS_wf _ _)).1,
    (C117_tmpdir (.inl rfl) h' ["out"] "x.fits" (fun _ _ _ _ _ => rfl) (exFS (some "old") none) (exFS_wf _ _)
      ["tmp", "t0"] rfl ⟨rfl, rfl⟩ (by decide)).2.1⟩

/-- `C117_default_seed_fails`: the same command line without a seed. -/
example {act : FM String Unit} (h : MainRun exGoWorld { exGoArgs with seed := -1 } exGoSto (exEnv true) (fun _ => true)
      false none ["tmp"] "t0" (Proc.fresh (fun _ => 2) exProcWorld.arrays 0) act) :=
  C117_default_seed_fails h ["out"] "x.fits" (fun _ _ _ _ _ => rfl) (exFS (some "old") none) (exFS_wf _ _)

end Pizza
