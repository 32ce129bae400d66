import Verif.Props.MakeExamples
import Verif.Props.MakeProc
import Verif.Props.ProcessExamples

/-!
Cases that meet the hypotheses of C116.
-/

namespace Pizza

/-- A request for slices 1 and 2 of the tile with two SE images. -/
def exMakeP : MakeP Unit Nat Unit Unit Nat Nat where
  args := { exMake (some (4, 4)) (.str "1:3".toList) with srcs := [exInfoSrc 1 "sci", exInfoSrc 2 "sci"] }
  world := exProcWorld
  tile := exBumps
  same := rfl

/-- The tiles of the call: those with the seeds drawn. -/
def exSeeded (t : Tile Unit Unit Unit) : Prop :=
  t.entries = [{ exProcEntry ['a'] 0 (.file (['a'], ['m'])) with noiseSeeds := [7], piffSeed := 7 },
    { exProcEntry ['b'] 1 (.mem 0) with noiseSeeds := [7], piffSeed := 7 }] ∧ t.wcs = .named "image" ∧ t.tapeBumps = true ∧
  t.fwd = exBumps.fwd ∧ t.inv = exBumps.inv ∧ t.celestial = false

theorem exSeeded_entries {t : Tile Unit Unit Unit} {e : Entry Unit} (ht : exSeeded t) (h : e ∈ t.entries) :
    e = { exProcEntry ['a'] 0 (.file (['a'], ['m'])) with noiseSeeds := [7], piffSeed := 7 } ∨
      e = { exProcEntry ['b'] 1 (.mem 0) with noiseSeeds := [7], piffSeed := 7 } := by
  rw [ht.1] at h
  simpa using h

theorem exSeeded_orderly : Orderly exProcWorld exSeeded where
  maskOnly := by
    intro t e t' e' ht he ht' he' _
    rcases exSeeded_entries ht he with rfl | rfl <;> rcases exSeeded_entries ht' he' with rfl | rfl <;>
      refine ⟨?_, ?_, ?_⟩ <;> simp [exProcEntry]
  sameMasking := by
    intro t e t' e' ht he ht' he' _ _
    rcases exSeeded_entries ht he with rfl | rfl <;> rcases exSeeded_entries ht' he' with rfl | rfl <;>
      exact ⟨ht'.2.2.1, rfl⟩
  seHash := by
    intro n t e n' t' e' ht he ht' he' h
    simp only [exProcWorld, ht.2.2.1, ht'.2.2.1, if_true] at h
    rw [ht.2.1, ht'.2.1]
    rcases exSeeded_entries ht he with rfl | rfl <;> rcases exSeeded_entries ht' he' with rfl | rfl <;>
      first | exact ⟨rfl, rfl⟩ | (simp [exProcEntry] at h)
  coaddHash := by
    intro t t' ht ht' _
    exact ⟨ht.2.2.2.1.trans ht'.2.2.2.1.symm, ht.2.2.2.2.1.trans ht'.2.2.2.2.1.symm, ht.2.2.2.2.2.trans ht'.2.2.2.2.2.symm⟩

theorem exRand_many (lo hi n : Nat) (s : Nat) : ((⟨fun _ _ s => (7, s)⟩ : RandInt Nat).many lo hi n s).2 = s := by
  induction n generalizing s with
  | zero => rfl
  | succ n ih => exact ih s

theorem exMakeP_within (nJobs : Nat) (nChunks : Option Nat) (tmpdir : Option PyStr) :
    (exMakeP.With nJobs nChunks tmpdir).Within exProcWorld exSeeded := by
  refine ⟨rfl, fun t h1 h2 => ?_⟩
  have hs : (runSeeds (exMakeP.With nJobs nChunks tmpdir).fresh t.objects.length).srcs = [⟨[7], 7⟩, ⟨[7], 7⟩] := rfl
  rw [hs] at h1
  refine ⟨?_, ?_⟩
  · have : (exMakeP.With nJobs nChunks tmpdir).tile.entries.zip [(⟨[7], 7⟩ : SrcSeeds), ⟨[7], 7⟩] =
        [(exProcEntry ['a'] 0 (.file (['a'], ['m'])), ⟨[7], 7⟩), (exProcEntry ['b'] 1 (.mem 0), ⟨[7], 7⟩)] := rfl
    rw [this] at h1
    obtain ⟨_, _, a1, h1, h3⟩ := List.forall₂_cons_right_iff.1 h1
    obtain ⟨_, _, a2, h4, rfl⟩ := List.forall₂_cons_right_iff.1 h1
    rw [List.forall₂_nil_right_iff] at h4
    rw [h3, h4, a1, a2]
  · exact ⟨congrArg Tile.wcs h2, congrArg Tile.tapeBumps h2, (congrArg Tile.fwd h2 :), (congrArg Tile.inv h2 :),
      congrArg Tile.celestial h2⟩

theorem exMakeP_sound : SoundMake exMakeP.fresh 3 3 := by
  refine C116_sound exMakeP 3 3 (by norm_num) rfl rfl rfl (le_refl _) ?_ (fun _ _ => ⟨rfl, rfl⟩) exTile_sound.keeps
    exTile_sound.fwhm (fun _ h => h) exArgsort_spec (fun n => List.length_replicate)
  intro e he con hc
  have : con.shape = (8, 8) := by
    rcases exBumps_entries he with rfl | rfl <;> (cases hc; rfl)
  rw [this]
  rcases exBumps_entries he with rfl | rfl <;> refine ⟨?_, ?_, ?_⟩ <;> intro a ha <;> cases ha <;> rfl

theorem exMakeP_prepare : ∃ p, prepare exMakeP.plan = .ok p ∧ p.objects = exObjects := by
  have hii : ∃ ii, buildImageInfo exWcsIO id ⟨0, 0, 30, 1, 1⟩ (some 3) [exInfoSrc 1 "sci", exInfoSrc 2 "sci"] = .ok ii := by
    have : ((buildImageInfo exWcsIO id ⟨0, 0, 30, 1, 1⟩ (some 3) [exInfoSrc 1 "sci", exInfoSrc 2 "sci"]).toOption.map
      List.length) = some 3 := by decide +kernel
    cases hb : buildImageInfo exWcsIO id ⟨0, 0, 30, 1, 1⟩ (some 3) [exInfoSrc 1 "sci", exInfoSrc 2 "sci"] with
    | ok ii => exact ⟨ii, rfl⟩
    | error e => rw [hb] at this; cases this
  obtain ⟨ii, hii⟩ := hii
  have hmd : ∃ md, buildMetadata exMakeP.plan.environ exMakeP.plan.versions exMakeP.plan.config exMakeP.plan.json = .ok md :=
    ⟨_, rfl⟩
  obtain ⟨md, hmd⟩ := hmd
  refine ⟨⟨md.1, md.2, ii, exObjects⟩, ?_, rfl⟩
  unfold prepare
  rw [hmd, ok_bind]
  rw [show buildImageInfo exMakeP.plan.io exMakeP.plan.f4 exMakeP.plan.coaddNums exMakeP.plan.coaddWcs exMakeP.plan.srcs =
    .ok ii from hii, ok_bind, show imageWidth exMakeP.plan = .ok 4 from rfl, ok_bind]
  rw [show buildObjectData exMakeP.plan.central exMakeP.plan.buffer 4 exMakeP.plan.psfBox exMakeP.plan.slice.fwd
    exMakeP.plan.jac exMakeP.plan.slice.offset = .ok exObjects from exObjects_eq]
  rfl

theorem exMakeP_slice (i : Nat) (hi : i < 4) : ∃ r, coaddSingleSlice (sliceEnvFor exMakeP.fresh exObjects) i
    ((seedsFor exMakeP.fresh exObjects).slices.getD i 0) = .ok r := by
  have h : ∀ j < 4, (exProcSummary 1 (coaddSingleSlice (sliceEnvFor exMakeP.fresh exObjects) j
    ((seedsFor exMakeP.fresh exObjects).slices.getD j 0))).isSome = true := by decide +kernel
  obtain ⟨x, hx⟩ := Option.isSome_iff_exists.1 (h i hi)
  exact exProcSummary_ok hx

/-- The request is processed in every process, with any numbers of jobs and chunks. -/
theorem exMakeP_processed (nJobs : Nat) (nChunks : Option Nat) (tmpdir : Option PyStr) (hk : 1 < nJobs → nChunks ≠ some 0)
    (p : Prepared) (hp : prepare exMakeP.plan = .ok p) (st : Proc Unit) (hst : Reached exProcWorld exSeeded st) :
    ∃ ss st', FitsBodyP (exMakeP.With nJobs nChunks tmpdir) p st ss none st' := by
  have ho : p.objects = exObjects := by
    obtain ⟨p', hp', h⟩ := exMakeP_prepare
    rw [hp] at hp'
    cases hp'
    exact h
  have hn : exObjects.length = 4 := by decide +kernel
  have hreq : extractSliceRange (.str "1:3".toList) 4 = .ok [1, 2] := by
    have := C57_string 4 1 3
    rw [if_pos (by norm_num)] at this
    exact this
  obtain ⟨ss, r, st', h⟩ := C116_ends exSeeded_orderly (exMakeP.With nJobs nChunks tmpdir) (exMakeP_within _ _ _) 3 3
    ⟨exMakeP_sound.env, rfl, rfl, exMakeP_sound.ops, exMakeP_sound.argsort, exMakeP_sound.rows0⟩ p hp st hst
  have hb := C116_call exSeeded_orderly _ (exMakeP_within _ _ _) p st st' hst ss r h
  obtain ⟨-, hno⟩ := C111_processed_partial (exMakeP.With nJobs nChunks tmpdir).fresh 3 3
    ⟨exMakeP_sound.env, rfl, rfl, exMakeP_sound.ops, exMakeP_sound.argsort, exMakeP_sound.rows0⟩ p hp
    [1, 2] (by rw [ho, hn]; exact hreq) (by rw [ho, hn]; simp)
    (by
      intro i hi
      rw [ho]
      simp only [List.mem_cons, List.not_mem_nil, or_false] at hi
      rcases hi with rfl | rfl
      · obtain ⟨r, hr⟩ := exMakeP_slice 1 (by norm_num)
        exact ⟨r, (sliceGives_iff (i := 1) (by rw [hn]; norm_num)).2 hr⟩
      · obtain ⟨r, hr⟩ := exMakeP_slice 2 (by norm_num)
        exact ⟨r, (sliceGives_iff (i := 2) (by rw [hn]; norm_num)).2 hr⟩)
    (fun e h => by cases h) hk (by simp) (4, 4) rfl (by norm_num) (by norm_num)
  cases r with
  | none => exact ⟨ss, st', h⟩
  | some e => exact absurd hb (hno ss e)

/-- `C116_call`: a call in a new process, and the same call with three jobs in the process that has made the first, with other
caches. -/
example : ∃ p ss st' ss' su', prepare exMakeP.plan = .ok p ∧
    FitsBodyP exMakeP p (Proc.fresh (fun _ => 0) exProcWorld.arrays 0) ss none st' ∧ Reached exProcWorld exSeeded st' ∧
    FitsBodyP (exMakeP.With 3 (some 5) (some ['t'])) p st' ss' none su' ∧ List.Forall₂ SameSection ss ss' := by
  obtain ⟨p, hp, -⟩ := exMakeP_prepare
  have hst : Reached exProcWorld exSeeded (Proc.fresh (fun _ => 0) exProcWorld.arrays 0) := .fresh _ _
  obtain ⟨ss, st', h⟩ := exMakeP_processed 1 none none (fun h => absurd h (by norm_num)) p hp _ hst
  have hst' : Reached exProcWorld exSeeded st' := .call _ p _ st' ss none hst (exMakeP_within 1 none none) h
  obtain ⟨ss', su', h'⟩ := exMakeP_processed 3 (some 5) (some ['t']) (fun _ => by simp) p hp st' hst'
  exact ⟨p, ss, st', ss', su', hp, h, hst', h', (C116_same exSeeded_orderly exMakeP 3 3 exMakeP_sound p hp 3 (some 5)
    (some ['t']) (exMakeP_within 1 none none) (exMakeP_within _ _ _) _ _ _ _ hst hst' ss ss' none (fun _ => by simp) h h').2⟩

/-- `C116_program` and `C116_published`: the program with staging, in a new process. -/
example : ∃ act st', MakeRunP exMakeP ⟨fun _ => "fits", fun _ _ => ⟨true, some "packed"⟩⟩
    (exEnv true) (["out"] ++ ["x.fits"]) (some ["tmp"]) true (fun _ => true)
    (Proc.fresh (fun _ => 0) exProcWorld.arrays 0) act st' ∧ Reached exProcWorld exSeeded st' ∧
    (act (exFS (some "old") none)).fs.files ["out", "x.fits.fz"] = some "packed" := by
  obtain ⟨p, hp, -⟩ := exMakeP_prepare
  have hst : Reached exProcWorld exSeeded (Proc.fresh (fun _ => 0) exProcWorld.arrays 0) := .fresh _ _
  obtain ⟨ss, st', h⟩ := exMakeP_processed 1 none none (fun h => absurd h (by norm_num)) p hp _ hst
  have hw : exMakeP.Within exProcWorld exSeeded := exMakeP_within 1 none none
  have hrun := MakeRunP.run (sto := ⟨fun _ => "fits", fun _ _ => ⟨true, some "packed"⟩⟩) (env := exEnv true)
    (meds := ["out"] ++ ["x.fits"]) (tmpdir := some ["tmp"]) (removeFits := true) (valid := fun _ => true) p ss none st' hp h
  have hout : (publishRun (exEnv true) (["out"] ++ ["x.fits"]) (some ["tmp"]) ⟨"fits", none⟩ ⟨true, some "packed"⟩ true
    (fun _ => true) (exFS (some "old") none)).out = .ok () := by decide +kernel
  obtain ⟨_, _, x, _, _, hx, _, hf⟩ := C116_published exSeeded_orderly exMakeP hw _ st' hst _ _ ["out"] "x.fits" _ _ _ _
    hrun (exFS (some "old") none) (exFS_wf _ _) hout (.inl fun _ => rfl)
  cases hx
  exact ⟨_, st', hrun, (C116_program exSeeded_orderly exMakeP hw _ st' hst _ _ _ _ _ _ _ hrun).2, hf⟩

end Pizza
