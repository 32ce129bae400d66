import Verif.Props.Publish
import Verif.Props.CliRun

/-!
Concrete cases for C73–C77 and C91, and the file system states in which C75, C77 and C91 fail.
-/

namespace Pizza

/-- Directories `/out` and `/tmp`, files with the given contents at `/out/x.fits.fz` and
`/tmp/x.fits.fz`. -/
def exFS (old new : Option String) : FS String where
  files p :=
    if p = ["out", "x.fits.fz"] then old
    else if p = ["tmp", "x.fits.fz"] then new
    else none
  dirs p := p = [] ∨ p = ["out"] ∨ p = ["tmp"]

theorem exFS_wf (old new : Option String) : (exFS old new).WF := by
  refine ⟨by simp [exFS], fun p h => ?_, fun p h => ?_⟩
  · simp only [exFS] at h ⊢
    split at h
    · rename_i hp; subst hp; rfl
    · split at h
      · rename_i hp; subst hp; rfl
      · simp at h
  · simp only [exFS] at h ⊢
    rcases h with h | h
    · split at h
      · rename_i hp; subst hp; rfl
      · split at h
        · rename_i hp; subst hp; rfl
        · simp at h
    · simp only [decide_eq_true_eq] at h
      rcases h with rfl | rfl | rfl <;> rfl

/-- One device, or several; directories may be made; a copy shows a part first. -/
def exEnv (one : Bool) : FsEnv String := ⟨fun _ => true, fun _ _ => one, fun _ => ["part"], fun _ _ => true⟩

/-- The object for `/out/x.fits.fz` with temporary directory `/tmp`. -/
def exStaged : StagedOut := ⟨["out", "x.fits.fz"], ["tmp", "x.fits.fz"], true, false, false⟩

theorem exStaged_init (one : Bool) (fs : FS String) (h : fs.dirs ["tmp"] = true) :
    (StagedOut.init (exEnv one) ["out", "x.fits.fz"] (some ["tmp"]) false fs).out = .ok exStaged := by
  rw [StagedOut.init, FM.get_bind, FM.bind_def]
  unfold FM.cond
  rw [if_pos (by simp [FS.exists, h])]
  rfl

/-- C73: the hypotheses hold with an old file at the destination, by rename and by copy. -/
example (one : Bool) :
    let r := exStaged.stageOut (exEnv one) (exFS (some "old") (some "new"))
    r.fs.files ["out", "x.fits.fz"] = some "new" ∧ r.fs.files ["tmp", "x.fits.fz"] = none := by
  obtain ⟨s', hs'⟩ := C73_succeeds (exEnv one) ["out", "x.fits.fz"] ["tmp"] false
    (exFS none none) exStaged (exStaged_init one _ rfl) (by simp) (by simp)
    (exFS (some "old") (some "new")) "new" rfl rfl (Or.inl rfl) (Or.inr rfl)
  obtain ⟨h1, h2, -, -⟩ := C73_moves (exEnv one) ["out", "x.fits.fz"] ["tmp"] false (exFS none none)
    exStaged (exStaged_init one _ rfl) (by simp) (by simp) (exFS (some "old") (some "new"))
    (exFS_wf _ _) "new" rfl s' hs'
  exact ⟨h1, h2⟩

/-- `C73_directory`: the output path is the directory `/out`. -/
example : ∃ s, (StagedOut.init (exEnv true) ["out"] (some ["tmp"]) false (exFS none none)).out = .ok s ∧
    s.stageOut (exEnv true) ({ exFS none none with files := fun p => if p = ["tmp", "out"] then some "new" else none }) =
      ⟨[], { exFS none none with files := fun p => if p = ["tmp", "out"] then some "new" else none }, .error .ioError⟩ := by
  refine ⟨⟨["out"], ["tmp", "out"], true, false, false⟩, rfl, ?_⟩
  refine C73_directory (exEnv true) ["out"] ["tmp"] false (exFS none none) _ rfl (by simp) _ ⟨by simp [exFS], fun p h => ?_,
    fun p h => ?_⟩ "new" rfl rfl
  · simp only [exFS] at h ⊢
    split at h
    · rename_i hp; subst hp; rfl
    · simp at h
  · simp only [exFS] at h ⊢
    rcases h with h | h
    · split at h
      · rename_i hp; subst hp; rfl
      · simp at h
    · simp only [decide_eq_true_eq] at h
      rcases h with rfl | rfl | rfl <;> rfl

/-- C73: nothing there, `must_exist` unset. -/
example : (exStaged.stageOut (exEnv true) (exFS (some "old") none)).out = .ok exStaged := rfl

/-- C73: no temporary directory. -/
example : (StagedOut.init (exEnv true) ["out", "x.fits.fz"] none false (exFS none none)).out =
    .ok ⟨["out", "x.fits.fz"], ["out", "x.fits.fz"], false, false, false⟩ := rfl

/-- C74: five states when the file is copied over an old one. -/
example : (crashStates (exStaged.stageOut (exEnv false)) (exFS (some "old") (some "new"))).map
    (fun st => (st.files ["out", "x.fits.fz"], st.files ["tmp", "x.fits.fz"])) =
    [(some "old", some "new"), (none, some "new"), (some "part", some "new"), (some "new", some "new"),
      (some "new", none), (some "new", none)] := by decide +kernel

/-- **C75** fails: after the old file is removed and before the new one is in place, there is no file at
the final path. -/
theorem C75_atomic_fails :
    ¬ ∀ (env : FsEnv String) (fname t : FPath) (must : Bool) (fs0 : FS String) (s : StagedOut),
      (StagedOut.init env fname (some t) must fs0).out = .ok s → fname ≠ [] → t ≠ fname.dropLast →
      ∀ (fs : FS String), fs.WF → ∀ d, fs.files s.path = some d → env.sameDevice s.path fname = true →
      ∀ st ∈ crashStates (s.stageOut env) fs,
        st.files fname = fs.files fname ∨ st.files fname = some d := by
  intro h
  have := h (exEnv true) ["out", "x.fits.fz"] ["tmp"] false (exFS none none) exStaged
    (exStaged_init true _ rfl) (by simp) (by simp) (exFS (some "old") (some "new")) (exFS_wf _ _) "new" rfl rfl
    ((exFS (some "old") (some "new")).set ["out", "x.fits.fz"] none) (by
      have e : (exStaged.stageOut (exEnv true) (exFS (some "old") (some "new"))).trace.head? =
          some ((exFS (some "old") (some "new")).set ["out", "x.fits.fz"] none) := rfl
      have := List.mem_of_head? e
      simp [crashStates, this])
  have h2 : (((exFS (some "old") (some "new")).set ["out", "x.fits.fz"] none).files ["out", "x.fits.fz"] =
      (exFS (some "old") (some "new")).files ["out", "x.fits.fz"] ∨
      ((exFS (some "old") (some "new")).set ["out", "x.fits.fz"] none).files ["out", "x.fits.fz"] = some "new") ↔
      False := by decide +kernel
  exact h2.1 this

/-- **C75** With two devices a reader can also find a part of the new content at the final path. -/
theorem C75_partial_content : ∃ st ∈ crashStates (exStaged.stageOut (exEnv false)) (exFS none (some "new")),
    st.files ["out", "x.fits.fz"] = some "part" := by
  refine ⟨(exFS none (some "new")).set ["out", "x.fits.fz"] (some "part"), ?_, by decide +kernel⟩
  have e : (exStaged.stageOut (exEnv false) (exFS none (some "new"))).trace.head? =
      some ((exFS none (some "new")).set ["out", "x.fits.fz"] (some "part")) := rfl
  have := List.mem_of_head? e
  simp [crashStates, this]

/-- C76: a copy is staged, read and removed. -/
example : let r := StagedIn.init (exEnv true) ["out", "x.fits.fz"] (some ["tmp"]) (exFS (some "data") none)
    r.out = .ok ⟨["out", "x.fits.fz"], ["tmp", "x.fits.fz"], true, true⟩ ∧
    r.fs.files ["tmp", "x.fits.fz"] = some "data" ∧
    ((StagedIn.cleanup ⟨["out", "x.fits.fz"], ["tmp", "x.fits.fz"], true, true⟩ r.fs).fs.files
      ["tmp", "x.fits.fz"], (StagedIn.cleanup ⟨["out", "x.fits.fz"], ["tmp", "x.fits.fz"], true, true⟩
      r.fs).fs.files ["out", "x.fits.fz"]) = (none, some "data") := by
  refine ⟨rfl, by decide +kernel, by decide +kernel⟩

/-- C76: a history with a disturbance in between. -/
example : (runIn (exEnv true) ⟨["out", "x.fits.fz"], ["tmp", "x.fits.fz"], true, true⟩
    (StagedIn.init (exEnv true) ["out", "x.fits.fz"] (some ["tmp"]) (exFS (some "data") none)).fs
    [.cleanup, .other (fun fs => fs.set ["tmp", "x.fits.fz"] (some "foreign")), .stageIn, .cleanup,
      .cleanup]).2.files ["out", "x.fits.fz"] = some "data" :=
  C76_history (exEnv true) ["out", "x.fits.fz"] (some ["tmp"]) (exFS (some "data") none) (by simp) _ rfl _
    (fun g hg fs => by
      simp only [List.mem_cons, reduceCtorEq, InOp.other.injEq, List.not_mem_nil, or_false, false_or] at hg
      subst hg
      simp [FS.set])

/-- C77: a normal run with staging. -/
example : (publishRun (exEnv true) ["out", "x.fits"] (some ["tmp"]) ⟨"fits", none⟩ ⟨true, some "packed"⟩ true
    (fun _ => true) (exFS (some "old") none)).out = .ok () := by decide +kernel

/-- **C77** fails: `fpack` fails, nothing is staged out, and the output of an earlier run passes the
validation. -/
theorem C77_fresh_fails :
    ¬ ∀ (env : FsEnv String) (dir : FPath) (n : String) (tmpdir : Option FPath) (c : Compute String)
      (pk : Fpack String) (rm : Bool) (valid : String → Bool) (fs : FS String), fs.WF →
      (pk.ok = true → pk.left.isSome = true) →
      (publishRun env (dir ++ [n]) tmpdir c pk rm valid fs).out = .ok () →
      ∃ x, pk.left = some x ∧
        (publishRun env (dir ++ [n]) tmpdir c pk rm valid fs).fs.files (dir ++ [n ++ ".fz"]) = some x := by
  intro h
  obtain ⟨x, hx, -⟩ := h (exEnv true) ["out"] "x.fits" (some ["tmp"]) ⟨"fits", none⟩ ⟨false, none⟩ true
    (fun _ => true) (exFS (some "old") none) (exFS_wf _ _) (by simp) (by decide +kernel)
  simp at hx

/-- C105: staging in a temporary directory, the FITS file kept because its removal was not asked for. -/
example : (publishRun (exEnv true) ["out", "x.fits"] (some ["tmp"]) ⟨"fits", none⟩ ⟨true, some "packed"⟩ false
    (fun _ => true) (exFS (some "old") none)).fs.files ["tmp", "x.fits"] = some "fits" :=
  (C105_files (exEnv true) ["out"] "x.fits" (some ["tmp"]) ⟨"fits", none⟩ ⟨true, some "packed"⟩ false
    (fun _ => true) (exFS (some "old") none) (exFS_wf _ _) (by decide +kernel) ["tmp"] rfl).1

/-- C91: a run that fails leaves the old output. -/
example : (publishRun (exEnv true) ["out", "x.fits"] (some ["tmp"]) ⟨"half", some .runtimeError⟩
    ⟨true, some "packed"⟩ true (fun _ => true) (exFS (some "old") none)).fs.files ["out", "x.fits.fz"] =
    some "old" :=
  (C91_failed_run_partial (exEnv true) ["out"] "x.fits" (some ["tmp"]) ⟨"half", some .runtimeError⟩
    ⟨true, some "packed"⟩ true (fun _ => true) (exFS (some "old") none) (exFS_wf _ _) .runtimeError rfl
    (fun t ht _ => by
      obtain rfl := Option.some.inj ht
      exact ⟨rfl, rfl, by decide⟩)).2

/-- **C91** fails: a file left in the temporary directory by an earlier crash replaces the output of the
last good run although the computation raises. -/
theorem C91_failed_run_fails :
    ¬ ∀ (env : FsEnv String) (dir : FPath) (n : String) (tmpdir : Option FPath) (c : Compute String)
      (pk : Fpack String) (rm : Bool) (valid : String → Bool) (fs : FS String), fs.WF →
      ∀ e, c.raised = some e →
      (publishRun env (dir ++ [n]) tmpdir c pk rm valid fs).fs.files (dir ++ [n ++ ".fz"]) =
        fs.files (dir ++ [n ++ ".fz"]) := by
  intro h
  have := h (exEnv true) ["out"] "x.fits" (some ["tmp"]) ⟨"half", some .runtimeError⟩ ⟨true, some "packed"⟩ true
    (fun _ => true) (exFS (some "old") (some "crashed")) (exFS_wf _ _) .runtimeError rfl
  revert this
  decide +kernel

/-- C106: `--use-tmpdir`, an old output, a computation that raises: nothing has changed. -/
example : (cliMain (exEnv false) ["out", "x.fits"] "info".toList true none ["tmp"] "tmpab12" none
    ⟨"half", some .runtimeError⟩ ⟨true, some "packed"⟩ (fun _ => true) (exFS (some "old") (some "stale"))).fs.files =
    (exFS (some "old") (some "stale")).files :=
  ((C106_tmpdir (exEnv false) ["out"] "x.fits" "info".toList true none ["tmp"] "tmpab12" none
    ⟨"half", some .runtimeError⟩ ⟨true, some "packed"⟩ (fun _ => true) (exFS (some "old") (some "stale"))
    (exFS_wf _ _) (.inl rfl) ["tmp", "tmpab12"] rfl ⟨rfl, rfl⟩ (by decide)).2.2.2 (.inr rfl)).2

/-- C106: a temporary directory and success. -/
example : (cliMain (exEnv false) ["out", "x.fits"] "info".toList false (some ["tmp"]) [] "tmpab12" none
    ⟨"fits", none⟩ ⟨true, some "packed"⟩ (fun _ => true) (exFS (some "old") (some "stale"))).out = .ok () := by
  decide +kernel

/-- C106: no temporary directory, log level debug: the uncompressed file is kept. -/
example : (cliMain (exEnv false) ["out", "x.fits"] "debug".toList false none ["tmp"] "" none
    ⟨"fits", none⟩ ⟨true, some "packed"⟩ (fun _ => true) (exFS (some "old") none)).fs.files ["out", "x.fits"] =
    some "fits" :=
  ((C106_plain (exEnv false) ["out"] "x.fits" "debug".toList ["tmp"] "" none ⟨"fits", none⟩
    ⟨true, some "packed"⟩ (fun _ => true) (exFS (some "old") none) (exFS_wf _ _)).2.2 (by decide +kernel)).2

/-- `C73_construct`: making the object touches no file. -/
example := C73_construct (exEnv false) ["out", "x.fits.fz"] (some ["new", "tmp"]) true (exFS (some "old") none)

/-- `C73_unstaged`: the temporary directory is that of the output. -/
example := C73_unstaged (exEnv true) ["out", "x.fits.fz"] (some ["out"]) false (exFS none none)
  ⟨["out", "x.fits.fz"], ["out", "x.fits.fz"], false, false, false⟩ rfl (by simp) (.inr rfl)

/-- `C73_missing`: nothing was made in the temporary directory. -/
example := C73_missing (exEnv true) ["out", "x.fits.fz"] ["tmp"] false (exFS none none) exStaged
  (exStaged_init true _ rfl) (by simp) (exFS (some "old") none) ⟨rfl, rfl⟩

/-- `C73_history`: after the file was moved, whatever happens to the file system. -/
example := C73_history (exEnv true) { exStaged with wasStagedOut := true } (exFS (some "new") none)
  [fun fs => fs.set ["tmp", "x.fits.fz"] (some "other"), id] rfl

/-- `C74_no_loss` and `C75_atomic_partial`: over an old file, on one device. -/
example := And.intro
  (C74_no_loss (exEnv true) ["out", "x.fits.fz"] ["tmp"] false (exFS none none) exStaged
    (exStaged_init true _ rfl) (by simp) (by simp) (exFS (some "old") (some "new")) (exFS_wf _ _) "new" rfl)
  (C75_atomic_partial (exEnv true) ["out", "x.fits.fz"] ["tmp"] false (exFS none none) exStaged
    (exStaged_init true _ rfl) (by simp) (by simp) (exFS (some "old") (some "new")) (exFS_wf _ _) "new" rfl rfl)

/-- `C76_construct` and `C76_cleanup`: a copy in `/tmp`. -/
example := And.intro
  (C76_construct (exEnv true) ["out", "x.fits.fz"] (some ["tmp"]) (exFS (some "data") none) (by simp))
  (C76_cleanup (exEnv true) ["out", "x.fits.fz"] (some ["tmp"]) (exFS (some "data") none) (by simp)
    ⟨["out", "x.fits.fz"], ["tmp", "x.fits.fz"], true, true⟩ rfl (exFS (some "data") (some "data")) rfl)

/-- `C77_fresh_partial`: a run with staging over an old output. -/
example := C77_fresh_partial (exEnv true) ["out"] "x.fits" (some ["tmp"]) ⟨"fits", none⟩ ⟨true, some "packed"⟩
  true (fun _ => true) (exFS (some "old") none) (exFS_wf _ _) (by decide +kernel) (.inl rfl)

/-- `C105_frame`: a run that is cut short by an exception. -/
example := C105_frame (exEnv false) ["out"] "x.fits" (some ["tmp"]) ⟨"half", some .runtimeError⟩
  ⟨true, some "packed"⟩ true (fun _ => true) (exFS (some "old") none) (exFS_wf _ _) ["tmp"] rfl

/-- `C106_tmpdir_output`: a run with a temporary directory that succeeds. -/
example := C106_tmpdir_output (exEnv false) ["out"] "x.fits" "info".toList false (some ["tmp"]) [] "tmpab12"
  none ⟨"fits", none⟩ ⟨true, some "packed"⟩ (fun _ => true) (exFS (some "old") (some "stale")) (exFS_wf _ _)
  (.inr rfl) ["tmp", "tmpab12"] rfl (by decide) "packed" rfl (by decide +kernel)

end Pizza
