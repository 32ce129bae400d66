import Verif.Spec.Files
import Mathlib.Data.List.Infix

/-!
Staging files (C73–C76).
-/

namespace Pizza
variable {D : Type}

theorem FM.bind_def {α β : Type} (m : FM D α) (f : α → FM D β) (fs : FS D) :
    (m >>= f) fs = match (m fs).out with
      | .error e => ⟨(m fs).trace, (m fs).fs, .error e⟩
      | .ok a => ⟨(m fs).trace ++ (f a (m fs).fs).trace, (f a (m fs).fs).fs, (f a (m fs).fs).out⟩ := rfl

theorem FM.pure_def {α : Type} (a : α) (fs : FS D) : (pure a : FM D α) fs = ⟨[], fs, .ok a⟩ := rfl

theorem FM.get_bind {β : Type} (f : FS D → FM D β) (fs : FS D) : (FM.get >>= f) fs = f fs fs := by
  simp [FM.bind_def, FM.get]

theorem FM.put_bind {β : Type} (a : FS D) (f : Unit → FM D β) (fs : FS D) :
    (FM.put a >>= f) fs = ⟨a :: (f () a).trace, (f () a).fs, (f () a).out⟩ := by
  simp [FM.bind_def, FM.put]

/-- `m` goes only through states that satisfy `P` if it starts in one that does, whatever its outcome. -/
def FM.Keeps {α : Type} (P : FS D → Prop) (m : FM D α) : Prop :=
  ∀ fs, P fs → (∀ st ∈ (m fs).trace, P st) ∧ P (m fs).fs

theorem FM.Keeps.bind {α β : Type} {P : FS D → Prop} {m : FM D α} {f : α → FM D β}
    (hm : m.Keeps P) (hf : ∀ a, (f a).Keeps P) : (m >>= f).Keeps P := by
  intro fs h
  rw [FM.bind_def]
  obtain ⟨h1, h2⟩ := hm fs h
  cases ho : (m fs).out with
  | error e => exact ⟨h1, h2⟩
  | ok a =>
    obtain ⟨h3, h4⟩ := hf a _ h2
    refine ⟨fun st hst => ?_, h4⟩
    rcases List.mem_append.1 hst with h | h
    · exact h1 st h
    · exact h3 st h

theorem FM.Keeps.get {β : Type} {P : FS D → Prop} {f : FS D → FM D β}
    (hf : ∀ fs, P fs → (∀ st ∈ (f fs fs).trace, P st) ∧ P (f fs fs).fs) : (FM.get >>= f).Keeps P := by
  intro fs h
  rw [FM.get_bind]
  exact hf fs h

theorem FM.Keeps.pure {α : Type} {P : FS D → Prop} (a : α) : (Pure.pure a : FM D α).Keeps P := by
  intro fs h
  exact ⟨fun st hst => by simp [FM.pure_def] at hst, h⟩

theorem FM.Keeps.raise {α : Type} {P : FS D → Prop} (e : Err) : (FM.raise e : FM D α).Keeps P := by
  intro fs h
  exact ⟨fun st hst => by simp [FM.raise] at hst, h⟩

theorem FM.Keeps.put {P : FS D → Prop} {fs' : FS D} (h' : P fs') (fs : FS D) :
    (∀ st ∈ (FM.put fs' fs).trace, P st) ∧ P (FM.put fs' fs).fs := by
  simp [FM.put, h']

theorem FM.Keeps.swallow {P : FS D → Prop} {m : FM D Unit} (hm : m.Keeps P) : (FM.swallow m).Keeps P :=
  fun fs h => hm fs h

theorem osRemove_keeps {P : FS D → Prop} {p : FPath} (h : ∀ fs, P fs → P (fs.set p none)) :
    (osRemove p : FM D Unit).Keeps P := by
  refine FM.Keeps.get fun fs hp => ?_
  split
  · exact FM.Keeps.put (h fs hp) fs
  · exact FM.Keeps.raise _ fs hp

theorem osMakedirs_keeps {P : FS D → Prop} (env : FsEnv D) (d : FPath)
    (h : ∀ (fs : FS D) dirs, P fs → P { fs with dirs := dirs }) : (osMakedirs env d).Keeps P := by
  refine FM.Keeps.get fun fs hp => ?_
  split
  · exact FM.Keeps.raise _ fs hp
  · exact FM.Keeps.put (h fs _ hp) fs

theorem makedirFromfile_keeps {P : FS D → Prop} (env : FsEnv D) (p : FPath)
    (h : ∀ (fs : FS D) dirs, P fs → P { fs with dirs := dirs }) : (makedirFromfile env p).Keeps P := by
  refine FM.Keeps.get fun fs hp => ?_
  split
  · exact FM.Keeps.pure _ fs hp
  · exact (osMakedirs_keeps env _ h).swallow fs hp

theorem writeAt_keeps {P : FS D → Prop} {p : FPath} (l : List D)
    (h : ∀ fs, ∀ d ∈ l, P fs → P (fs.set p (some d))) : (writeAt p l).Keeps P := by
  induction l with
  | nil => exact FM.Keeps.pure _
  | cons x l ih =>
    refine FM.Keeps.get fun fs hp => ?_
    rw [FM.put_bind]
    obtain ⟨h1, h2⟩ := ih (fun fs d hd => h fs d (List.mem_cons_of_mem _ hd)) _ (h fs x (by simp) hp)
    refine ⟨fun st hst => ?_, h2⟩
    rcases List.mem_cons.1 hst with rfl | hst
    · exact h fs x (by simp) hp
    · exact h1 st hst

theorem shCopy_keeps {P : FS D → Prop} (env : FsEnv D) {src dst : FPath}
    (h : ∀ fs d, P fs → P (fs.set dst (some d))) : (shCopy env src dst).Keeps P := by
  refine FM.Keeps.get fun fs hp => ?_
  cases hs : fs.files src with
  | none => exact FM.Keeps.raise _ fs hp
  | some d =>
    dsimp only
    split
    · refine FM.Keeps.bind (writeAt_keeps _ fun fs d _ => h fs d) (fun _ => ?_) fs hp
      unfold FM.cond
      split
      · exact writeAt_keeps _ fun fs d _ => h fs d
      · exact FM.Keeps.raise _
    · exact FM.Keeps.raise _ fs hp

/-- A path that exists in no state cannot be a directory that `makedirs` of its parent makes. -/
theorem not_prefix_dir {p : FPath} (h : p ≠ []) : ¬ p <+: p.dir := by
  intro hp
  have := hp.length_le
  rw [FPath.dir, List.length_dropLast] at this
  have : 0 < p.length := List.length_pos_iff.2 h
  omega

theorem writeAt_result (p : FPath) (l : List D) (fs : FS D) :
    (writeAt p l fs).out = .ok () ∧ (writeAt p l fs).fs.dirs = fs.dirs ∧
    (writeAt p l fs).fs.files = (match l.getLast? with
      | none => fs.files
      | some d => (fs.set p (some d)).files) := by
  induction l generalizing fs with
  | nil => simp [writeAt, FM.pure_def]
  | cons x l ih =>
    rw [writeAt, FM.get_bind, FM.put_bind]
    obtain ⟨h1, h2, h3⟩ := ih (fs.set p (some x))
    refine ⟨h1, h2, ?_⟩
    rw [h3]
    cases l with
    | nil => simp
    | cons y l =>
      simp only [List.getLast?_cons_cons]
      cases hl : (y :: l).getLast? with
      | none => simp at hl
      | some d =>
        funext q
        simp only [FS.set]
        split <;> rfl

/-- A successful copy. -/
theorem shCopy_ok {env : FsEnv D} {src dst : FPath} {fs : FS D}
    (h : (shCopy env src dst fs).out = .ok ()) :
    ∃ d, fs.files src = some d ∧ (shCopy env src dst fs).fs.files = (fs.set dst (some d)).files ∧
      (shCopy env src dst fs).fs.dirs = fs.dirs := by
  rw [shCopy, FM.get_bind] at h ⊢
  cases hs : fs.files src with
  | none => simp [hs, FM.raise] at h
  | some d =>
    rw [hs] at h
    dsimp only at h ⊢
    split at h
    · rename_i hd
      rw [if_pos hd]
      rw [FM.bind_def] at h ⊢
      obtain ⟨h1, h2, h3⟩ := writeAt_result dst (env.partials d) fs
      rw [h1] at h ⊢
      dsimp only [FM.cond] at h ⊢
      split at h
      · rename_i hc
        rw [if_pos hc]
        obtain ⟨h4, h5, h6⟩ := writeAt_result dst [d] (writeAt dst (env.partials d) fs).fs
        refine ⟨d, rfl, ?_, h5.trans h2⟩
        rw [h6]
        funext q
        simp only [List.getLast?_singleton, FS.set]
        split
        · rfl
        · rename_i hq
          rw [h3]
          cases (env.partials d).getLast? with
          | none => rfl
          | some x => simp [FS.set, hq]
      · simp [FM.raise] at h
    · simp [FM.raise] at h

theorem osRemove_ok {p : FPath} {fs : FS D} (h : (osRemove p fs).out = .ok ()) :
    (fs.files p).isSome = true ∧ (osRemove p fs).fs = fs.set p none ∧ (osRemove p fs).trace = [fs.set p none] := by
  rw [osRemove, FM.get_bind] at h ⊢
  split at h
  · rename_i hp
    rw [if_pos hp]
    exact ⟨hp, rfl, rfl⟩
  · simp [FM.raise] at h

/-- A successful move of a file to a path that is not a directory. -/
theorem shMove_ok {env : FsEnv D} {src dst : FPath} {fs : FS D} (hne : src ≠ dst)
    (hd : fs.dirs dst = false) (h : (shMove env src dst fs).out = .ok ()) :
    ∃ d, fs.files src = some d ∧
      (shMove env src dst fs).fs.files = ((fs.set src none).set dst (some d)).files := by
  rw [shMove, FM.get_bind, if_neg (by simp [hd])] at h ⊢
  rw [shMoveTo, FM.get_bind] at h ⊢
  cases hs : fs.files src with
  | none => simp [hs, FM.raise] at h
  | some d =>
    rw [hs] at h
    dsimp only at h ⊢
    refine ⟨d, rfl, ?_⟩
    split at h
    · rename_i hc
      rw [if_pos hc]
      rfl
    · rename_i hc
      rw [if_neg hc]
      rw [FM.bind_def] at h ⊢
      cases hc' : (shCopy env src dst fs).out with
      | error e => simp [hc'] at h
      | ok u =>
        rw [hc'] at h
        dsimp only at h ⊢
        obtain ⟨d', e1, e2, -⟩ := shCopy_ok hc'
        obtain ⟨-, e3, -⟩ := osRemove_ok h
        rw [e3]
        rw [hs] at e1
        obtain rfl := Option.some.inj e1
        funext q
        simp only [FS.set, e2]
        by_cases hq : q = src
        · subst hq; simp [hne]
        · simp [hq]

theorem makedirFromfile_result (env : FsEnv D) (p : FPath) (fs : FS D) :
    (makedirFromfile env p fs).out = .ok () ∧ (makedirFromfile env p fs).fs.files = fs.files ∧
    (p ≠ [] → (makedirFromfile env p fs).fs.dirs p = fs.dirs p) ∧
    (∀ q, fs.dirs q = true → (makedirFromfile env p fs).fs.dirs q = true) := by
  rw [makedirFromfile, tryMakedir, FM.get_bind]
  split
  · exact ⟨rfl, rfl, fun _ => rfl, fun _ h => h⟩
  · simp only [FM.swallow]
    rw [osMakedirs, FM.get_bind]
    split
    · exact ⟨trivial, rfl, fun _ => rfl, fun _ h => h⟩
    · refine ⟨trivial, rfl, fun hp => ?_, fun q h => ?_⟩
      · simp [FM.put, not_prefix_dir hp]
      · simp [FM.put, h]

/-! ### StagedOutFile -/

/-- The construction of a `StagedOutFile` changes no file. -/
theorem C73_construct (env : FsEnv D) (fname : FPath) (tmpdir : Option FPath) (must : Bool) (fs : FS D) :
    ∀ st ∈ crashStates (StagedOut.init env fname tmpdir must) fs, st.files = fs.files := by
  have hk : (StagedOut.init env fname tmpdir must).Keeps (fun st => st.files = fs.files) := by
    cases tmpdir with
    | none => exact FM.Keeps.pure _
    | some t =>
      refine FM.Keeps.get fun st hst => ?_
      refine FM.Keeps.bind ?_ (fun _ => FM.Keeps.pure _) st hst
      unfold FM.cond
      split
      · exact FM.Keeps.pure _
      · exact osMakedirs_keeps env t fun _ _ h => h
  obtain ⟨h1, h2⟩ := hk fs rfl
  intro st hst
  simp only [crashStates, List.cons_append, List.mem_cons, List.mem_append, List.not_mem_nil, or_false] at hst
  rcases hst with rfl | h | rfl
  · rfl
  · exact h1 st h
  · exact h2

/-- What the constructor stores. -/
def storedOut (fname : FPath) (must : Bool) : Option FPath → StagedOut
  | none => ⟨fname, fname, false, must, false⟩
  | some t => ⟨fname, t.join fname.base, decide (t ≠ fname.dir), must, false⟩

theorem init_eq {env : FsEnv D} {fname : FPath} {tmpdir : Option FPath} {must : Bool} {fs : FS D}
    {s : StagedOut} (h : (StagedOut.init env fname tmpdir must fs).out = .ok s) :
    s = storedOut fname must tmpdir := by
  cases tmpdir with
  | none =>
    simp only [StagedOut.init, FM.pure_def] at h
    exact (Except.ok.inj h).symm
  | some t =>
    rw [StagedOut.init, FM.get_bind, FM.bind_def] at h
    split at h
    · cases h
    · simp only [FM.pure_def] at h
      exact (Except.ok.inj h).symm

theorem join_base_ne {t p : FPath} (hp : p ≠ []) (ht : t ≠ p.dir) : t.join p.base ≠ p := by
  intro h
  apply ht
  have hb : p.base = [p.getLast hp] := by simp [FPath.base, List.getLast?_eq_getLast_of_ne_nil hp]
  rw [FPath.join, hb] at h
  rw [FPath.dir, ← h]
  simp

theorem join_base_self {p : FPath} (hp : p ≠ []) : p.dir.join p.base = p := by
  simpa [FPath.join, FPath.base, FPath.dir, List.getLast?_eq_getLast_of_ne_nil hp]
    using List.dropLast_append_getLast hp

/-- What a call of `stage_out` does for an object with a temporary path. -/
theorem publish_ok {env : FsEnv D} {s : StagedOut} {fs : FS D}
    (hdis : (fs.files s.finalPath).isSome = true → fs.dirs s.finalPath = false) (hne : s.path ≠ s.finalPath)
    (h0 : s.finalPath ≠ []) (h : (s.publish env fs).out = .ok ()) :
    ∃ d, fs.files s.path = some d ∧
      (s.publish env fs).fs.files = ((fs.set s.path none).set s.finalPath (some d)).files := by
  -- the state after a possible removal of the old file
  have key : ∀ fs1 : FS D, fs1.dirs s.finalPath = false →
      ((makedirFromfile env s.finalPath >>= fun _ => shMove env s.path s.finalPath) fs1).out = .ok () →
      ∃ d, fs1.files s.path = some d ∧
      ((makedirFromfile env s.finalPath >>= fun _ => shMove env s.path s.finalPath) fs1).fs.files =
        ((fs1.set s.path none).set s.finalPath (some d)).files := by
    intro fs1 hd1 h1
    rw [FM.bind_def] at h1 ⊢
    obtain ⟨e1, e2, e3, -⟩ := makedirFromfile_result env s.finalPath fs1
    rw [e1] at h1 ⊢
    dsimp only at h1 ⊢
    obtain ⟨d, e4, e5⟩ := shMove_ok hne ((e3 h0).trans hd1) h1
    refine ⟨d, e2 ▸ e4, ?_⟩
    rw [e5]
    funext q
    simp only [FS.set, e2]
  rw [StagedOut.publish, FM.get_bind] at h ⊢
  rw [FM.bind_def] at h ⊢
  unfold FM.cond at h ⊢
  split at h
  · cases h
  · rename_i u hu
    dsimp only at h ⊢
    split at hu
    · rename_i hex
      simp only [hex, if_true] at h ⊢
      obtain ⟨g1, g2, -⟩ := osRemove_ok hu
      rw [g2] at h ⊢
      obtain ⟨d, e1, e2⟩ := key (fs.set s.finalPath none) (hdis g1) h
      refine ⟨d, by simpa [FS.set, hne] using e1, ?_⟩
      rw [e2]
      funext q
      simp only [FS.set]
      by_cases hq : q = s.finalPath
      · simp [hq]
      · simp [hq]
    · rename_i hex
      simp only [hex] at h ⊢
      have hd : fs.dirs s.finalPath = false := by
        simp only [FS.exists, Bool.or_eq_true, not_or, Bool.not_eq_true] at hex
        exact hex.2
      exact key fs hd h

/-- **C73** A successful `stage_out` of a file in a temporary directory: the final path has the content,
the temporary file is gone, no other file changes, and every later call does nothing. -/
theorem C73_moves (env : FsEnv D) (fname t : FPath) (must : Bool) (fs0 : FS D) (s : StagedOut)
    (hinit : (StagedOut.init env fname (some t) must fs0).out = .ok s)
    (hname : fname ≠ []) (htmp : t ≠ fname.dropLast)
    (fs : FS D) (hwf : fs.WF) (d : D) (hd : fs.files s.path = some d)
    (s' : StagedOut) (hok : (s.stageOut env fs).out = .ok s') :
    (s.stageOut env fs).fs.files fname = some d ∧
    (s.stageOut env fs).fs.files s.path = none ∧
    SameFilesExcept [fname, s.path] (s.stageOut env fs).fs fs ∧
    ∀ (env' : FsEnv D) (fs' : FS D), s'.stageOut env' fs' = ⟨[], fs', .ok s'⟩ := by
  have hs := init_eq hinit
  dsimp only [storedOut] at hs
  have hpath : s.path ≠ s.finalPath := by
    rw [hs]; exact join_base_ne hname htmp
  have hfin : s.finalPath = fname := by rw [hs]
  have htrue : s.isTemp = true ∧ s.wasStagedOut = false := by
    rw [hs]; exact ⟨decide_eq_true htmp, rfl⟩
  have hex : fs.exists s.path = true := by simp [FS.exists, hd]
  rw [StagedOut.stageOut, FM.get_bind, if_pos htrue, if_pos hex, FM.bind_def] at hok ⊢
  cases hp : (s.publish env fs).out with
  | error e => simp [hp] at hok
  | ok u =>
    rw [hp] at hok
    simp only [FM.pure_def] at hok ⊢
    obtain ⟨d', e1, e2⟩ := publish_ok (hwf.disjoint _) hpath (hfin ▸ hname) hp
    rw [hd] at e1
    obtain rfl := Option.some.inj e1
    rw [e2]
    refine ⟨by simp [FS.set, hfin], by simp [FS.set, hpath], ?_, ?_⟩
    · intro q hq
      simp only [List.mem_cons, List.not_mem_nil, or_false, not_or] at hq
      rw [e2]
      simp [FS.set, hfin, hq.1, hq.2]
    · intro env' fs'
      rw [← Except.ok.inj hok, StagedOut.stageOut, FM.get_bind, if_neg (by simp), FM.pure_def]

/-- **C73** Without temporary directory, or with the destination directory in its place, the file is
written in its final place and `stage_out` does nothing. -/
theorem C73_unstaged (env : FsEnv D) (fname : FPath) (tmpdir : Option FPath) (must : Bool) (fs0 : FS D)
    (s : StagedOut) (hinit : (StagedOut.init env fname tmpdir must fs0).out = .ok s) (hname : fname ≠ [])
    (htmp : tmpdir = none ∨ tmpdir = some fname.dropLast) :
    s.path = fname ∧ ∀ (env' : FsEnv D) (fs : FS D), s.stageOut env' fs = ⟨[], fs, .ok { s with wasStagedOut := true }⟩ := by
  have hs := init_eq hinit
  rcases htmp with rfl | rfl
  · dsimp only [storedOut] at hs
    subst hs
    refine ⟨rfl, fun env' fs => ?_⟩
    rw [StagedOut.stageOut, FM.get_bind, if_neg (by simp), FM.pure_def]
  · dsimp only [storedOut] at hs
    subst hs
    refine ⟨join_base_self hname, fun env' fs => ?_⟩
    rw [StagedOut.stageOut, FM.get_bind, if_neg (by simp [FPath.dir]), FM.pure_def]

/-- **C73** Nothing at the temporary path: an exception iff `must_exist`, and nothing is touched. -/
theorem C73_missing (env : FsEnv D) (fname t : FPath) (must : Bool) (fs0 : FS D) (s : StagedOut)
    (hinit : (StagedOut.init env fname (some t) must fs0).out = .ok s) (htmp : t ≠ fname.dropLast)
    (fs : FS D) (hmiss : fs.files s.path = none ∧ fs.dirs s.path = false) :
    (s.stageOut env fs).fs = fs ∧ (s.stageOut env fs).trace = [] ∧
    ((∃ e, (s.stageOut env fs).out = .error e) ↔ must = true) ∧
    (must = true → (s.stageOut env fs).out = .error .ioError) := by
  have hs := init_eq hinit
  dsimp only [storedOut] at hs
  have htrue : s.isTemp = true ∧ s.wasStagedOut = false := by
    rw [hs]; exact ⟨decide_eq_true htmp, rfl⟩
  have hmust : s.mustExist = must := by rw [hs]
  rw [StagedOut.stageOut, FM.get_bind, if_pos htrue, if_neg (by simp [FS.exists, hmiss]), hmust]
  cases must with
  | true => exact ⟨rfl, rfl, ⟨fun _ => rfl, fun _ => ⟨_, rfl⟩⟩, fun _ => rfl⟩
  | false =>
    refine ⟨rfl, rfl, ⟨fun h => ?_, fun h => by simp at h⟩, fun h => by simp at h⟩
    obtain ⟨e, he⟩ := h
    simp [FM.pure_def] at he

/-- **C73** A directory at the final path is not replaced: an exception, and nothing is touched. -/
theorem C73_directory (env : FsEnv D) (fname t : FPath) (must : Bool) (fs0 : FS D) (s : StagedOut)
    (hinit : (StagedOut.init env fname (some t) must fs0).out = .ok s) (htmp : t ≠ fname.dropLast)
    (fs : FS D) (hwf : fs.WF) (d : D) (hd : fs.files s.path = some d) (hdir : fs.dirs fname = true) :
    s.stageOut env fs = ⟨[], fs, .error .ioError⟩ := by
  have hs := init_eq hinit
  dsimp only [storedOut] at hs
  have htrue : s.isTemp = true ∧ s.wasStagedOut = false := by
    rw [hs]; exact ⟨decide_eq_true htmp, rfl⟩
  have hfin : s.finalPath = fname := by rw [hs]
  have hnf : fs.files fname = none := by
    cases hf : fs.files fname with
    | none => rfl
    | some x => exact absurd (hwf.2 fname (by simp [hf])) (by simp [hdir])
  have hrem : osRemove fname fs = ⟨[], fs, .error .ioError⟩ := by
    rw [osRemove, FM.get_bind, if_neg (by simp [hnf])]
    rfl
  have hpub : s.publish env fs = ⟨[], fs, .error .ioError⟩ := by
    rw [StagedOut.publish, FM.get_bind, FM.bind_def, hfin, FM.cond, if_pos (by simp [FS.exists, hdir]), hrem]
  rw [StagedOut.stageOut, FM.get_bind, if_pos htrue, if_pos (by simp [FS.exists, hd]), FM.bind_def, hpub]

/-- **C73** `stage_out` succeeds when the final path is free or a file, its directory exists or can be
made, and either a rename or a copy is possible. -/
theorem C73_succeeds (env : FsEnv D) (fname t : FPath) (must : Bool) (fs0 : FS D) (s : StagedOut)
    (hinit : (StagedOut.init env fname (some t) must fs0).out = .ok s)
    (hname : fname ≠ []) (htmp : t ≠ fname.dropLast)
    (fs : FS D) (d : D) (hd : fs.files s.path = some d)
    (hdir : fs.dirs fname = false)
    (hparent : fs.dirs fname.dropLast = true ∨
      (env.mayMake fname.dropLast = true ∧ ∀ q, q <+: fname.dropLast → fs.files q = none))
    (hmove : env.sameDevice s.path fname = true ∨ env.copyOk s.path fname = true) :
    ∃ s', (s.stageOut env fs).out = .ok s' := by
  have hs := init_eq hinit
  dsimp only [storedOut] at hs
  have hpath : s.path ≠ fname := by
    rw [hs]; exact join_base_ne hname htmp
  have hfin : s.finalPath = fname := by rw [hs]
  have htrue : s.isTemp = true ∧ s.wasStagedOut = false := by
    rw [hs]; exact ⟨decide_eq_true htmp, rfl⟩
  have hex : fs.exists s.path = true := by simp [FS.exists, hd]
  -- the end: move in a state where the directory is there
  have hend : ∀ fs2 : FS D, fs2.files s.path = some d → fs2.dirs fname = false →
      fs2.dirs fname.dropLast = true → (shMove env s.path fname fs2).out = .ok () := by
    intro fs2 h1 h2 h3
    rw [shMove, FM.get_bind, if_neg (by simp [h2]), shMoveTo, FM.get_bind, h1]
    dsimp only
    split
    · rfl
    · rename_i hc
      have hcopy : env.copyOk s.path fname = true := by
        rcases hmove with h | h
        · exact absurd ⟨h, h3, h2⟩ hc
        · exact h
      have e1 : (shCopy env s.path fname fs2).out = .ok () := by
        rw [shCopy, FM.get_bind, h1]
        dsimp only
        rw [if_pos (show fs2.dirs (FPath.dir fname) = true from h3), FM.bind_def,
          (writeAt_result _ _ _).1]
        dsimp only [FM.cond]
        rw [if_pos hcopy]
        exact (writeAt_result _ _ _).1
      rw [FM.bind_def, e1]
      dsimp only
      obtain ⟨d', e2, e3, -⟩ := shCopy_ok e1
      rw [osRemove, FM.get_bind, if_pos]
      · rfl
      · rw [e3]
        simp [FS.set, hpath, h1]
  -- the middle: make the directory
  have hmid : ∀ fs1 : FS D, fs1.files s.path = some d → fs1.dirs = fs.dirs →
      (∀ q, q ≠ fname → fs1.files q = fs.files q) →
      ((makedirFromfile env fname >>= fun _ => shMove env s.path fname) fs1).out = .ok () := by
    intro fs1 h1 h2 h3
    obtain ⟨e1, e2, e3, e4⟩ := makedirFromfile_result env fname fs1
    rw [FM.bind_def, e1]
    dsimp only
    refine hend _ (e2 ▸ h1) ((e3 hname).trans (h2 ▸ hdir)) ?_
    by_cases hp : fs1.dirs fname.dropLast = true
    · exact e4 _ hp
    · rcases hparent with h | ⟨hm, hnone⟩
      · exact absurd (h2 ▸ h) hp
      · have hne : ∀ q, q <+: fname.dropLast → fs1.files q = none := by
          intro q hq
          rw [h3 q ?_, hnone q hq]
          rintro rfl
          exact not_prefix_dir hname hq
        rw [makedirFromfile, tryMakedir, FM.get_bind, if_neg]
        · simp only [FM.swallow]
          rw [osMakedirs, FM.get_bind, if_neg]
          · simp [FM.put, FPath.dir]
          · simp only [FPath.dir, hm, FS.exists, hne _ (List.prefix_refl _)]
            simp only [Option.isSome_none, Bool.false_or, Bool.not_eq_true] at hp ⊢
            simp only [hp, List.any_eq_true, List.mem_inits]
            simp only [Bool.false_eq_true, Bool.true_eq_false, or_false, false_or, not_exists, not_and,
              Bool.not_eq_true]
            intro q hq
            simp [hne q hq]
        · simp only [FS.exists, FPath.dir, hne _ (List.prefix_refl _)]
          simpa using hp
  rw [StagedOut.stageOut, FM.get_bind, if_pos htrue, if_pos hex, FM.bind_def]
  have hpub : (s.publish env fs).out = .ok () := by
    rw [StagedOut.publish, FM.get_bind, FM.bind_def, hfin]
    unfold FM.cond
    split
    · rename_i e he
      split at he
      · rename_i hx
        rw [osRemove, FM.get_bind, if_pos (by simpa [FS.exists, hdir] using hx)] at he
        simp [FM.put] at he
      · simp [FM.pure_def] at he
    · rename_i u hu
      dsimp only
      split
      · rename_i hx
        rw [if_pos hx] at hu
        obtain ⟨g1, g2, -⟩ := osRemove_ok hu
        rw [g2]
        exact hmid _ (by simp [FS.set, hpath, hd]) rfl (fun q hq => by simp [FS.set, hq])
      · exact hmid fs hd rfl fun _ _ => rfl
  rw [hpub]
  exact ⟨_, rfl⟩

/-- **C73** In every history of calls, with arbitrary changes of the file system between them, the calls
after a successful move leave the file system alone. -/
theorem C73_history (env : FsEnv D) (s : StagedOut) (fs : FS D) (l : List (FS D → FS D))
    (hdone : s.wasStagedOut = true) : ∀ x ∈ runOut env s fs l, x.1 = x.2 := by
  induction l generalizing s fs with
  | nil => intro x hx; simp [runOut] at hx
  | cons g l ih =>
    have h : s.stageOut env (g fs) = ⟨[], g fs, .ok { s with wasStagedOut := true }⟩ := by
      rw [StagedOut.stageOut, FM.get_bind, if_neg (by simp [hdone]), FM.pure_def]
    intro x hx
    simp only [runOut, h, List.mem_cons] at hx
    rcases hx with rfl | hx
    · rfl
    · exact ih _ _ rfl x hx

/-- At every point of the publication the new content is at one of the two paths and all other files
are as they were. -/
theorem publish_keeps (env : FsEnv D) (s : StagedOut) (fs : FS D) (d : D) (hwf : fs.WF)
    (hne : s.path ≠ s.finalPath) (h0 : s.finalPath ≠ []) (hd : fs.files s.path = some d) :
    ∀ st ∈ (s.publish env fs).trace ++ [(s.publish env fs).fs],
      (st.files s.path = some d ∨ st.files s.finalPath = some d) ∧
      SameFilesExcept [s.finalPath, s.path] st fs := by
  -- before the move
  let P : FS D → Prop := fun st => st.files s.path = some d ∧ SameFilesExcept [s.finalPath, s.path] st fs
  let Q : FS D → Prop := fun st => (st.files s.path = some d ∨ st.files s.finalPath = some d) ∧
      SameFilesExcept [s.finalPath, s.path] st fs
  have hPQ : ∀ st, P st → Q st := fun st h => ⟨Or.inl h.1, h.2⟩
  have hPset : ∀ st x, P st → P (st.set s.finalPath x) := by
    intro st x h
    refine ⟨by simp [FS.set, hne, h.1], fun q hq => ?_⟩
    have := hq
    simp only [List.mem_cons, List.not_mem_nil, or_false, not_or] at this
    simp only [FS.set, this.1, if_false]
    exact h.2 q hq
  have hmove : ∀ st : FS D, P st → st.dirs s.finalPath = false →
      (∀ x ∈ (shMove env s.path s.finalPath st).trace, Q x) ∧ Q (shMove env s.path s.finalPath st).fs := by
    intro st hst hdir
    rw [shMove, FM.get_bind, if_neg (by simp [hdir]), shMoveTo, FM.get_bind, hst.1]
    dsimp only
    split
    · have : Q ((st.set s.path none).set s.finalPath (some d)) := by
        refine ⟨Or.inr (by simp [FS.set]), fun q hq => ?_⟩
        have hq' := hq
        simp only [List.mem_cons, List.not_mem_nil, or_false, not_or] at hq'
        simp only [FS.set, hq'.1, hq'.2, if_false]
        exact hst.2 q hq
      exact FM.Keeps.put this st
    · rw [FM.bind_def]
      obtain ⟨k1, k2⟩ := shCopy_keeps (P := P) env (src := s.path) (dst := s.finalPath)
        (fun st x => hPset st (some x)) st hst
      cases hc : (shCopy env s.path s.finalPath st).out with
      | error e => exact ⟨fun x hx => hPQ _ (k1 x hx), hPQ _ k2⟩
      | ok u =>
        dsimp only
        obtain ⟨d', e1, e2, -⟩ := shCopy_ok hc
        rw [hst.1] at e1
        obtain rfl := Option.some.inj e1
        have hfin : (shCopy env s.path s.finalPath st).fs.files s.finalPath = some d := by
          rw [e2]; simp [FS.set]
        have hQ : Q ((shCopy env s.path s.finalPath st).fs.set s.path none) := by
          refine ⟨Or.inr (by simp [FS.set, Ne.symm hne, hfin]), fun q hq => ?_⟩
          have hq' := hq
          simp only [List.mem_cons, List.not_mem_nil, or_false, not_or] at hq'
          simp only [FS.set, hq'.2, if_false]
          exact k2.2 q hq
        rw [osRemove, FM.get_bind, if_pos (by rw [k2.1]; rfl)]
        refine ⟨fun x hx => ?_, hQ⟩
        rcases List.mem_append.1 hx with hx | hx
        · exact hPQ _ (k1 x hx)
        · simp only [FM.put, List.mem_singleton] at hx
          exact hx ▸ hQ
  have hrest : ∀ st : FS D, P st → st.dirs s.finalPath = false →
      (∀ x ∈ ((makedirFromfile env s.finalPath >>= fun _ => shMove env s.path s.finalPath) st).trace, Q x) ∧
      Q ((makedirFromfile env s.finalPath >>= fun _ => shMove env s.path s.finalPath) st).fs := by
    intro st hst hdir
    obtain ⟨e1, -, e3, -⟩ := makedirFromfile_result env s.finalPath st
    obtain ⟨k1, k2⟩ := makedirFromfile_keeps (P := P) env s.finalPath (fun _ _ h => h) st hst
    rw [FM.bind_def, e1]
    dsimp only
    obtain ⟨k3, k4⟩ := hmove _ k2 ((e3 h0).trans hdir)
    refine ⟨fun x hx => ?_, k4⟩
    rcases List.mem_append.1 hx with hx | hx
    · exact hPQ _ (k1 x hx)
    · exact k3 x hx
  have hP : P fs := ⟨hd, fun _ _ => rfl⟩
  have hall : (∀ x ∈ (s.publish env fs).trace, Q x) ∧ Q (s.publish env fs).fs := by
    rw [StagedOut.publish, FM.get_bind]
    unfold FM.cond
    split
    · rename_i hex
      rw [FM.bind_def]
      obtain ⟨k1, k2⟩ := osRemove_keeps (P := P) (p := s.finalPath) (fun st h => hPset st none h) fs hP
      cases ho : (osRemove s.finalPath fs).out with
      | error e => exact ⟨fun x hx => hPQ _ (k1 x hx), hPQ _ k2⟩
      | ok u =>
        dsimp only
        obtain ⟨g1, g2, -⟩ := osRemove_ok ho
        obtain ⟨k3, k4⟩ := hrest (osRemove s.finalPath fs).fs k2 (by
          rw [g2]; exact hwf.disjoint _ g1)
        refine ⟨fun x hx => ?_, k4⟩
        rcases List.mem_append.1 hx with hx | hx
        · exact hPQ _ (k1 x hx)
        · exact k3 x hx
    · rename_i hex
      rw [FM.bind_def, FM.pure_def]
      dsimp only
      rw [List.nil_append]
      refine hrest fs hP ?_
      simp only [FS.exists, Bool.or_eq_true, not_or, Bool.not_eq_true] at hex
      exact hex.2
  intro st hst
  rcases List.mem_append.1 hst with h | h
  · exact hall.1 st h
  · rw [List.mem_singleton] at h
    exact h ▸ hall.2

/-- **C74** At every crash point of `stage_out`, also when it raises and also when a copy fails half-way,
the complete new content is at the temporary or at the final path, and no other file has changed. -/
theorem C74_no_loss (env : FsEnv D) (fname t : FPath) (must : Bool) (fs0 : FS D) (s : StagedOut)
    (hinit : (StagedOut.init env fname (some t) must fs0).out = .ok s)
    (hname : fname ≠ []) (htmp : t ≠ fname.dropLast)
    (fs : FS D) (hwf : fs.WF) (d : D) (hd : fs.files s.path = some d) :
    ∀ st ∈ crashStates (s.stageOut env) fs,
      (st.files s.path = some d ∨ st.files fname = some d) ∧ SameFilesExcept [fname, s.path] st fs := by
  have hs := init_eq hinit
  dsimp only [storedOut] at hs
  have hpath : s.path ≠ s.finalPath := by
    rw [hs]; exact join_base_ne hname htmp
  have hfin : s.finalPath = fname := by rw [hs]
  have htrue : s.isTemp = true ∧ s.wasStagedOut = false := by
    rw [hs]; exact ⟨decide_eq_true htmp, rfl⟩
  have hex : fs.exists s.path = true := by simp [FS.exists, hd]
  have hk := publish_keeps env s fs d hwf hpath (hfin ▸ hname) hd
  rw [hfin] at hk
  have e : (s.stageOut env fs).trace = (s.publish env fs).trace ∧
      (s.stageOut env fs).fs = (s.publish env fs).fs := by
    rw [StagedOut.stageOut, FM.get_bind, if_pos htrue, if_pos hex, FM.bind_def]
    split <;> simp [FM.pure_def]
  intro st hst
  simp only [crashStates, e.1, e.2, List.cons_append, List.mem_cons] at hst
  rcases hst with rfl | h
  · exact ⟨Or.inl hd, fun _ _ => rfl⟩
  · exact hk st h

/-- **C75** (part) On one device the final path has its old content, nothing, or the complete new content
at every crash point; if there was no old file, there is nothing or the complete new content.  Missing:
the old content is removed before the new one is in place (`C75_atomic_fails`). -/
theorem C75_atomic_partial (env : FsEnv D) (fname t : FPath) (must : Bool) (fs0 : FS D) (s : StagedOut)
    (hinit : (StagedOut.init env fname (some t) must fs0).out = .ok s)
    (hname : fname ≠ []) (htmp : t ≠ fname.dropLast)
    (fs : FS D) (hwf : fs.WF) (d : D) (hd : fs.files s.path = some d)
    (hdev : env.sameDevice s.path fname = true) :
    ∀ st ∈ crashStates (s.stageOut env) fs,
      st.files fname = fs.files fname ∨ st.files fname = none ∨ st.files fname = some d := by
  have hs := init_eq hinit
  dsimp only [storedOut] at hs
  have hpath : s.path ≠ fname := by
    rw [hs]; exact join_base_ne hname htmp
  have hfin : s.finalPath = fname := by rw [hs]
  have htrue : s.isTemp = true ∧ s.wasStagedOut = false := by
    rw [hs]; exact ⟨decide_eq_true htmp, rfl⟩
  have hex : fs.exists s.path = true := by simp [FS.exists, hd]
  let P : FS D → Prop := fun st => st.files s.path = some d ∧
    (st.files fname = fs.files fname ∨ st.files fname = none)
  let Q : FS D → Prop := fun st =>
    st.files fname = fs.files fname ∨ st.files fname = none ∨ st.files fname = some d
  have hPQ : ∀ st, P st → Q st := fun st h => h.2.elim Or.inl fun h => Or.inr (Or.inl h)
  have hmove : ∀ st : FS D, P st → st.dirs fname = false →
      (∀ x ∈ (shMove env s.path fname st).trace, Q x) ∧ Q (shMove env s.path fname st).fs := by
    intro st hst hdir
    rw [shMove, FM.get_bind, if_neg (by simp [hdir]), shMoveTo, FM.get_bind, hst.1]
    dsimp only
    split
    · have : Q ((st.set s.path none).set fname (some d)) := Or.inr (Or.inr (by simp [FS.set]))
      exact FM.Keeps.put this st
    · rename_i hc
      have hno : ¬ st.dirs (FPath.dir fname) = true := fun h => hc ⟨hdev, h, hdir⟩
      have e : shCopy env s.path fname st = ⟨[], st, .error .ioError⟩ := by
        rw [shCopy, FM.get_bind, hst.1]
        dsimp only
        rw [if_neg hno]
        rfl
      rw [FM.bind_def, e]
      exact ⟨fun x hx => by simp at hx, hPQ st hst⟩
  have hrest : ∀ st : FS D, P st → st.dirs fname = false →
      (∀ x ∈ ((makedirFromfile env fname >>= fun _ => shMove env s.path fname) st).trace, Q x) ∧
      Q ((makedirFromfile env fname >>= fun _ => shMove env s.path fname) st).fs := by
    intro st hst hdir
    obtain ⟨e1, -, e3, -⟩ := makedirFromfile_result env fname st
    obtain ⟨k1, k2⟩ := makedirFromfile_keeps (P := P) env fname (fun _ _ h => h) st hst
    rw [FM.bind_def, e1]
    dsimp only
    obtain ⟨k3, k4⟩ := hmove _ k2 ((e3 hname).trans hdir)
    refine ⟨fun x hx => ?_, k4⟩
    rcases List.mem_append.1 hx with hx | hx
    · exact hPQ _ (k1 x hx)
    · exact k3 x hx
  have hP : P fs := ⟨hd, Or.inl rfl⟩
  have hall : (∀ x ∈ (s.publish env fs).trace, Q x) ∧ Q (s.publish env fs).fs := by
    rw [StagedOut.publish, FM.get_bind, hfin]
    unfold FM.cond
    split
    · rw [FM.bind_def]
      obtain ⟨k1, k2⟩ := osRemove_keeps (P := P) (p := fname)
        (fun st h => ⟨by simp [FS.set, hpath, h.1], Or.inr (by simp [FS.set])⟩) fs hP
      cases ho : (osRemove fname fs).out with
      | error e => exact ⟨fun x hx => hPQ _ (k1 x hx), hPQ _ k2⟩
      | ok u =>
        dsimp only
        obtain ⟨g1, g2, -⟩ := osRemove_ok ho
        obtain ⟨k3, k4⟩ := hrest (osRemove fname fs).fs k2 (by
          rw [g2]; exact hwf.disjoint _ g1)
        refine ⟨fun x hx => ?_, k4⟩
        rcases List.mem_append.1 hx with hx | hx
        · exact hPQ _ (k1 x hx)
        · exact k3 x hx
    · rename_i hno
      rw [FM.bind_def, FM.pure_def]
      dsimp only
      rw [List.nil_append]
      refine hrest fs hP ?_
      simp only [FS.exists, Bool.or_eq_true, not_or, Bool.not_eq_true] at hno
      exact hno.2
  have e : (s.stageOut env fs).trace = (s.publish env fs).trace ∧
      (s.stageOut env fs).fs = (s.publish env fs).fs := by
    rw [StagedOut.stageOut, FM.get_bind, if_pos htrue, if_pos hex, FM.bind_def]
    split <;> simp [FM.pure_def]
  intro st hst
  simp only [crashStates, e.1, e.2, List.cons_append, List.mem_cons, List.mem_append,
    List.not_mem_nil, or_false] at hst
  rcases hst with rfl | h | rfl
  · exact Or.inl rfl
  · exact hall.1 st h
  · exact hall.2

/-! ### StagedInFile -/

theorem setPaths_ne {fname : FPath} {tmpdir : Option FPath} (hname : fname ≠ [])
    (h : (StagedIn.setPaths fname tmpdir).doStage = true) :
    (StagedIn.setPaths fname tmpdir).path ≠ fname := by
  cases tmpdir with
  | none => simp [StagedIn.setPaths] at h
  | some t => exact join_base_ne hname (of_decide_eq_true h)

/-- The paths of an object never change. -/
structure StagedIn.Sane (s : StagedIn) (fname : FPath) : Prop where
  orig : s.originalPath = fname
  staged : s.doStage = true → s.path ≠ fname
  unstaged : s.doStage = false → s.wasStagedIn = false ∧ s.path = fname

theorem setPaths_sane {fname : FPath} (tmpdir : Option FPath) (hname : fname ≠ []) :
    (StagedIn.setPaths fname tmpdir).Sane fname := by
  refine ⟨by cases tmpdir <;> rfl, setPaths_ne hname, fun h => ?_⟩
  cases tmpdir with
  | none => exact ⟨rfl, rfl⟩
  | some t =>
    have ht : t = fname.dir := by simpa [StagedIn.setPaths] using h
    exact ⟨rfl, by rw [StagedIn.setPaths, ht]; exact join_base_self hname⟩

/-- All states of `stage_in`: only the copy changes. -/
theorem stageIn_states (env : FsEnv D) (s : StagedIn) (fs : FS D) :
    ∀ st ∈ crashStates (s.stageIn env) fs,
      if s.doStage = true then SameFilesExcept [s.path] st fs else st = fs := by
  by_cases h : s.doStage = true
  · simp only [h, if_true]
    have hset : ∀ (st : FS D) x, SameFilesExcept [s.path] st fs → SameFilesExcept [s.path] (st.set s.path x) fs := by
      intro st x hst q hq
      have hq' := hq
      rw [List.mem_singleton] at hq'
      simp only [FS.set, hq', if_false]
      exact hst q hq
    have hk : (s.stageIn env).Keeps (fun st => SameFilesExcept [s.path] st fs) := by
      refine FM.Keeps.get fun st hst => ?_
      rw [if_pos h]
      split
      · refine FM.Keeps.bind ?_ (fun _ => FM.Keeps.bind ?_ fun _ => FM.Keeps.pure _) st hst
        · unfold FM.cond
          split
          · exact osRemove_keeps fun st h => hset st none h
          · exact makedirFromfile_keeps env _ fun _ _ h => h
        · exact shCopy_keeps env fun st x h => hset st (some x) h
      · exact FM.Keeps.raise _ st hst
    obtain ⟨h1, h2⟩ := hk fs fun _ _ => rfl
    intro st hst
    simp only [crashStates, List.cons_append, List.mem_cons, List.mem_append, List.not_mem_nil, or_false] at hst
    rcases hst with rfl | h | rfl
    · exact fun _ _ => rfl
    · exact h1 st h
    · exact h2
  · intro st hst
    rw [if_neg h]
    simp only [crashStates, List.cons_append, List.mem_cons, List.mem_append, List.not_mem_nil, or_false,
      StagedIn.stageIn, FM.get_bind, if_neg h, FM.pure_def, false_or, or_self] at hst
    exact hst

theorem stageIn_ok {env : FsEnv D} {s s' : StagedIn} {fs : FS D} {fname : FPath} (hs : s.Sane fname)
    (h : (s.stageIn env fs).out = .ok s') :
    if s.doStage = true then s' = { s with wasStagedIn := true } ∧
      ∃ d, fs.files fname = some d ∧ (s.stageIn env fs).fs.files s.path = some d
    else s' = s := by
  rw [StagedIn.stageIn, FM.get_bind] at h ⊢
  by_cases hd : s.doStage = true
  · rw [if_pos hd] at h ⊢
    rw [if_pos hd]
    split at h
    · rename_i hx
      rw [if_pos hx]
      rw [FM.bind_def] at h ⊢
      cases h1 : (FM.cond (fs.exists s.path) (osRemove s.path) (makedirFromfile env s.path) fs).out with
      | error e => simp [h1] at h
      | ok u =>
        rw [h1] at h
        dsimp only at h ⊢
        rw [FM.bind_def] at h ⊢
        cases h2 : (shCopy env s.originalPath s.path
            (FM.cond (fs.exists s.path) (osRemove s.path) (makedirFromfile env s.path) fs).fs).out with
        | error e => simp [h2] at h
        | ok u' =>
          rw [h2] at h
          simp only [FM.pure_def] at h ⊢
          refine ⟨(Except.ok.inj h).symm, ?_⟩
          obtain ⟨d, e1, e2, -⟩ := shCopy_ok h2
          refine ⟨d, ?_, by rw [e2]; simp [FS.set]⟩
          rw [hs.orig] at e1
          rw [← e1]
          unfold FM.cond at h1 ⊢
          split at h1
          · rename_i hc
            rw [if_pos hc]
            rw [(osRemove_ok h1).2.1]
            simp [FS.set, Ne.symm (hs.staged hd)]
          · rename_i hc
            rw [if_neg hc, (makedirFromfile_result env s.path fs).2.1]
    · simp [FM.raise] at h
  · rw [if_neg hd] at h
    rw [if_neg hd]
    exact (Except.ok.inj h).symm

/-- **C76** Construction of a `StagedInFile`: at every point, also if it raises, the original is as it
was and no other file than the copy has changed.  On success the path to read has the content of the
original; it is the original itself, and nothing was changed, exactly when no staging is done. -/
theorem C76_construct (env : FsEnv D) (fname : FPath) (tmpdir : Option FPath) (fs : FS D)
    (hname : fname ≠ []) :
    (∀ st ∈ crashStates (StagedIn.init env fname tmpdir) fs, st.files fname = fs.files fname) ∧
    ∀ s, (StagedIn.init env fname tmpdir fs).out = .ok s →
      (∀ st ∈ crashStates (StagedIn.init env fname tmpdir) fs, SameFilesExcept [s.path] st fs) ∧
      (StagedIn.init env fname tmpdir fs).fs.files s.path = fs.files fname ∧
      (tmpdir = none ∨ tmpdir = some fname.dropLast →
        s.path = fname ∧ (StagedIn.init env fname tmpdir fs).fs = fs) ∧
      (∀ t, tmpdir = some t → t ≠ fname.dropLast → s.path ≠ fname ∧ s.path.dropLast = t ∧
        ((StagedIn.init env fname tmpdir fs).fs.files s.path).isSome = true) := by
  have hs := setPaths_sane tmpdir hname
  have hst := stageIn_states env (StagedIn.setPaths fname tmpdir) fs
  have hend : (StagedIn.init env fname tmpdir fs).fs ∈ crashStates (StagedIn.init env fname tmpdir) fs := by
    simp [crashStates]
  refine ⟨fun st h => ?_, fun s hok => ?_⟩
  · have := hst st h
    split at this
    · rename_i hd
      exact this fname (by simpa using Ne.symm (hs.staged hd))
    · rw [this]
  · have hres := stageIn_ok hs hok
    by_cases hd : (StagedIn.setPaths fname tmpdir).doStage = true
    · rw [if_pos hd] at hres
      obtain ⟨rfl, d, e1, e2⟩ := hres
      simp only [hd, if_true] at hst
      refine ⟨hst, ?_, fun ht => ?_, fun t ht hne => ⟨hs.staged hd, ?_, ?_⟩⟩
      · rw [e1]; exact e2
      · exfalso
        rcases ht with rfl | rfl
        · simp [StagedIn.setPaths] at hd
        · simp [StagedIn.setPaths, FPath.dir] at hd
      · subst ht
        simp [StagedIn.setPaths, FPath.join, FPath.base, List.getLast?_eq_getLast_of_ne_nil hname]
      · rw [show (StagedIn.init env fname tmpdir fs).fs.files (StagedIn.setPaths fname tmpdir).path = some d
          from e2]
        rfl
    · rw [if_neg hd] at hres
      subst hres
      simp only [hd] at hst
      have hd' : (StagedIn.setPaths fname tmpdir).doStage = false := by simpa using hd
      refine ⟨fun st h => by rw [hst st h]; exact fun _ _ => rfl, ?_, fun _ => ⟨(hs.unstaged hd').2, hst _ hend⟩,
        fun t ht hne => ?_⟩
      · rw [hst _ hend, (hs.unstaged hd').2]
      · subst ht
        exact absurd hne (of_decide_eq_false hd')

theorem cleanup_result (s : StagedIn) (fs : FS D) (hwf : fs.dirs s.path = false) :
    (s.wasStagedIn = true ∧ (fs.files s.path).isSome = true →
      s.cleanup fs = ⟨[fs.set s.path none], fs.set s.path none, .ok { s with wasStagedIn := false }⟩) ∧
    (¬ (s.wasStagedIn = true ∧ (fs.files s.path).isSome = true) → s.cleanup fs = ⟨[], fs, .ok s⟩) := by
  have he : fs.exists s.path = (fs.files s.path).isSome := by simp [FS.exists, hwf]
  refine ⟨fun h => ?_, fun h => ?_⟩
  · rw [StagedIn.cleanup, FM.get_bind, if_pos (he ▸ h), FM.bind_def, osRemove, FM.get_bind, if_pos h.2]
    rfl
  · rw [StagedIn.cleanup, FM.get_bind, if_neg (he ▸ h), FM.pure_def]

/-- **C76** After construction, cleanup removes the copy and nothing else, and the original stays; with
no staging it changes nothing; a second cleanup changes nothing. -/
theorem C76_cleanup (env : FsEnv D) (fname : FPath) (tmpdir : Option FPath) (fs0 : FS D)
    (hname : fname ≠ []) (s : StagedIn) (hinit : (StagedIn.init env fname tmpdir fs0).out = .ok s)
    (fs : FS D) (hdir : fs.dirs s.path = false) :
    ∃ s', (s.cleanup fs).out = .ok s' ∧
      (s.cleanup fs).fs.files fname = fs.files fname ∧
      SameFilesExcept [s.path] (s.cleanup fs).fs fs ∧
      (s.path ≠ fname → (s.cleanup fs).fs.files s.path = none) ∧
      (s.path = fname → s.cleanup fs = ⟨[], fs, .ok s⟩) ∧
      s'.cleanup (s.cleanup fs).fs = ⟨[], (s.cleanup fs).fs, .ok s'⟩ := by
  have hs := setPaths_sane tmpdir hname
  have hres := stageIn_ok hs hinit
  obtain ⟨c1, c2⟩ := cleanup_result s fs hdir
  by_cases hd : (StagedIn.setPaths fname tmpdir).doStage = true
  · rw [if_pos hd] at hres
    have hp : s.path ≠ fname := by rw [hres.1]; exact hs.staged hd
    have hw : s.wasStagedIn = true := by rw [hres.1]
    by_cases hf : (fs.files s.path).isSome = true
    · rw [c1 ⟨hw, hf⟩]
      refine ⟨_, rfl, by simp [FS.set, Ne.symm hp], fun q hq => ?_, fun _ => by simp [FS.set],
        fun h => absurd h hp, ?_⟩
      · rw [List.mem_singleton] at hq
        simp [FS.set, hq]
      · rw [StagedIn.cleanup, FM.get_bind, if_neg (by simp), FM.pure_def]
    · have e := c2 fun h => hf h.2
      rw [e]
      refine ⟨_, rfl, rfl, fun _ _ => rfl, fun _ => by simpa using hf, fun h => absurd h hp, e⟩
  · rw [if_neg hd] at hres
    subst hres
    have hd' : (StagedIn.setPaths fname tmpdir).doStage = false := by simpa using hd
    have e := c2 fun h => by simp [(hs.unstaged hd').1] at h
    rw [e]
    exact ⟨_, rfl, rfl, fun _ _ => rfl, fun h => absurd (hs.unstaged hd').2 h, fun _ => rfl, e⟩

theorem cleanup_files (s : StagedIn) (fs : FS D) (q : FPath) (hq : s.wasStagedIn = true → q ≠ s.path) :
    (s.cleanup fs).fs.files q = fs.files q := by
  rw [StagedIn.cleanup, FM.get_bind]
  split
  · rename_i h
    rw [FM.bind_def, osRemove, FM.get_bind]
    by_cases hf : (fs.files s.path).isSome = true
    · rw [if_pos hf]
      simp [FM.put, FM.pure_def, FS.set, hq h.1]
    · rw [if_neg hf]
      simp [FM.raise]
  · rfl

theorem cleanup_sane {s s' : StagedIn} {fs : FS D} {fname : FPath} (hs : s.Sane fname)
    (h : (s.cleanup fs).out = .ok s') : s'.Sane fname := by
  rw [StagedIn.cleanup, FM.get_bind] at h
  split at h
  · rw [FM.bind_def] at h
    split at h
    · cases h
    · simp only [FM.pure_def] at h
      rw [← Except.ok.inj h]
      exact ⟨hs.orig, hs.staged, fun hd => ⟨rfl, (hs.unstaged hd).2⟩⟩
  · rw [← Except.ok.inj h]
    exact hs

/-- **C76** In every history of further cleanups and stagings, with arbitrary other activity that leaves
the original alone in between, the original keeps its content. -/
theorem C76_history (env : FsEnv D) (fname : FPath) (tmpdir : Option FPath) (fs0 : FS D)
    (hname : fname ≠ []) (s : StagedIn) (hinit : (StagedIn.init env fname tmpdir fs0).out = .ok s)
    (l : List (InOp D))
    (hother : ∀ g, InOp.other g ∈ l → ∀ fs, (g fs).files fname = fs.files fname) :
    (runIn env s (StagedIn.init env fname tmpdir fs0).fs l).2.files fname = fs0.files fname := by
  have hs0 := setPaths_sane tmpdir hname
  have hs : s.Sane fname := by
    have := stageIn_ok hs0 hinit
    split at this
    · rename_i hd
      rw [this.1]
      exact ⟨hs0.orig, hs0.staged, fun h => absurd h (by simp [hd])⟩
    · rw [this]; exact hs0
  have hstart := (C76_construct env fname tmpdir fs0 hname).1 (StagedIn.init env fname tmpdir fs0).fs
    (by simp [crashStates])
  rw [← hstart]
  generalize (StagedIn.init env fname tmpdir fs0).fs = fs
  clear hstart hinit
  induction l generalizing s fs with
  | nil => rfl
  | cons o l ih =>
    have ih' := fun s hs fs => ih s (fun g hg => hother g (List.mem_cons_of_mem _ hg)) hs fs
    cases o with
    | other g =>
      rw [runIn, ih' s hs]
      exact hother g (by simp) fs
    | cleanup =>
      have hne : s.wasStagedIn = true → fname ≠ s.path := by
        intro h he
        cases hd : s.doStage with
        | true => exact hs.staged hd he.symm
        | false => simp [(hs.unstaged hd).1] at h
      rw [runIn]
      split
      · rename_i s' hok
        rw [ih' s' (cleanup_sane hs hok), cleanup_files s fs fname hne]
      · rw [ih' s hs, cleanup_files s fs fname hne]
    | stageIn =>
      have hfile : (s.stageIn env fs).fs.files fname = fs.files fname := by
        have := stageIn_states env s fs (s.stageIn env fs).fs (by simp [crashStates])
        split at this
        · rename_i hd
          exact this fname (by simpa using Ne.symm (hs.staged hd))
        · rw [this]
      rw [runIn]
      split
      · rename_i s' hok
        have hs' : s'.Sane fname := by
          have := stageIn_ok hs hok
          split at this
          · rename_i hd
            rw [this.1]
            exact ⟨hs.orig, hs.staged, fun h => absurd h (by simp [hd])⟩
          · rw [this]; exact hs
        rw [ih' s' hs', hfile]
      · rw [ih' s hs, hfile]

end Pizza
