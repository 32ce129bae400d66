import Verif.Model.CliRun
import Verif.Props.Publish

/-!
What a run, and the command line program, leave behind, in any case: success, exception or crash (C105,
C106).
-/

namespace Pizza
variable {D : Type}

theorem same_set {S : List FPath} {p : FPath} (hp : p ∈ S) {st fs : FS D} (x : Option D)
    (h : SameFilesExcept S st fs) : SameFilesExcept S (st.set p x) fs := by
  intro q hq
  have : q ≠ p := fun e => hq (e ▸ hp)
  simp only [FS.set, this, if_false]
  exact h q hq

/-- Keeping a property is enough for all states of a run. -/
theorem keeps_crash {α : Type} {P : FS D → Prop} {m : FM D α} (h : m.Keeps P) {fs : FS D} (hp : P fs) :
    ∀ st ∈ crashStates m fs, P st := by
  intro st hst
  obtain ⟨h1, h2⟩ := h fs hp
  simp only [crashStates, List.cons_append, List.mem_cons, List.mem_append, List.not_mem_nil, or_false] at hst
  rcases hst with rfl | h | rfl
  · exact hp
  · exact h1 _ h
  · exact h2

theorem always_keeps {α : Type} {P : FS D → Prop} {m : FM D Unit} {fin : FM D α} (hm : m.Keeps P)
    (hf : fin.Keeps P) : (FM.always m fin).Keeps P := by
  intro fs h
  obtain ⟨h1, h2⟩ := hm fs h
  obtain ⟨h3, h4⟩ := hf _ h2
  refine ⟨fun st hst => ?_, h4⟩
  rcases List.mem_append.1 hst with h | h
  · exact h1 st h
  · exact h3 st h

theorem body_keeps {P : FS D → Prop} (c : Compute D) (pk : Fpack D) (rm : Bool) (d : FPath) (n : String)
    (h : ∀ st p x, p = d ++ [n] ∨ p = d ++ [n ++ ".fz"] → P st → P (st.set p x)) :
    (publishBody c pk rm (d ++ [n ++ ".fz"])).Keeps P := by
  unfold publishBody
  rw [chop3_append, addFz_append]
  refine FM.Keeps.bind ?_ fun _ => FM.Keeps.bind ?_ fun _ => FM.Keeps.bind ?_ fun _ => FM.Keeps.bind ?_ fun _ => ?_
  · refine FM.Keeps.get fun fs hp => ?_
    split
    · exact FM.Keeps.put (h _ _ _ (.inl rfl) hp) fs
    · exact FM.Keeps.raise _ fs hp
  · unfold raiseIf
    split
    · exact FM.Keeps.pure _
    · exact FM.Keeps.raise _
  · refine FM.Keeps.get fun fs hp => ?_
    split
    · exact osRemove_keeps (fun fs => h fs _ _ (.inr rfl)) fs hp
    · exact FM.Keeps.pure _ fs hp
  · refine FM.Keeps.get fun fs hp => ?_
    cases pk.left with
    | none => exact FM.Keeps.pure _ fs hp
    | some x => exact FM.Keeps.put (h _ _ _ (.inr rfl) hp) fs
  · unfold FM.cond
    split
    · exact osRemove_keeps fun fs => h fs _ _ (.inl rfl)
    · exact FM.Keeps.pure _

theorem validate_keeps {P : FS D → Prop} (valid : D → Bool) (p : FPath) : (validateFile valid p).Keeps P := by
  refine FM.Keeps.get fun fs hp => ?_
  cases fs.files p with
  | none => exact FM.Keeps.raise _ fs hp
  | some x =>
    dsimp only
    by_cases hv : valid x = true
    · rw [if_pos hv]; exact FM.Keeps.pure _ fs hp
    · rw [if_neg hv]; exact FM.Keeps.raise _ fs hp

/-- Staging out touches the two paths only, provided the final path is not at the same time a file and a
directory. -/
theorem stageOut_frame (env : FsEnv D) (s : StagedOut) (S : List FPath) (hp : s.path ∈ S)
    (hf : s.finalPath ∈ S) (h0 : s.finalPath ≠ []) (fs0 fs : FS D) (hs : SameFilesExcept S fs fs0)
    (hj : (fs.files s.finalPath).isSome = true → fs.dirs s.finalPath = false) :
    (∀ st ∈ (s.stageOut env fs).trace, SameFilesExcept S st fs0) ∧
      SameFilesExcept S (s.stageOut env fs).fs fs0 := by
  have hmove : ∀ st : FS D, SameFilesExcept S st fs0 → st.dirs s.finalPath = false →
      (∀ x ∈ (shMove env s.path s.finalPath st).trace, SameFilesExcept S x fs0) ∧
        SameFilesExcept S (shMove env s.path s.finalPath st).fs fs0 := by
    intro st hst hdir
    rw [shMove, FM.get_bind, if_neg (by simp [hdir])]
    have hk : (shMoveTo env s.path s.finalPath).Keeps fun x => SameFilesExcept S x fs0 := by
      refine FM.Keeps.get fun fs1 h1 => ?_
      cases fs1.files s.path with
      | none => exact FM.Keeps.raise _ fs1 h1
      | some d =>
        dsimp only
        split
        · exact FM.Keeps.put (P := fun x => SameFilesExcept S x fs0) (same_set hf _ (same_set hp _ h1)) fs1
        · exact FM.Keeps.bind (shCopy_keeps env fun _ _ => same_set hf _)
            (fun _ => osRemove_keeps fun _ => same_set hp _) fs1 h1
    exact hk st hst
  have hrest : ∀ st : FS D, SameFilesExcept S st fs0 → st.dirs s.finalPath = false →
      (∀ x ∈ ((makedirFromfile env s.finalPath >>= fun _ => shMove env s.path s.finalPath) st).trace,
        SameFilesExcept S x fs0) ∧
      SameFilesExcept S ((makedirFromfile env s.finalPath >>= fun _ => shMove env s.path s.finalPath) st).fs
        fs0 := by
    intro st hst hdir
    obtain ⟨e1, -, e3, -⟩ := makedirFromfile_result env s.finalPath st
    obtain ⟨k1, k2⟩ := makedirFromfile_keeps (P := fun x => SameFilesExcept S x fs0) env s.finalPath
      (fun _ _ h => h) st hst
    rw [FM.bind_def, e1]
    dsimp only
    obtain ⟨k3, k4⟩ := hmove _ k2 ((e3 h0).trans hdir)
    refine ⟨fun x hx => ?_, k4⟩
    rcases List.mem_append.1 hx with hx | hx
    · exact k1 x hx
    · exact k3 x hx
  have hpub : (∀ st ∈ (s.publish env fs).trace, SameFilesExcept S st fs0) ∧
      SameFilesExcept S (s.publish env fs).fs fs0 := by
    rw [StagedOut.publish, FM.get_bind]
    unfold FM.cond
    split
    · rw [FM.bind_def]
      obtain ⟨k1, k2⟩ := osRemove_keeps (P := fun x => SameFilesExcept S x fs0) (p := s.finalPath)
        (fun _ => same_set hf _) fs hs
      cases ho : (osRemove s.finalPath fs).out with
      | error e => exact ⟨k1, k2⟩
      | ok u =>
        dsimp only
        obtain ⟨g1, g2, -⟩ := osRemove_ok ho
        obtain ⟨k3, k4⟩ := hrest (osRemove s.finalPath fs).fs k2 (by rw [g2]; exact hj g1)
        refine ⟨fun x hx => ?_, k4⟩
        rcases List.mem_append.1 hx with hx | hx
        · exact k1 x hx
        · exact k3 x hx
    · rename_i hex
      rw [FM.bind_def, FM.pure_def]
      dsimp only
      rw [List.nil_append]
      refine hrest fs hs ?_
      simp only [FS.exists, Bool.or_eq_true, not_or, Bool.not_eq_true] at hex
      exact hex.2
  rw [StagedOut.stageOut, FM.get_bind]
  split
  · split
    · rw [FM.bind_def]
      split
      · exact hpub
      · simpa [FM.pure_def] using hpub
    · split
      · exact FM.Keeps.raise _ fs hs
      · exact FM.Keeps.pure _ fs hs
  · exact FM.Keeps.pure _ fs hs

/-- **C105** In every state a run goes through, whether it returns, raises or crashes, `d` being the
directory that is worked in, no file is touched except the FITS file and its compressed twin there and
the output. -/
theorem C105_frame (env : FsEnv D) (dir : FPath) (n : String) (tmpdir : Option FPath)
    (c : Compute D) (pk : Fpack D) (rm : Bool) (valid : D → Bool) (fs : FS D) (hwf : fs.WF) (d : FPath)
    (hd : d = tmpdir.getD dir) :
    ∀ st ∈ crashStates (publishRun env (dir ++ [n]) tmpdir c pk rm valid) fs,
      SameFilesExcept [d ++ [n], d ++ [n ++ ".fz"], dir ++ [n ++ ".fz"]] st fs := by
  let S : List FPath := [d ++ [n], d ++ [n ++ ".fz"], dir ++ [n ++ ".fz"]]
  suffices h : (∀ st ∈ (publishRun env (dir ++ [n]) tmpdir c pk rm valid fs).trace, SameFilesExcept S st fs) ∧
      SameFilesExcept S (publishRun env (dir ++ [n]) tmpdir c pk rm valid fs).fs fs by
    intro st hst
    simp only [crashStates, List.cons_append, List.mem_cons, List.mem_append, List.not_mem_nil, or_false]
      at hst
    rcases hst with rfl | h' | rfl
    · exact fun _ _ => rfl
    · exact h.1 _ h'
    · exact h.2
  have h00 : SameFilesExcept S fs fs := fun _ _ => rfl
  unfold publishRun
  rw [addFz_append, FM.bind_def]
  obtain ⟨k1, k2, -, -⟩ := makedirFromfile_result env (dir ++ [n]) fs
  obtain ⟨m1, m2⟩ := makedirFromfile_keeps (P := fun x => SameFilesExcept S x fs) env (dir ++ [n])
    (fun _ _ h => h) fs h00
  have dj := makedirFromfile_disj env (dir ++ [n]) (fs := fs) hwf.disjoint
  rw [k1]
  dsimp only
  generalize (makedirFromfile env (dir ++ [n]) fs).fs = fs1 at m2 dj k2 ⊢
  suffices h : ∀ st ∈ ((StagedOut.init env (dir ++ [n ++ ".fz"]) tmpdir false >>= fun s =>
      FM.always (publishBody c pk rm s.path) (s.stageOut env) >>= fun _ =>
      validateFile valid (dir ++ [n ++ ".fz"])) fs1).trace ++
      [((StagedOut.init env (dir ++ [n ++ ".fz"]) tmpdir false >>= fun s =>
      FM.always (publishBody c pk rm s.path) (s.stageOut env) >>= fun _ =>
      validateFile valid (dir ++ [n ++ ".fz"])) fs1).fs], SameFilesExcept S st fs by
    refine ⟨fun st hst => ?_, h _ (by simp)⟩
    rcases List.mem_append.1 hst with h' | h'
    · exact m1 st h'
    · exact h st (List.mem_append_left _ h')
  suffices h : (∀ st ∈ ((StagedOut.init env (dir ++ [n ++ ".fz"]) tmpdir false >>= fun s =>
      FM.always (publishBody c pk rm s.path) (s.stageOut env) >>= fun _ =>
      validateFile valid (dir ++ [n ++ ".fz"])) fs1).trace, SameFilesExcept S st fs) ∧
      SameFilesExcept S ((StagedOut.init env (dir ++ [n ++ ".fz"]) tmpdir false >>= fun s =>
      FM.always (publishBody c pk rm s.path) (s.stageOut env) >>= fun _ =>
      validateFile valid (dir ++ [n ++ ".fz"])) fs1).fs fs by
    intro st hst
    rcases List.mem_append.1 hst with h' | h'
    · exact h.1 st h'
    · rw [List.mem_singleton.1 h']; exact h.2
  rw [FM.bind_def]
  have hi := C73_construct env (dir ++ [n ++ ".fz"]) tmpdir false fs1
  have i1 : ∀ st ∈ (StagedOut.init env (dir ++ [n ++ ".fz"]) tmpdir false fs1).trace,
      SameFilesExcept S st fs := by
    intro st hst q hq
    rw [hi st (by simp [crashStates, hst]), k2]
  obtain ⟨dj2, fl2⟩ := init_state env (dir ++ [n ++ ".fz"]) tmpdir false dj
  rw [k2] at fl2
  cases hs : (StagedOut.init env (dir ++ [n ++ ".fz"]) tmpdir false fs1).out with
  | error e => exact ⟨i1, fun q _ => by rw [fl2]⟩
  | ok s =>
    dsimp only
    have hseq := init_eq hs
    have hpath : s.path = d ++ [n ++ ".fz"] ∧
        ((s.isTemp = false ∧ d = dir) ∨ (s.isTemp = true ∧ d ≠ dir)) ∧ s.finalPath = dir ++ [n ++ ".fz"] := by
      subst hd
      cases tmpdir with
      | none =>
        subst hseq
        unfold storedOut
        simp
      | some t =>
        subst hseq
        unfold storedOut
        by_cases ht : t = dir
        · simp [FPath.join, FPath.base, FPath.dir, ht]
        · simp [FPath.join, FPath.base, FPath.dir, ht]
    obtain ⟨hp, htemp, hfin⟩ := hpath
    generalize (StagedOut.init env (dir ++ [n ++ ".fz"]) tmpdir false fs1).fs = fs2 at fl2 dj2 ⊢
    have h2 : SameFilesExcept S fs2 fs := fun q _ => by rw [fl2]
    -- the body
    let P : FS D → Prop := fun st => SameFilesExcept S st fs ∧
      (d ≠ dir → (st.files (dir ++ [n ++ ".fz"])).isSome = true → st.dirs (dir ++ [n ++ ".fz"]) = false)
    have hbody : (publishBody c pk rm s.path).Keeps P := by
      rw [hp]
      refine body_keeps c pk rm d n fun st p x hpx hst => ⟨same_set ?_ _ hst.1, fun hne h => hst.2 hne ?_⟩
      · rcases hpx with rfl | rfl <;> simp [S]
      · have : dir ++ [n ++ ".fz"] ≠ p := by
          rcases hpx with rfl | rfl
          · intro e
            exact append_fz_ne n (List.cons.inj (List.append_inj' e rfl).2).1
          · intro e
            exact hne (List.append_cancel_right e).symm
        simpa [FS.set, this] using h
    have hP2 : P fs2 := ⟨h2, fun _ h => dj2 _ h⟩
    obtain ⟨b1, b2⟩ := hbody fs2 hP2
    -- the exit handler
    have hexit : (∀ st ∈ (s.stageOut env (publishBody c pk rm s.path fs2).fs).trace, SameFilesExcept S st fs) ∧
        SameFilesExcept S (s.stageOut env (publishBody c pk rm s.path fs2).fs).fs fs := by
      rcases htemp with ⟨ht, hdd⟩ | ⟨ht, hdd⟩
      · rw [StagedOut.stageOut, FM.get_bind, if_neg (by simp [ht])]
        exact FM.Keeps.pure (P := fun x => SameFilesExcept S x fs) _ _ b2.1
      · refine stageOut_frame env s S (by rw [hp]; simp [S]) (by rw [hfin]; simp [S]) (by rw [hfin]; simp) fs _
          b2.1 ?_
        rw [hfin]
        exact b2.2 hdd
    have halways : (∀ st ∈ (FM.always (publishBody c pk rm s.path) (s.stageOut env) fs2).trace,
        SameFilesExcept S st fs) ∧
        SameFilesExcept S (FM.always (publishBody c pk rm s.path) (s.stageOut env) fs2).fs fs := by
      refine ⟨fun st hst => ?_, hexit.2⟩
      rcases List.mem_append.1 hst with h | h
      · exact (b1 st h).1
      · exact hexit.1 st h
    have hrest : (∀ st ∈ ((FM.always (publishBody c pk rm s.path) (s.stageOut env) >>= fun _ =>
        validateFile valid (dir ++ [n ++ ".fz"])) fs2).trace, SameFilesExcept S st fs) ∧
        SameFilesExcept S ((FM.always (publishBody c pk rm s.path) (s.stageOut env) >>= fun _ =>
          validateFile valid (dir ++ [n ++ ".fz"])) fs2).fs fs := by
      rw [FM.bind_def]
      cases (FM.always (publishBody c pk rm s.path) (s.stageOut env) fs2).out with
      | error e => exact halways
      | ok u =>
        dsimp only
        obtain ⟨v1, v2⟩ := validate_keeps (P := fun x => SameFilesExcept S x fs) valid (dir ++ [n ++ ".fz"]) _
          halways.2
        refine ⟨fun st hst => ?_, v2⟩
        rcases List.mem_append.1 hst with h | h
        · exact halways.1 st h
        · exact v1 st h
    refine ⟨fun st hst => ?_, hrest.2⟩
    rcases List.mem_append.1 hst with h | h
    · exact i1 st h
    · exact hrest.1 st h

/-- Nothing is below a path that does not exist. -/
theorem FS.WF.below {fs : FS D} (h : fs.WF) {t : FPath} (ht : fs.exists t = false) (l : FPath) :
    fs.files (t ++ l) = none ∧ fs.dirs (t ++ l) = false := by
  induction l using List.reverseRecOn with
  | nil =>
    simp only [FS.exists, Bool.or_eq_false_iff] at ht
    simpa using ht
  | append_singleton l a ih =>
    have hp : ¬ ((fs.files (t ++ (l ++ [a]))).isSome = true ∨ fs.dirs (t ++ (l ++ [a])) = true) := by
      intro hx
      have := h.parents _ hx
      rw [← List.append_assoc, List.dropLast_concat, ih.2] at this
      exact absurd this (by simp)
    simp only [not_or, Bool.not_eq_true, Option.isSome_eq_false_iff, Option.isNone_iff_eq_none] at hp
    exact hp

/-- Making a new directory leaves a proper file system. -/
theorem FS.WF.mkdir {fs : FS D} (h : fs.WF) {parent : FPath} {name : String} (hp : fs.dirs parent = true)
    (hx : fs.exists (parent ++ [name]) = false) :
    FS.WF { fs with dirs := fun q => fs.dirs q || decide (q = parent ++ [name]) } := by
  simp only [FS.exists, Bool.or_eq_false_iff] at hx
  refine ⟨by simp [h.root], fun p hf => ?_, fun p hf => ?_⟩
  · simp only [Bool.or_eq_false_iff, decide_eq_false_iff_not]
    refine ⟨h.disjoint p hf, ?_⟩
    rintro rfl
    simp only at hf
    rw [hx.1] at hf
    cases hf
  · simp only [Bool.or_eq_true, decide_eq_true_eq] at hf ⊢
    by_cases e : p = parent ++ [name]
    · left; rw [e, List.dropLast_concat]; exact hp
    · left
      apply h.parents
      rcases hf with hf | hf | hf
      · exact .inl hf
      · exact .inr hf
      · exact absurd hf e

/-- **C106** The program with a temporary directory (`--use-tmpdir` or `--tmpdir`), `t` being the new
directory: afterwards, in any case, no file has changed except the output and nothing is left below `t`;
at any time only the output and files below `t` differ from before; if anything raises before or during
the computation, the program fails and no file at all has changed, the output of an earlier run included. -/
theorem C106_tmpdir (env : FsEnv D) (dir : FPath) (n : String) (logLevel : PyStr) (useTmp : Bool)
    (tmpdir : Option FPath) (dflt : FPath) (name : String) (pre : Option Err) (c : Compute D) (pk : Fpack D)
    (valid : D → Bool) (fs : FS D) (hwf : fs.WF) (huse : useTmp = true ∨ tmpdir.isSome = true) (t : FPath)
    (ht : t = tmpdir.getD dflt ++ [name]) (hnew : fs.files t = none ∧ fs.dirs t = false)
    (hout : ¬ t <+: dir ++ [n ++ ".fz"]) :
    (∀ st ∈ crashStates (cliMain env (dir ++ [n]) logLevel useTmp tmpdir dflt name pre c pk valid) fs,
      ∀ q, q ≠ dir ++ [n ++ ".fz"] → ¬ t <+: q → st.files q = fs.files q) ∧
    SameFilesExcept [dir ++ [n ++ ".fz"]]
      (cliMain env (dir ++ [n]) logLevel useTmp tmpdir dflt name pre c pk valid fs).fs fs ∧
    (∀ q, t <+: q →
      (cliMain env (dir ++ [n]) logLevel useTmp tmpdir dflt name pre c pk valid fs).fs.dirs q = false) ∧
    (pre.isSome = true ∨ c.raised.isSome = true →
      (∃ e, (cliMain env (dir ++ [n]) logLevel useTmp tmpdir dflt name pre c pk valid fs).out = .error e) ∧
      (cliMain env (dir ++ [n]) logLevel useTmp tmpdir dflt name pre c pk valid fs).fs.files = fs.files) := by
  unfold cliMain
  rw [if_pos huse]
  unfold withTempDir
  rw [← ht]
  by_cases hmk : fs.dirs (tmpdir.getD dflt) = true ∧ fs.exists t = false
  swap
  · have e : (FM.get >>= fun fs : FS D =>
        if fs.dirs (tmpdir.getD dflt) = true ∧ fs.exists t = false then do
          FM.put { fs with dirs := fun q => fs.dirs q || decide (q = t) }
          FM.always (cliGo env (dir ++ [n]) logLevel pre c pk valid (some t)) (rmTree t)
        else FM.raise .ioError) fs = ⟨[], fs, .error .ioError⟩ := by
      rw [FM.get_bind, if_neg hmk]; rfl
    rw [crashStates, e]
    refine ⟨?_, fun _ _ => rfl, ?_, fun _ => ⟨⟨_, rfl⟩, rfl⟩⟩
    · intro st hst q _ _
      simp at hst
      rw [hst]
    · rintro q ⟨l, rfl⟩
      exact (hwf.below (by simp [FS.exists, hnew]) l).2
  obtain ⟨hpar, hfree⟩ := hmk
  have hwf1 := ht ▸ hwf.mkdir (name := name) hpar (ht ▸ hfree)
  generalize hfs1 : ({ fs with dirs := fun q => fs.dirs q || decide (q = t) } : FS D) = fs1 at hwf1
  have hf1 : fs1.files = fs.files := by rw [← hfs1]
  have e : (FM.get >>= fun fs : FS D =>
      if fs.dirs (tmpdir.getD dflt) = true ∧ fs.exists t = false then do
        FM.put { fs with dirs := fun q => fs.dirs q || decide (q = t) }
        FM.always (cliGo env (dir ++ [n]) logLevel pre c pk valid (some t)) (rmTree t)
      else FM.raise .ioError) fs =
      ⟨fs1 :: (FM.always (cliGo env (dir ++ [n]) logLevel pre c pk valid (some t)) (rmTree t) fs1).trace,
        (FM.always (cliGo env (dir ++ [n]) logLevel pre c pk valid (some t)) (rmTree t) fs1).fs,
        (FM.always (cliGo env (dir ++ [n]) logLevel pre c pk valid (some t)) (rmTree t) fs1).out⟩ := by
    rw [FM.get_bind, if_pos ⟨hpar, hfree⟩, FM.put_bind, hfs1]
  rw [crashStates, e]
  clear e
  dsimp only
  -- the run itself
  let P : FS D → Prop := fun st => ∀ q, q ≠ dir ++ [n ++ ".fz"] → ¬ t <+: q → st.files q = fs.files q
  have hP1 : P fs1 := fun q _ _ => by rw [hf1]
  have hgo : (∀ st ∈ (cliGo env (dir ++ [n]) logLevel pre c pk valid (some t) fs1).trace, P st) ∧
      P (cliGo env (dir ++ [n]) logLevel pre c pk valid (some t) fs1).fs := by
    unfold cliGo
    cases pre with
    | some e => exact FM.Keeps.raise (P := P) e fs1 hP1
    | none =>
      have fr := C105_frame env dir n (some t) c pk (cliRemoveFits logLevel (some t)) valid fs1 hwf1 t rfl
      have conv : ∀ st, SameFilesExcept [t ++ [n], t ++ [n ++ ".fz"], dir ++ [n ++ ".fz"]] st fs1 → P st := by
        intro st hst q h1 h2
        rw [hst q, hf1]
        simp only [List.mem_cons, List.not_mem_nil, or_false, not_or]
        exact ⟨fun h => h2 ⟨_, h.symm⟩, fun h => h2 ⟨_, h.symm⟩, h1⟩
      rw [FM.bind_def]
      simp only [raiseIf, FM.pure_def, List.nil_append]
      exact ⟨fun st hst => conv st (fr st (by simp [crashStates, hst])), conv _ (fr _ (by simp [crashStates]))⟩
  have hrm : ∀ st : FS D, (rmTree t st).out = .ok () ∧ (rmTree t st).trace = [(rmTree t st).fs] ∧
      (rmTree t st).fs = ⟨fun q => if t <+: q then none else st.files q,
        fun q => if t <+: q then false else st.dirs q⟩ := by
    intro st
    refine ⟨rfl, rfl, rfl⟩
  have hend : P (rmTree t (cliGo env (dir ++ [n]) logLevel pre c pk valid (some t) fs1).fs : FRes D Unit).fs := by
    intro q h1 h2
    rw [(hrm _).2.2]
    simp only [h2, if_false]
    exact hgo.2 q h1 h2
  have hbelow : ∀ q, t <+: q → fs.files q = none := by
    rintro q ⟨l, rfl⟩
    exact (hwf.below hfree l).1
  refine ⟨?_, ?_, ?_, ?_⟩
  · intro st hst
    simp only [List.cons_append, List.mem_cons, List.mem_append, List.not_mem_nil, or_false] at hst
    rcases hst with rfl | rfl | h | rfl
    · exact fun _ _ _ => rfl
    · exact hP1
    · rcases List.mem_append.1 h with h | h
      · exact hgo.1 st h
      · rw [(hrm _).2.1, List.mem_singleton] at h
        rw [h]; exact hend
    · exact hend
  · intro q hq
    rw [List.mem_singleton] at hq
    by_cases hb : t <+: q
    · show (rmTree t (cliGo env (dir ++ [n]) logLevel pre c pk valid (some t) fs1).fs : FRes D Unit).fs.files q = _
      rw [(hrm _).2.2, hbelow q hb]
      simp [hb]
    · exact hend q hq hb
  · intro q hb
    show (rmTree t (cliGo env (dir ++ [n]) logLevel pre c pk valid (some t) fs1).fs : FRes D Unit).fs.dirs q = _
    rw [(hrm _).2.2]
    simp [hb]
  · intro hr
    -- the run fails and leaves the output
    have hfail : (∃ e, (cliGo env (dir ++ [n]) logLevel pre c pk valid (some t) fs1).out = .error e) ∧
        (cliGo env (dir ++ [n]) logLevel pre c pk valid (some t) fs1).fs.files (dir ++ [n ++ ".fz"]) =
          fs.files (dir ++ [n ++ ".fz"]) := by
      unfold cliGo
      cases pre with
      | some e => exact ⟨⟨e, rfl⟩, by show fs1.files _ = _; rw [hf1]⟩
      | none =>
        simp only [Option.isSome_none, Bool.false_eq_true, false_or] at hr
        obtain ⟨e, he⟩ := Option.isSome_iff_exists.1 hr
        have := C91_failed_run_partial env dir n (some t) c pk (cliRemoveFits logLevel (some t)) valid fs1 hwf1 e
          he (fun t' ht' _ => by
            obtain rfl := Option.some.inj ht'
            refine ⟨by rw [hf1]; exact hbelow _ ⟨_, rfl⟩, ?_, fun h => ?_⟩
            · rw [← hfs1]
              simp [(hwf.below hfree _).2]
            · exact hout (((List.prefix_append _ _).trans h).trans (List.prefix_append _ _)))
        rw [FM.bind_def]
        simp only [raiseIf, FM.pure_def, List.nil_append]
        rw [hf1] at this
        exact this
    obtain ⟨⟨e', he'⟩, hfile⟩ := hfail
    refine ⟨⟨e', ?_⟩, ?_⟩
    · show (match (rmTree t (cliGo env (dir ++ [n]) logLevel pre c pk valid (some t) fs1).fs : FRes D Unit).out with
        | .error e => Except.error e
        | .ok _ => (cliGo env (dir ++ [n]) logLevel pre c pk valid (some t) fs1).out) = _
      rw [(hrm _).1]
      exact he'
    · funext q
      by_cases hb : t <+: q
      · show (rmTree t (cliGo env (dir ++ [n]) logLevel pre c pk valid (some t) fs1).fs : FRes D Unit).fs.files q = _
        rw [(hrm _).2.2, hbelow q hb]
        simp [hb]
      · by_cases hq : q = dir ++ [n ++ ".fz"]
        · rw [hq]
          show (rmTree t (cliGo env (dir ++ [n]) logLevel pre c pk valid (some t) fs1).fs : FRes D Unit).fs.files _ = _
          rw [(hrm _).2.2]
          simp only [hout, if_false]
          exact hfile
        · exact hend q hq hb

/-- **C106** A run with a temporary directory that succeeds: if `fpack` left a file, it is the output and
passes the validation; the uncompressed file is never at the place of the output. -/
theorem C106_tmpdir_output (env : FsEnv D) (dir : FPath) (n : String) (logLevel : PyStr) (useTmp : Bool)
    (tmpdir : Option FPath) (dflt : FPath) (name : String) (pre : Option Err) (c : Compute D) (pk : Fpack D)
    (valid : D → Bool) (fs : FS D) (hwf : fs.WF) (huse : useTmp = true ∨ tmpdir.isSome = true) (t : FPath)
    (ht : t = tmpdir.getD dflt ++ [name]) (hout : ¬ t <+: dir ++ [n ++ ".fz"]) (x : D)
    (hx : pk.left = some x)
    (hok : (cliMain env (dir ++ [n]) logLevel useTmp tmpdir dflt name pre c pk valid fs).out = .ok ()) :
    pre = none ∧ c.raised = none ∧ valid x = true ∧
    (cliMain env (dir ++ [n]) logLevel useTmp tmpdir dflt name pre c pk valid fs).fs.files
      (dir ++ [n ++ ".fz"]) = some x := by
  unfold cliMain at hok ⊢
  rw [if_pos huse] at hok ⊢
  unfold withTempDir at hok ⊢
  rw [← ht] at hok ⊢
  rw [FM.get_bind] at hok ⊢
  by_cases hmk : fs.dirs (tmpdir.getD dflt) = true ∧ fs.exists t = false
  swap
  · rw [if_neg hmk] at hok; simp [FM.raise] at hok
  rw [if_pos hmk, FM.put_bind] at hok ⊢
  dsimp only at hok ⊢
  have hwf1 := ht ▸ hwf.mkdir (name := name) hmk.1 (ht ▸ hmk.2)
  generalize ({ fs with dirs := fun q => fs.dirs q || decide (q = t) } : FS D) = fs1 at hwf1 hok ⊢
  obtain ⟨hgo, -⟩ := always_ok hok
  have key : pre = none ∧ c.raised = none ∧ valid x = true ∧
      (cliGo env (dir ++ [n]) logLevel pre c pk valid (some t) fs1).fs.files (dir ++ [n ++ ".fz"]) = some x := by
    unfold cliGo at hgo ⊢
    cases pre with
    | some e => simp [FM.bind_def, raiseIf, FM.raise] at hgo
    | none =>
      rw [FM.bind_def] at hgo ⊢
      simp only [raiseIf, FM.pure_def] at hgo ⊢
      obtain ⟨a, y, b1, b2, b3⟩ := C77_fresh_partial env dir n (some t) c pk _ valid fs1 hwf1 hgo
        (.inl (by simp [hx]))
      rw [hx] at b1
      obtain rfl := Option.some.inj b1
      exact ⟨trivial, a, b2, b3⟩
  refine ⟨key.1, key.2.1, key.2.2.1, ?_⟩
  show (if t <+: dir ++ [n ++ ".fz"] then none else
    (cliGo env (dir ++ [n]) logLevel pre c pk valid (some t) fs1).fs.files (dir ++ [n ++ ".fz"])) = some x
  rw [if_neg hout]
  exact key.2.2.2

/-- **C106** The program without temporary directory: at any time only the FITS file at the output path
and the output differ from before; if anything raises, the program fails and the output is as it was; if
the program succeeds, the output is what `fpack` made and is valid, and the uncompressed file is beside it
exactly if the log level is `DEBUG` or `fpack` failed. -/
theorem C106_plain (env : FsEnv D) (dir : FPath) (n : String) (logLevel : PyStr) (dflt : FPath)
    (name : String) (pre : Option Err) (c : Compute D) (pk : Fpack D) (valid : D → Bool) (fs : FS D)
    (hwf : fs.WF) :
    (∀ st ∈ crashStates (cliMain env (dir ++ [n]) logLevel false none dflt name pre c pk valid) fs,
      SameFilesExcept [dir ++ [n], dir ++ [n ++ ".fz"]] st fs) ∧
    (pre.isSome = true ∨ c.raised.isSome = true →
      (∃ e, (cliMain env (dir ++ [n]) logLevel false none dflt name pre c pk valid fs).out = .error e) ∧
      (cliMain env (dir ++ [n]) logLevel false none dflt name pre c pk valid fs).fs.files
        (dir ++ [n ++ ".fz"]) = fs.files (dir ++ [n ++ ".fz"])) ∧
    ((cliMain env (dir ++ [n]) logLevel false none dflt name pre c pk valid fs).out = .ok () →
      (∃ x, pk.left = some x ∧ valid x = true ∧
        (cliMain env (dir ++ [n]) logLevel false none dflt name pre c pk valid fs).fs.files
          (dir ++ [n ++ ".fz"]) = some x) ∧
      (cliMain env (dir ++ [n]) logLevel false none dflt name pre c pk valid fs).fs.files (dir ++ [n]) =
        if logLevel.map Char.toUpper = "DEBUG".toList ∨ pk.ok = false then some c.content else none) := by
  have e : cliMain env (dir ++ [n]) logLevel false none dflt name pre c pk valid =
      cliGo env (dir ++ [n]) logLevel pre c pk valid none := by
    simp [cliMain]
  rw [e]
  cases pre with
  | some er =>
    have e2 : cliGo env (dir ++ [n]) logLevel (some er) c pk valid none fs = ⟨[], fs, .error er⟩ := rfl
    rw [crashStates, e2]
    refine ⟨?_, fun _ => ⟨⟨er, rfl⟩, rfl⟩, fun h => by cases h⟩
    intro st hst
    simp at hst
    rw [hst]
    exact fun _ _ => rfl
  | none =>
    have e2 : cliGo env (dir ++ [n]) logLevel none c pk valid none fs =
        publishRun env (dir ++ [n]) none c pk (cliRemoveFits logLevel none) valid fs := by
      unfold cliGo
      rw [FM.bind_def]
      simp [raiseIf, FM.pure_def]
    rw [crashStates, e2]
    refine ⟨?_, fun hr => ?_, fun hok => ⟨?_, ?_⟩⟩
    · intro st hst q hq
      refine C105_frame env dir n none c pk _ valid fs hwf dir rfl st hst q ?_
      simpa using hq
    · simp only [Option.isSome_none, Bool.false_eq_true, false_or] at hr
      obtain ⟨er, he⟩ := Option.isSome_iff_exists.1 hr
      exact C91_failed_run_partial env dir n none c pk _ valid fs hwf er he (fun t ht => by cases ht)
    · exact (C77_fresh_partial env dir n none c pk _ valid fs hwf hok (.inr (.inl rfl))).2
    · rw [(C105_files env dir n none c pk _ valid fs hwf hok dir rfl).1]
      unfold cliRemoveFits pyUpper
      by_cases h1 : logLevel.map Char.toUpper = "DEBUG".toList <;> cases h2 : pk.ok <;> simp [h1]

end Pizza
