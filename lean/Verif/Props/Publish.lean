import Verif.Model.Publish
import Verif.Props.Files

/-!
What a run leaves at the output path (C77).
-/

namespace Pizza
variable {D : Type}

theorem addFz_append (d : FPath) (n : String) : FPath.addFz (d ++ [n]) = d ++ [n ++ ".fz"] := by
  simp [FPath.addFz]

theorem chop3_append (d : FPath) (n : String) : FPath.chop3 (d ++ [n ++ ".fz"]) = d ++ [n] := by
  simp [FPath.chop3]

theorem append_fz_ne (n : String) : n ++ ".fz" ≠ n := by
  intro h
  have := congrArg (fun s : String => s.toList.length) h
  simp at this

theorem FM.ok_inv {α β : Type} {m : FM D α} {f : α → FM D β} {fs : FS D} {b : β}
    (h : ((m >>= f) fs).out = .ok b) :
    ∃ a, (m fs).out = .ok a ∧ (f a (m fs).fs).out = .ok b ∧ ((m >>= f) fs).fs = (f a (m fs).fs).fs := by
  rw [FM.bind_def] at h ⊢
  cases ho : (m fs).out with
  | error e => simp [ho] at h
  | ok a => rw [ho] at h; exact ⟨a, rfl, h, rfl⟩

/-- Nothing is both a file and a directory. -/
def FS.Disj (fs : FS D) : Prop := ∀ p, (fs.files p).isSome = true → fs.dirs p = false

theorem FS.Disj.remove {fs : FS D} (h : fs.Disj) (p : FPath) : (fs.set p none).Disj := by
  intro q hq
  simp only [FS.set] at hq ⊢
  split at hq
  · simp at hq
  · exact h q hq

theorem FS.Disj.write {fs : FS D} (h : fs.Disj) {p : FPath} (hp : fs.dirs p = false) (x : D) :
    (fs.set p (some x)).Disj := by
  intro q hq
  simp only [FS.set] at hq ⊢
  split at hq
  · rename_i hqp; rw [hqp]; exact hp
  · exact h q hq

theorem osMakedirs_disj (env : FsEnv D) (d : FPath) {fs : FS D} (h : fs.Disj) :
    (osMakedirs env d fs).fs.Disj := by
  rw [osMakedirs, FM.get_bind]
  split
  · exact h
  · rename_i hc
    simp only [not_or, List.any_eq_true, List.mem_inits, not_exists, not_and] at hc
    intro q hq
    simp only [FM.put] at hq ⊢
    simp only [Bool.or_eq_false_iff, decide_eq_false_iff_not]
    exact ⟨h q hq, fun hp => hc.2.1 q hp hq⟩

theorem makedirFromfile_disj (env : FsEnv D) (p : FPath) {fs : FS D} (h : fs.Disj) :
    (makedirFromfile env p fs).fs.Disj := by
  rw [makedirFromfile, tryMakedir, FM.get_bind]
  split
  · exact h
  · exact osMakedirs_disj env _ h

theorem init_state (env : FsEnv D) (fname : FPath) (tmpdir : Option FPath) (must : Bool) {fs : FS D}
    (h : fs.Disj) : (StagedOut.init env fname tmpdir must fs).fs.Disj ∧
      (StagedOut.init env fname tmpdir must fs).fs.files = fs.files := by
  refine ⟨?_, C73_construct env fname tmpdir must fs _ (by simp [crashStates])⟩
  cases tmpdir with
  | none => exact h
  | some t =>
    rw [StagedOut.init, FM.get_bind, FM.bind_def]
    have hc : (FM.cond (fs.exists t) (pure ()) (osMakedirs env t) fs).fs.Disj := by
      unfold FM.cond
      split
      · exact h
      · exact osMakedirs_disj env t h
    split
    · exact hc
    · simpa [FM.pure_def] using hc

/-- What the body leaves when it does not raise. -/
theorem publishBody_ok {c : Compute D} {pk : Fpack D} {rm : Bool} {d : FPath} {n : String} {fs : FS D}
    (hd : fs.Disj) (h : (publishBody c pk rm (d ++ [n ++ ".fz"]) fs).out = .ok ()) :
    c.raised = none ∧
    (publishBody c pk rm (d ++ [n ++ ".fz"]) fs).fs.files (d ++ [n ++ ".fz"]) = pk.left ∧
    SameFilesExcept [d ++ [n], d ++ [n ++ ".fz"]] (publishBody c pk rm (d ++ [n ++ ".fz"]) fs).fs fs ∧
    (publishBody c pk rm (d ++ [n ++ ".fz"]) fs).fs.Disj ∧
    (publishBody c pk rm (d ++ [n ++ ".fz"]) fs).fs.dirs (d ++ [n ++ ".fz"]) = false ∧
    (publishBody c pk rm (d ++ [n ++ ".fz"]) fs).fs.files (d ++ [n]) =
      if (pk.ok && rm) = true then none else some c.content := by
  have hne : d ++ [n ++ ".fz"] ≠ d ++ [n] := by
    intro h; simp at h
  unfold publishBody at h ⊢
  rw [chop3_append, addFz_append] at h ⊢
  obtain ⟨u1, a1, h, e1⟩ := FM.ok_inv h
  rw [e1]; clear e1
  -- the FITS file
  have w : (writeFile (d ++ [n]) c.content fs).fs = fs.set (d ++ [n]) (some c.content) ∧
      fs.dirs (d ++ [n]) = false := by
    rw [writeFile, FM.get_bind] at a1 ⊢
    split at a1
    · rename_i hc; rw [if_pos hc]; exact ⟨rfl, hc.2⟩
    · simp [FM.raise] at a1
  rw [w.1] at h ⊢
  have d1 := hd.write w.2 c.content
  generalize hfs1 : fs.set (d ++ [n]) (some c.content) = fs1 at h d1 ⊢
  have s1 : SameFilesExcept [d ++ [n], d ++ [n ++ ".fz"]] fs1 fs := by
    intro q hq
    simp only [List.mem_cons, List.not_mem_nil, or_false, not_or] at hq
    rw [← hfs1]
    simp [FS.set, hq.1]
  have t1 : fs1.files (d ++ [n]) = some c.content := by rw [← hfs1]; simp [FS.set]
  clear hfs1
  obtain ⟨u2, a2, h, e2⟩ := FM.ok_inv h
  rw [e2]; clear e2
  have r : c.raised = none ∧ (raiseIf c.raised fs1 : FRes D Unit).fs = fs1 := by
    cases hr : c.raised with
    | none => exact ⟨rfl, rfl⟩
    | some e => rw [hr] at a2; simp [raiseIf, FM.raise] at a2
  rw [r.2] at h ⊢
  obtain ⟨u3, a3, h, e3⟩ := FM.ok_inv h
  rw [e3]; clear e3
  -- remove an old compressed file
  have rmv : (removeIfPresent (d ++ [n ++ ".fz"]) fs1 : FRes D Unit).fs.files =
        (fs1.set (d ++ [n ++ ".fz"]) none).files ∧
      (removeIfPresent (d ++ [n ++ ".fz"]) fs1 : FRes D Unit).fs.Disj ∧
      (removeIfPresent (d ++ [n ++ ".fz"]) fs1 : FRes D Unit).fs.dirs (d ++ [n ++ ".fz"]) = false := by
    rw [removeIfPresent, FM.get_bind] at a3 ⊢
    split at a3
    · rename_i hx
      rw [if_pos hx]
      obtain ⟨g1, g2, -⟩ := osRemove_ok a3
      rw [g2]
      exact ⟨rfl, d1.remove _, d1 _ g1⟩
    · rename_i hx
      rw [if_neg hx, FM.pure_def]
      simp only [FS.exists, Bool.or_eq_true, not_or, Bool.not_eq_true] at hx
      refine ⟨?_, d1, hx.2⟩
      funext q
      simp only [FS.set]
      split
      · rename_i hq; rw [hq]; simpa using hx.1
      · rfl
  generalize (removeIfPresent (d ++ [n ++ ".fz"]) fs1 : FRes D Unit).fs = fs2 at h rmv ⊢
  obtain ⟨m1, m2, m3⟩ := rmv
  obtain ⟨u4, a4, h, e4⟩ := FM.ok_inv h
  rw [e4]; clear e4
  -- fpack
  have f : (runFpack (d ++ [n ++ ".fz"]) pk.left fs2).fs.files (d ++ [n ++ ".fz"]) = pk.left ∧
      (∀ q, q ≠ d ++ [n ++ ".fz"] → (runFpack (d ++ [n ++ ".fz"]) pk.left fs2).fs.files q = fs1.files q) ∧
      (runFpack (d ++ [n ++ ".fz"]) pk.left fs2).fs.Disj ∧
      (runFpack (d ++ [n ++ ".fz"]) pk.left fs2).fs.dirs (d ++ [n ++ ".fz"]) = false := by
    rw [runFpack, FM.get_bind]
    cases pk.left with
    | none => exact ⟨by simp [FM.pure_def, m1, FS.set], fun q hq => by simp [FM.pure_def, m1, FS.set, hq], m2, m3⟩
    | some x =>
      refine ⟨by simp [FM.put, FS.set], fun q hq => by simp [FM.put, FS.set, hq, m1], m2.write m3 x, m3⟩
  generalize (runFpack (d ++ [n ++ ".fz"]) pk.left fs2).fs = fs3 at h f ⊢
  obtain ⟨f1, f2, f3, f4⟩ := f
  have s3 : SameFilesExcept [d ++ [n], d ++ [n ++ ".fz"]] fs3 fs := by
    intro q hq
    rw [f2 q (by simp only [List.mem_cons, not_or] at hq; exact hq.2.1)]
    exact s1 q hq
  have t3 : fs3.files (d ++ [n]) = some c.content := by rw [f2 _ hne.symm, t1]
  refine ⟨r.1, ?_⟩
  -- remove the FITS file
  unfold FM.cond at h ⊢
  split at h
  · rename_i hc
    rw [if_pos hc]
    obtain ⟨-, g2, -⟩ := osRemove_ok h
    rw [g2]
    refine ⟨by simp [FS.set, hne, f1], fun q hq => ?_, f3.remove _, f4, by rw [if_pos hc]; simp [FS.set]⟩
    have hq' := hq
    simp only [List.mem_cons, List.not_mem_nil, or_false, not_or] at hq'
    simp only [FS.set, hq'.1, if_false]
    exact s3 q hq
  · rename_i hc
    rw [if_neg hc]
    exact ⟨f1, s3, f3, f4, by rw [if_neg hc]; exact t3⟩

theorem always_ok {α : Type} {m : FM D Unit} {fin : FM D α} {fs : FS D}
    (h : (FM.always m fin fs).out = .ok ()) :
    (m fs).out = .ok () ∧ ∃ a, (fin (m fs).fs).out = .ok a := by
  unfold FM.always at h
  dsimp only at h
  cases hf : (fin (m fs).fs).out with
  | error e => simp [hf] at h
  | ok a => rw [hf] at h; exact ⟨h, a, rfl⟩

/-- **C77** (part) A run that returns normally leaves a valid output that `fpack` made in this run, if
`fpack` left a file, or there is no staging, or there was no output before.  Missing: with staging, a
failing `fpack` and an old output the run also returns normally (`C77_fresh_fails`). -/
theorem C77_fresh_partial (env : FsEnv D) (dir : FPath) (n : String) (tmpdir : Option FPath)
    (c : Compute D) (pk : Fpack D) (rm : Bool) (valid : D → Bool) (fs : FS D) (hwf : fs.WF)
    (hok : (publishRun env (dir ++ [n]) tmpdir c pk rm valid fs).out = .ok ())
    (hcase : pk.left.isSome = true ∨ tmpdir = none ∨ tmpdir = some dir ∨
      fs.files (dir ++ [n ++ ".fz"]) = none) :
    c.raised = none ∧ ∃ x, pk.left = some x ∧ valid x = true ∧
      (publishRun env (dir ++ [n]) tmpdir c pk rm valid fs).fs.files (dir ++ [n ++ ".fz"]) = some x := by
  unfold publishRun at hok ⊢
  rw [addFz_append] at hok ⊢
  obtain ⟨u, -, hok, e⟩ := FM.ok_inv hok
  rw [e]; clear e u
  have dj := makedirFromfile_disj env (dir ++ [n]) (fs := fs) hwf.disjoint
  have fl := (makedirFromfile_result env (dir ++ [n]) fs).2.1
  generalize (makedirFromfile env (dir ++ [n]) fs).fs = fs1 at hok dj fl ⊢
  obtain ⟨s, hs, hok, e⟩ := FM.ok_inv hok
  rw [e]; clear e
  obtain ⟨dj2, fl2⟩ := init_state env (dir ++ [n ++ ".fz"]) tmpdir false dj
  rw [fl] at fl2
  have hseq := init_eq hs
  clear hs
  generalize (StagedOut.init env (dir ++ [n ++ ".fz"]) tmpdir false fs1).fs = fs2 at hok dj2 fl2 ⊢

  obtain ⟨u, h1, hok, e⟩ := FM.ok_inv hok
  rw [e]; clear e
  obtain ⟨hb, s', hst⟩ := always_ok h1
  -- the path to write
  have hpath : ∃ d : FPath, s.path = d ++ [n ++ ".fz"] ∧
      ((s.isTemp = false ∧ d = dir) ∨ (s.isTemp = true ∧ d ≠ dir)) ∧ s.finalPath = dir ++ [n ++ ".fz"] ∧
      s.wasStagedOut = false ∧ s.mustExist = false ∧
      (s.isTemp = true → ¬ (tmpdir = none ∨ tmpdir = some dir)) := by
    cases tmpdir with
    | none =>
      refine ⟨dir, ?_⟩
      subst hseq
      unfold storedOut
      simp
    | some t =>
      refine ⟨t, ?_⟩
      subst hseq
      unfold storedOut
      by_cases ht : t = dir
      · simp [FPath.join, FPath.base, FPath.dir, ht]
      · simp [FPath.join, FPath.base, FPath.dir, ht]
  obtain ⟨d, hp, htemp, hfin, hw, hm, hno⟩ := hpath
  have hend : (FM.always (publishBody c pk rm s.path) (s.stageOut env) fs2).fs =
      (s.stageOut env (publishBody c pk rm s.path fs2).fs).fs := rfl
  rw [hend] at hok ⊢
  rw [hp] at hb
  obtain ⟨b1, b2, b3, b4, b5, -⟩ := publishBody_ok dj2 hb
  rw [hp] at hst hok ⊢
  generalize (publishBody c pk rm (d ++ [n ++ ".fz"]) fs2).fs = fs3 at hst hok b2 b3 b4 b5 ⊢
  -- the final file after staging out
  have hfinal : (s.stageOut env fs3).fs.files (dir ++ [n ++ ".fz"]) = pk.left ∨
      (s.isTemp = true ∧ pk.left = none ∧
        (s.stageOut env fs3).fs.files (dir ++ [n ++ ".fz"]) = fs.files (dir ++ [n ++ ".fz"])) := by
    rw [StagedOut.stageOut, FM.get_bind] at hst ⊢
    rcases htemp with ⟨ht, hd⟩ | ⟨ht, hd⟩
    · left
      rw [if_neg (by simp [ht]), FM.pure_def, ← hd]
      exact b2
    · rw [if_pos ⟨ht, hw⟩] at hst ⊢
      have hne : s.path ≠ s.finalPath := by
        rw [hp, hfin]
        intro h
        exact hd (List.append_cancel_right h)
      cases hl : pk.left with
      | none =>
        right
        refine ⟨ht, rfl, ?_⟩
        have hx : fs3.exists s.path = false := by
          rw [hp]; simp [FS.exists, b2, hl, b5]
        rw [if_neg (by simp [hx]), if_neg (by simp [hm]), FM.pure_def]
        dsimp only
        rw [b3, fl2]
        simp only [List.mem_cons, List.not_mem_nil, or_false, not_or]
        refine ⟨fun h => ?_, fun h => hd (List.append_cancel_right h).symm⟩
        have := (List.append_inj' h rfl).2
        simp at this
      | some x =>
        left
        have hx : fs3.exists s.path = true := by
          rw [hp]; simp [FS.exists, b2, hl]
        rw [if_pos hx] at hst ⊢
        obtain ⟨u, g1, g2, g3⟩ := FM.ok_inv hst
        rw [g3]
        simp only [FM.pure_def]
        obtain ⟨y, e1, e2⟩ := publish_ok (b4 _) hne (by rw [hfin]; simp) g1
        rw [e2, ← hfin]
        rw [hp, b2, hl] at e1
        simp [FS.set, ← e1]
  -- validation
  rw [validateFile, FM.get_bind] at hok ⊢
  generalize (s.stageOut env fs3).fs = fs4 at hok hfinal ⊢
  refine ⟨b1, ?_⟩
  cases hf : fs4.files (dir ++ [n ++ ".fz"]) with
  | none => simp [hf, FM.raise] at hok
  | some x =>
    rw [hf] at hok
    dsimp only at hok ⊢
    split at hok
    · rename_i hv
      rw [if_pos hv, FM.pure_def]
      refine ⟨x, ?_, hv, hf⟩
      rcases hfinal with h | ⟨ht, hl, h⟩
      · rw [← h, hf]
      · exfalso
        rcases hcase with h' | h' | h' | h'
        · simp [hl] at h'
        · exact hno ht (Or.inl h')
        · exact hno ht (Or.inr h')
        · rw [h, h'] at hf; cases hf
    · simp [FM.raise] at hok

/-- **C105** The files after a run that returns normally, `d` being the directory that is worked in (the
temporary directory if there is one): the uncompressed FITS file holds the result of this run, unless
`fpack` succeeded and the removal was asked for, when it is gone; the compressed file is not left in the
temporary directory; and no other file is touched. -/
theorem C105_files (env : FsEnv D) (dir : FPath) (n : String) (tmpdir : Option FPath)
    (c : Compute D) (pk : Fpack D) (rm : Bool) (valid : D → Bool) (fs : FS D) (hwf : fs.WF)
    (hok : (publishRun env (dir ++ [n]) tmpdir c pk rm valid fs).out = .ok ()) (d : FPath)
    (hd : d = tmpdir.getD dir) :
    ((publishRun env (dir ++ [n]) tmpdir c pk rm valid fs).fs.files (d ++ [n]) =
      if pk.ok = true ∧ rm = true then none else some c.content) ∧
    (d ≠ dir → (publishRun env (dir ++ [n]) tmpdir c pk rm valid fs).fs.files (d ++ [n ++ ".fz"]) = none) ∧
    SameFilesExcept [d ++ [n], d ++ [n ++ ".fz"], dir ++ [n ++ ".fz"]]
      (publishRun env (dir ++ [n]) tmpdir c pk rm valid fs).fs fs := by
  unfold publishRun at hok ⊢
  rw [addFz_append] at hok ⊢
  obtain ⟨u, -, hok, e⟩ := FM.ok_inv hok
  rw [e]; clear e u
  have dj := makedirFromfile_disj env (dir ++ [n]) (fs := fs) hwf.disjoint
  have fl := (makedirFromfile_result env (dir ++ [n]) fs).2.1
  generalize (makedirFromfile env (dir ++ [n]) fs).fs = fs1 at hok dj fl ⊢
  obtain ⟨s, hs, hok, e⟩ := FM.ok_inv hok
  rw [e]; clear e
  obtain ⟨dj2, fl2⟩ := init_state env (dir ++ [n ++ ".fz"]) tmpdir false dj
  rw [fl] at fl2
  have hseq := init_eq hs
  clear hs
  generalize (StagedOut.init env (dir ++ [n ++ ".fz"]) tmpdir false fs1).fs = fs2 at hok dj2 fl2 ⊢
  obtain ⟨u, h1, hok, e⟩ := FM.ok_inv hok
  rw [e]; clear e
  obtain ⟨hb, s', hst⟩ := always_ok h1
  have hpath : s.path = d ++ [n ++ ".fz"] ∧
      ((s.isTemp = false ∧ d = dir) ∨ (s.isTemp = true ∧ d ≠ dir)) ∧ s.finalPath = dir ++ [n ++ ".fz"] ∧
      s.wasStagedOut = false ∧ s.mustExist = false := by
    subst hd
    cases tmpdir with
    | none =>
      subst hseq
      unfold storedOut
      simp
    | some t =>
      subst hseq
      unfold storedOut
      by_cases ht : t = dir
      · simp [FPath.join, FPath.base, FPath.dir, ht]
      · simp [FPath.join, FPath.base, FPath.dir, ht]
  obtain ⟨hp, htemp, hfin, hw, hm⟩ := hpath
  have hend : (FM.always (publishBody c pk rm s.path) (s.stageOut env) fs2).fs =
      (s.stageOut env (publishBody c pk rm s.path fs2).fs).fs := rfl
  rw [hend] at hok ⊢
  rw [hp] at hb
  obtain ⟨b1, b2, b3, b4, b5, b6⟩ := publishBody_ok dj2 hb
  rw [hp] at hst hok ⊢
  generalize (publishBody c pk rm (d ++ [n ++ ".fz"]) fs2).fs = fs3 at hst hok b2 b3 b4 b5 b6 ⊢
  have b6' : fs3.files (d ++ [n]) = if pk.ok = true ∧ rm = true then none else some c.content := by
    rw [b6]; simp only [Bool.and_eq_true]
  have hnfz : ∀ a b : FPath, a ++ [n] ≠ b ++ [n ++ ".fz"] := by
    intro a b h
    exact append_fz_ne n (List.cons.inj (List.append_inj' h rfl).2).1.symm
  have b3' : SameFilesExcept [d ++ [n], d ++ [n ++ ".fz"], dir ++ [n ++ ".fz"]] fs3 fs := by
    intro q hq
    simp only [List.mem_cons, List.not_mem_nil, or_false, not_or] at hq
    rw [b3 q (by simp [hq.1, hq.2.1]), fl2]
  have hfinal : ((s.stageOut env fs3).fs.files (d ++ [n]) =
        if pk.ok = true ∧ rm = true then none else some c.content) ∧
      (d ≠ dir → (s.stageOut env fs3).fs.files (d ++ [n ++ ".fz"]) = none) ∧
      SameFilesExcept [d ++ [n], d ++ [n ++ ".fz"], dir ++ [n ++ ".fz"]] (s.stageOut env fs3).fs fs := by
    rw [StagedOut.stageOut, FM.get_bind] at hst ⊢
    rcases htemp with ⟨ht, hd'⟩ | ⟨ht, hd'⟩
    · rw [if_neg (by simp [ht]), FM.pure_def]
      exact ⟨b6', fun h => absurd hd' h, b3'⟩
    · rw [if_pos ⟨ht, hw⟩] at hst ⊢
      have hne : s.path ≠ s.finalPath := by
        rw [hp, hfin]
        intro h
        exact hd' (List.append_cancel_right h)
      cases hl : pk.left with
      | none =>
        have hx : fs3.exists s.path = false := by
          rw [hp]; simp [FS.exists, b2, hl, b5]
        rw [if_neg (by simp [hx]), if_neg (by simp [hm]), FM.pure_def]
        exact ⟨b6', fun _ => b2.trans hl, b3'⟩
      | some x =>
        have hx : fs3.exists s.path = true := by
          rw [hp]; simp [FS.exists, b2, hl]
        rw [if_pos hx] at hst ⊢
        obtain ⟨u, g1, g2, g3⟩ := FM.ok_inv hst
        rw [g3]
        simp only [FM.pure_def]
        obtain ⟨y, e1, e2⟩ := publish_ok (b4 _) hne (by rw [hfin]; simp) g1
        rw [hp, hfin] at e2 hne
        rw [e2]
        refine ⟨?_, fun _ => ?_, ?_⟩
        · simp only [FS.set, hnfz, if_false]
          exact b6'
        · simp [FS.set, hne]
        · intro q hq
          have hq' := hq
          simp only [List.mem_cons, List.not_mem_nil, or_false, not_or] at hq'
          rw [e2]
          simp only [FS.set, hq'.2.1, hq'.2.2, if_false]
          exact b3' q hq
  have hval : ∀ p, (validateFile valid p (s.stageOut env fs3).fs : FRes D Unit).fs = (s.stageOut env fs3).fs := by
    intro p
    rw [validateFile, FM.get_bind]
    cases (s.stageOut env fs3).fs.files p with
    | none => rfl
    | some x =>
      dsimp only
      by_cases hv : valid x = true
      · rw [if_pos hv]; rfl
      · rw [if_neg hv]; rfl
  rw [hval]
  exact hfinal

/-- **C91** (part) A run whose computation raises leaves the output path as it was, if no compressed file
of the same name was left in the temporary directory before.  Missing: such a left-over file is
published although the run fails (`C91_failed_run_fails`). -/
theorem C91_failed_run_partial (env : FsEnv D) (dir : FPath) (n : String) (tmpdir : Option FPath)
    (c : Compute D) (pk : Fpack D) (rm : Bool) (valid : D → Bool) (fs : FS D) (hwf : fs.WF)
    (e : Err) (hraise : c.raised = some e)
    (hclean : ∀ t, tmpdir = some t → t ≠ dir →
      fs.files (t ++ [n ++ ".fz"]) = none ∧ fs.dirs (t ++ [n ++ ".fz"]) = false ∧
      ¬ (t ++ [n ++ ".fz"]) <+: dir) :
    (∃ e', (publishRun env (dir ++ [n]) tmpdir c pk rm valid fs).out = .error e') ∧
    (publishRun env (dir ++ [n]) tmpdir c pk rm valid fs).fs.files (dir ++ [n ++ ".fz"]) =
      fs.files (dir ++ [n ++ ".fz"]) := by
  unfold publishRun
  rw [addFz_append, FM.bind_def]
  obtain ⟨k1, k2, -, -⟩ := makedirFromfile_result env (dir ++ [n]) fs
  have k3 : ∀ q, ¬ q <+: dir → (makedirFromfile env (dir ++ [n]) fs).fs.dirs q = fs.dirs q := by
    intro q hq
    rw [makedirFromfile, tryMakedir, FM.get_bind]
    split
    · rfl
    · simp only [FM.swallow]
      rw [osMakedirs, FM.get_bind]
      split
      · rfl
      · simp [FM.put, FPath.dir, hq]
  have dj := makedirFromfile_disj env (dir ++ [n]) (fs := fs) hwf.disjoint
  rw [k1]
  dsimp only
  generalize (makedirFromfile env (dir ++ [n]) fs).fs = fs1 at k2 k3 dj ⊢
  rw [FM.bind_def]
  obtain ⟨dj2, fl2⟩ := init_state env (dir ++ [n ++ ".fz"]) tmpdir false dj
  rw [k2] at fl2
  cases hs : (StagedOut.init env (dir ++ [n ++ ".fz"]) tmpdir false fs1).out with
  | error e' => exact ⟨⟨e', rfl⟩, by dsimp only; rw [fl2]⟩
  | ok s =>
    dsimp only
    -- the body raises and leaves the final file
    have hbody : ∀ (d : FPath) (fs2 : FS D), ∃ e',
        (publishBody c pk rm (d ++ [n ++ ".fz"]) fs2).out = .error e' ∧
        SameFilesExcept [d ++ [n]] (publishBody c pk rm (d ++ [n ++ ".fz"]) fs2).fs fs2 ∧
        (publishBody c pk rm (d ++ [n ++ ".fz"]) fs2).fs.dirs = fs2.dirs := by
      intro d fs2
      unfold publishBody
      rw [chop3_append, FM.bind_def, writeFile, FM.get_bind]
      split
      · rename_i e' he'
        split at he'
        · simp [FM.put] at he'
        · rename_i hc
          rw [if_neg hc]
          exact ⟨e', rfl, fun _ _ => rfl, rfl⟩
      · rename_i u hu
        split at hu
        · rename_i hc
          rw [if_pos hc]
          simp only [FM.put]
          rw [FM.bind_def, hraise]
          simp only [raiseIf, FM.raise]
          refine ⟨e, rfl, fun q hq => ?_, rfl⟩
          rw [List.mem_singleton] at hq
          simp [FS.set, hq]
        · simp [FM.raise] at hu
    have hseq := init_eq hs
    -- the directories that were made are not the staged path
    have hdirs : ∀ t, tmpdir = some t → t ≠ dir →
        (StagedOut.init env (dir ++ [n ++ ".fz"]) tmpdir false fs1).fs.dirs (t ++ [n ++ ".fz"]) = false := by
      intro t ht hne
      obtain ⟨c1, c2, c3⟩ := hclean t ht hne
      subst ht
      rw [StagedOut.init, FM.get_bind, FM.bind_def]
      have hc : (FM.cond (fs1.exists t) (pure ()) (osMakedirs env t) fs1).fs.dirs (t ++ [n ++ ".fz"]) =
          false := by
        unfold FM.cond
        split
        · exact (k3 _ c3).trans c2
        · rw [osMakedirs, FM.get_bind]
          split
          · exact (k3 _ c3).trans c2
          · simp [FM.put, k3 _ c3, c2]
            intro hp
            have := hp.length_le
            simp at this
      split
      · exact hc
      · simpa [FM.pure_def] using hc
    generalize (StagedOut.init env (dir ++ [n ++ ".fz"]) tmpdir false fs1).fs = fs2 at fl2 dj2 hdirs ⊢
    have hcore : ∃ e', (FM.always (publishBody c pk rm s.path) (s.stageOut env) fs2).out = .error e' ∧
        (FM.always (publishBody c pk rm s.path) (s.stageOut env) fs2).fs.files (dir ++ [n ++ ".fz"]) =
          fs.files (dir ++ [n ++ ".fz"]) := by
      -- the exit handler does nothing
      have main : ∀ d : FPath, s.path = d ++ [n ++ ".fz"] →
          (∃ s', s.stageOut env (publishBody c pk rm s.path fs2).fs =
            ⟨[], (publishBody c pk rm s.path fs2).fs, .ok s'⟩) →
          ∃ e', (FM.always (publishBody c pk rm s.path) (s.stageOut env) fs2).out = .error e' ∧
          (FM.always (publishBody c pk rm s.path) (s.stageOut env) fs2).fs.files (dir ++ [n ++ ".fz"]) =
            fs.files (dir ++ [n ++ ".fz"]) := by
        intro d hp ⟨s', hs'⟩
        unfold FM.always
        rw [hs']
        dsimp only
        rw [hp]
        obtain ⟨e', b1, b2, -⟩ := hbody d fs2
        refine ⟨e', b1, ?_⟩
        rw [b2, fl2]
        rw [List.mem_singleton]
        intro h
        have := (List.append_inj' h rfl).2
        simp at this
      cases tmpdir with
      | none =>
        refine main dir (by rw [hseq]; rfl) ⟨{ s with wasStagedOut := true }, ?_⟩
        rw [StagedOut.stageOut, FM.get_bind, if_neg (by rw [hseq]; simp [storedOut]), FM.pure_def]
      | some t =>
        have hpt : s.path = t ++ [n ++ ".fz"] := by
          rw [hseq]; simp [storedOut, FPath.join, FPath.base]
        by_cases ht : t = dir
        · refine main t hpt ⟨{ s with wasStagedOut := true }, ?_⟩
          rw [StagedOut.stageOut, FM.get_bind, if_neg (by rw [hseq]; simp [storedOut, FPath.dir, ht]),
            FM.pure_def]
        · refine main t hpt ⟨s, ?_⟩
          rw [StagedOut.stageOut, FM.get_bind, if_pos (by rw [hseq]; simp [storedOut, FPath.dir, ht]), if_neg,
            if_neg (by rw [hseq]; simp [storedOut]), FM.pure_def]
          rw [hpt]
          obtain ⟨e', -, b2, b3⟩ := hbody t fs2
          have hf : (publishBody c pk rm (t ++ [n ++ ".fz"]) fs2).fs.files (t ++ [n ++ ".fz"]) = none := by
            rw [b2, fl2, (hclean t rfl ht).1]
            simp
          simp [FS.exists, hf, b3, hdirs t rfl ht]
    obtain ⟨e', a1, a2⟩ := hcore
    rw [FM.bind_def, a1]
    exact ⟨⟨e', rfl⟩, a2⟩

end Pizza
