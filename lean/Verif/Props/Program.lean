import Verif.Lemmas.Program
import Verif.Props.CliRun
import Verif.Props.ImageInfo
import Verif.Props.MakeProc

/-!
C117: what the program `des-pizza-cutter` does with its input files.
-/

namespace Pizza

variable {σ P V ρ : Type}

theorem listOf_ok {y : Yaml} {l : List Yaml} : (y.asList pure : Except Err (List Yaml)) = .ok l ↔ y = .list l := by
  rw [asList_ok pureVal_ok]
  constructor
  · rintro ⟨m, h1, h2⟩
    rw [List.forall₂_eq_eq_eq] at h2
    rw [h1, h2]
  · rintro rfl
    exact ⟨l, rfl, List.forall₂_same.2 fun _ _ => rfl⟩

/-- C117: the program comes to its call of `make_des_pizza_slices` exactly if both files can be read, the description is
consistent, all images can be loaded and flagged and the output has a name, and then the call is with those things. -/
theorem C117_calls (w : ProgWorld σ P V ρ) (a : GoArgs) (c : Called P) :
    readGo w a = .ok c ↔ ∃ cfg info srcs, Calls w a cfg info srcs c := by
  unfold readGo
  simp only [bind_eq_ok, pure_ok_iff, key_ok (fun _ _ => asText_ok), key_ok (fun _ _ => listOf_ok), loadSrcOf_ok,
    optItem_ok (fun _ _ => optText_ok), checkInfoOf_ok, fpackOf_ok, item_ok]
  constructor
  · rintro ⟨_, h0, text, h1, cfg, h2, itext, h3, info, h4, tile, ⟨_, h5, rfl⟩, band, ⟨_, h6, rfl⟩, srcs, ⟨_, h7, rfl⟩, c0, h8,
      l0, h9, ⟨cc, l1⟩, h10, fc, h11, f0, h12, fl, h13, ci, h14, _, h15, meds, h16, pars, ⟨hcd, h17⟩, co, h18, se, h19, gaia,
      ⟨hid, h20⟩, rfl⟩
    obtain ⟨hsd, fc, rfl, hfe⟩ := (flagOptions_some h19).mp h11
    obtain ⟨g1, g2, g3⟩ := sources_ok.mp ⟨l0, l1, f0, h9, h10, h12, h13⟩
    obtain ⟨t, b, hcon⟩ := (C78_check_info ci).mp h15
    exact ⟨cfg, info, srcs, ⟨h0, ⟨h1, h2, itext, h3, h4⟩, rfl, h5, h6, h7, ⟨c0, h8, g1⟩, ⟨fc, hfe, g2, g3⟩,
      ⟨ci, t, b, h14, hcon⟩, h16, h17, h18, ⟨h19, hsd⟩, ⟨gaia, h20, rfl⟩⟩⟩
  · rintro ⟨cfg, info, srcs, ⟨h0, ⟨h1, h2, itext, h3, h4⟩, hj, h5, h6, h7, ⟨c0, h8, g1⟩, ⟨fc, hfe, g2, g3⟩,
      ⟨ci, t, b, h14, hcon⟩, h16, h17, h18, ⟨h19, hsd⟩, ⟨gaia, h20, hg⟩⟩⟩
    obtain ⟨l0, l1, f0, h9, h10, h12, h13⟩ := sources_ok.mpr ⟨g1, g2, g3⟩
    refine ⟨(), h0, _, h1, _, h2, _, h3, _, h4, _, ⟨_, h5, rfl⟩, _, ⟨_, h6, rfl⟩, _, ⟨_, h7, rfl⟩, c0, h8, l0, h9, _, h10,
      some fc, (flagOptions_some h19).mpr ⟨hsd, fc, rfl, hfe⟩, f0, h12, _, h13, ci, h14, (), (C78_check_info ci).mpr ⟨t, b, hcon⟩,
      _, h16, _, ⟨h19.isDict, h17⟩, _, h18, _, h19, gaia, ⟨h5.isDict, h20⟩, ?_⟩
    cases c
    dsimp only at *
    rw [hj, hg]

/-- C117: what is looked up before anything is written. -/
theorem C117_looked_up (w : ProgWorld σ P V ρ) (a : GoArgs) (cfg info : Yaml) (srcs : List Yaml) (c : Called P)
    (h : Calls w a cfg info srcs c) (k : Looked P) : lookUp c = .ok k ↔ LooksUp cfg c k := by
  unfold lookUp coaddNumsOf
  simp only [bind_eq_ok, pure_ok_iff, key_ok (fun _ _ => asInt_ok), numsOf_ok, mapM_rel (fun _ _ => sourceOf_ok), shapePair_ok,
    coaddOptions_ok h.coaddCfg, coaddWcsOf_ok]
  constructor
  · rintro ⟨_, ⟨_, ⟨_, h1, rfl⟩, h2, h3, h4⟩, _, h5, _, h6, _, h7, _, h8, rfl⟩
    exact ⟨h2, h3 ▸ h1, h4, h5, h6, h7, h8⟩
  · rintro ⟨h1, h2, h3, h4, h5, h6, h7⟩
    exact ⟨_, ⟨_, ⟨_, h2, rfl⟩, h1, rfl, h3⟩, _, h4, _, h5, _, h6, _, h7, rfl⟩

/-- C117: what is needed for the slices: a seed that is allowed and all the options. -/
theorem C117_needed (w : ProgWorld σ P V ρ) (a : GoArgs) (cfg info : Yaml) (srcs : List Yaml) (c : Called P)
    (h : Calls w a cfg info srcs c) (s : ρ) (so : SliceOptions) : needLater w a c = .ok (s, so) ↔ Needs w a cfg c s so := by
  unfold needLater seedState
  simp only [bind_eq_ok, pure_ok_iff, sliceOptions_ok _ _ h.seCfg.1]
  constructor
  · rintro ⟨s', h1, so', h2, he⟩
    cases he
    by_cases hs : 0 ≤ a.seed ∧ a.seed < 2 ^ 32
    · rw [if_pos hs] at h1
      cases h1
      exact ⟨⟨a.seed.toNat, by omega, by omega, rfl⟩, h2⟩
    · rw [if_neg hs] at h1
      cases h1
  · rintro ⟨⟨n, hn, he, rfl⟩, h2⟩
    refine ⟨_, ?_, so, h2, rfl⟩
    rw [if_pos (by omega), he]
    rfl

section
variable {D : Type} {w : ProgWorld σ P V ρ} {a : GoArgs} {sto : Storage D} {env : FsEnv D} {valid : D → Bool}

/-- The run has come to the end of the FITS file, and `pk` is what `fpack` does with it. -/
def Written (w : ProgWorld σ P V ρ) (a : GoArgs) (sto : Storage D) (tmpdir : Option FPath) (st : Proc P) (pk : Fpack D) : Prop :=
  ∃ c k s so p ss st', readGo w a = .ok c ∧ lookUp c = .ok k ∧ needLater w a c = .ok (s, so) ∧
    prepare (goMake w a tmpdir c k s so).plan = .ok p ∧ FitsBodyP (goMake w a tmpdir c k s so) p st ss none st' ∧
    pk = sto.fpack (hashToInt (w.sha (c.tilename ++ c.band))) ss

theorem goRun_cli {tmpdir : Option FPath} {st : Proc P} {act : FM D Unit} (h : GoRun w a sto env valid tmpdir st act)
    (meds : FPath) (hm : ∀ c, readGo w a = .ok c → w.expand c.meds = meds) :
    ∃ pre c pk, act = cliGo env meds a.logLevel pre c pk valid tmpdir ∧
      ((¬ ∃ c k, readGo w a = .ok c ∧ lookUp c = .ok k) → pre.isSome = true) ∧
      ((¬ ∃ c k x, readGo w a = .ok c ∧ lookUp c = .ok k ∧ needLater w a c = .ok x) →
        pre.isSome = true ∨ c.raised.isSome = true) ∧
      (pre = none → c.raised = none → Written w a sto tmpdir st pk) ∧ ∃ seed ss, pk = sto.fpack seed ss := by
  have early : ∀ e : Err, ∃ pre c pk, (FM.raise e : FM D Unit) = cliGo env meds a.logLevel pre c pk valid tmpdir ∧
      ((¬ ∃ c k, readGo w a = .ok c ∧ lookUp c = .ok k) → pre.isSome = true) ∧
      ((¬ ∃ c k x, readGo w a = .ok c ∧ lookUp c = .ok k ∧ needLater w a c = .ok x) →
        pre.isSome = true ∨ c.raised.isSome = true) ∧
      (pre = none → c.raised = none → Written w a sto tmpdir st pk) ∧ ∃ seed ss, pk = sto.fpack seed ss := fun e =>
    ⟨some e, ⟨sto.plain [], none⟩, sto.fpack 0 [], rfl, fun _ => rfl, fun _ => .inl rfl, (fun h => by cases h), _, _, rfl⟩
  cases h with
  | read e => exact early e
  | looked c e => exact early e
  | later c k e e' => exact early e'
  | laterWriting c k e e' ss hc hk =>
    rw [hm c hc]; exact ⟨none, _, _, rfl, fun h => absurd ⟨c, k, hc, hk⟩ h, fun _ => .inr rfl,
      (fun _ h => by cases h), _, _, rfl⟩
  | unnamed c k s so ss hc hk =>
    rw [hm c hc]; exact ⟨none, _, _, rfl, fun h => absurd ⟨c, k, hc, hk⟩ h, fun _ => .inr rfl,
      (fun _ h => by cases h), _, _, rfl⟩
  | run c k s so act st' hc hk hn hr =>
    cases hr with
    | early e => exact early e
    | run p ss r _ hp hb =>
      rw [hm c hc]
      refine ⟨none, _, _, rfl, fun h => absurd ⟨c, k, hc, hk⟩ h, fun h => absurd ⟨c, k, _, hc, hk, hn⟩ h, fun _ h => ?_,
        _, _, rfl⟩
      dsimp only at h
      subst h
      exact ⟨c, k, s, so, p, ss, st', hc, hk, hn, hp, hb, rfl⟩

theorem mainRun_cli {useTmp : Bool} {tmpdir : Option FPath} {dflt : FPath} {name : String} {st : Proc P} {act : FM D Unit}
    (h : MainRun w a sto env valid useTmp tmpdir dflt name st act) (meds : FPath)
    (hm : ∀ c, readGo w a = .ok c → w.expand c.meds = meds) :
    ∃ pre c pk, act = cliMain env meds a.logLevel useTmp tmpdir dflt name pre c pk valid ∧
      ((¬ ∃ c k, readGo w a = .ok c ∧ lookUp c = .ok k) → pre.isSome = true) ∧
      ((¬ ∃ c k x, readGo w a = .ok c ∧ lookUp c = .ok k ∧ needLater w a c = .ok x) →
        pre.isSome = true ∨ c.raised.isSome = true) ∧
      (pre = none → c.raised = none → Written w a sto (workDir useTmp tmpdir dflt name) st pk) ∧ ∃ seed ss, pk = sto.fpack seed ss := by
  unfold cliMain workDir
  cases h with
  | tmp act hu h =>
    obtain ⟨pre, c, pk, rfl, h'⟩ := goRun_cli h meds hm
    exact ⟨pre, c, pk, by rw [if_pos hu]; rfl, by rw [if_pos hu]; exact h'⟩
  | plain _ hu h =>
    obtain ⟨pre, c, pk, rfl, h'⟩ := goRun_cli h meds hm
    exact ⟨pre, c, pk, by rw [if_neg hu], by rw [if_neg hu]; exact h'⟩

/-- The request cannot be met: one of the inputs, the options or the seed is not as it must be. -/
def Unmet (w : ProgWorld σ P V ρ) (a : GoArgs) : Prop :=
  ¬ ∃ cfg info srcs c k s so, Calls w a cfg info srcs c ∧ LooksUp cfg c k ∧ Needs w a cfg c s so

theorem unmet_iff : Unmet w a ↔
    ¬ ∃ c k x, readGo w a = .ok c ∧ lookUp c = .ok k ∧ needLater w a c = .ok x := by
  unfold Unmet
  refine not_congr ⟨?_, ?_⟩
  · rintro ⟨cfg, info, srcs, c, k, s, so, h1, h2, h3⟩
    exact ⟨c, k, (s, so), (C117_calls w a c).mpr ⟨cfg, info, srcs, h1⟩, (C117_looked_up w a cfg info srcs c h1 k).mpr h2,
      (C117_needed w a cfg info srcs c h1 s so).mpr h3⟩
  · rintro ⟨c, k, ⟨s, so⟩, h1, h2, h3⟩
    obtain ⟨cfg, info, srcs, h⟩ := (C117_calls w a c).mp h1
    exact ⟨cfg, info, srcs, c, k, s, so, h, (C117_looked_up w a cfg info srcs c h k).mp h2,
      (C117_needed w a cfg info srcs c h s so).mp h3⟩

/-- C117: a run without temporary directory, in any process.  At any time only the FITS file and the output differ from
before.  If the request cannot be met the program fails and the output is as it was. -/
theorem C117_plain {dflt : FPath} {name : String} {st : Proc P} {act : FM D Unit}
    (h : MainRun w a sto env valid false none dflt name st act) (dir : FPath) (n : String)
    (hm : ∀ cfg info srcs c, Calls w a cfg info srcs c → w.expand c.meds = dir ++ [n]) (fs : FS D) (hwf : fs.WF) :
    (∀ s ∈ crashStates act fs, SameFilesExcept [dir ++ [n], dir ++ [n ++ ".fz"]] s fs) ∧
    (Unmet w a → (∃ e, (act fs).out = .error e) ∧
      (act fs).fs.files (dir ++ [n ++ ".fz"]) = fs.files (dir ++ [n ++ ".fz"])) := by
  obtain ⟨pre, c, pk, rfl, -, h2, -, -⟩ := mainRun_cli h (dir ++ [n]) (fun c hc => by
    obtain ⟨cfg, info, srcs, h⟩ := (C117_calls w a c).mp hc
    exact hm cfg info srcs c h)
  obtain ⟨g1, g2, -⟩ := C106_plain env dir n a.logLevel dflt name pre c pk valid fs hwf
  exact ⟨g1, fun hu => g2 (h2 (unmet_iff.mp hu))⟩

/-- C117: a run with a temporary directory `t`, in any process.  At any time only the output and files below `t` differ
from before, and after the run nothing is left below `t`.  If the request cannot be met the program fails and no file has
changed. -/
theorem C117_tmpdir {useTmp : Bool} {tmpdir : Option FPath} {dflt : FPath} {name : String} {st : Proc P} {act : FM D Unit}
    (huse : useTmp = true ∨ tmpdir.isSome = true)
    (h : MainRun w a sto env valid useTmp tmpdir dflt name st act) (dir : FPath) (n : String)
    (hm : ∀ cfg info srcs c, Calls w a cfg info srcs c → w.expand c.meds = dir ++ [n]) (fs : FS D) (hwf : fs.WF) (t : FPath)
    (ht : t = tmpdir.getD dflt ++ [name]) (hnew : fs.files t = none ∧ fs.dirs t = false)
    (hout : ¬ t <+: dir ++ [n ++ ".fz"]) :
    (∀ s ∈ crashStates act fs, ∀ q, q ≠ dir ++ [n ++ ".fz"] → ¬ t <+: q → s.files q = fs.files q) ∧
    SameFilesExcept [dir ++ [n ++ ".fz"]] (act fs).fs fs ∧
    (∀ q, t <+: q → (act fs).fs.dirs q = false) ∧
    (Unmet w a → (∃ e, (act fs).out = .error e) ∧ (act fs).fs.files = fs.files) := by
  obtain ⟨pre, c, pk, rfl, -, h2, -, -⟩ := mainRun_cli h (dir ++ [n]) (fun c hc => by
    obtain ⟨cfg, info, srcs, h⟩ := (C117_calls w a c).mp hc
    exact hm cfg info srcs c h)
  obtain ⟨g1, g2, g3, g4⟩ := C106_tmpdir env dir n a.logLevel useTmp tmpdir dflt name pre c pk valid fs hwf huse t ht hnew hout
  exact ⟨g1, g2, g3, fun hu => g4 (h2 (unmet_iff.mp hu))⟩

/-- C117 fails for the default of `--seed`: -1 is not allowed as a seed, so without a seed on the command line the program
always fails, whatever the inputs. -/
theorem C117_default_seed_fails {dflt : FPath} {name : String} {st : Proc P} {act : FM D Unit}
    (h : MainRun w { a with seed := -1 } sto env valid false none dflt name st act) (dir : FPath) (n : String)
    (hm : ∀ cfg info srcs c, Calls w { a with seed := -1 } cfg info srcs c → w.expand c.meds = dir ++ [n]) (fs : FS D)
    (hwf : fs.WF) : ∃ e, (act fs).out = .error e := by
  refine ((C117_plain h dir n hm fs hwf).2 ?_).1
  rintro ⟨cfg, info, srcs, c, k, s, so, -, -, ⟨m, hm, he, -⟩, -⟩
  simp at he

end

end Pizza
