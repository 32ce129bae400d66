import Verif.Spec.TileGeom
import Verif.Props.PrepTile
import Verif.Props.Files

/-!
Property C128: the file with the geometry of a tile.
-/

namespace Pizza
variable {D : Type}

/-! ### words -/

theorem splitBlank_noblank {a : PyStr} (h : ' ' ∉ a) : splitBlank a = [a] := by
  induction a with
  | nil => rfl
  | cons c a ih =>
    have hc : c ≠ ' ' := fun e => h (by simp [e])
    rw [splitBlank, if_neg hc, ih fun hm => h (by simp [hm])]

theorem splitBlank_append (a b : PyStr) : splitBlank (a ++ ' ' :: b) = splitBlank a ++ splitBlank b := by
  induction a with
  | nil => simp [splitBlank]
  | cons c a ih =>
    rw [List.cons_append, splitBlank, splitBlank]
    split
    · rw [ih]; rfl
    · rw [ih]
      have : splitBlank a ≠ [] := by
        cases a with
        | nil => simp [splitBlank]
        | cons d a =>
          rw [splitBlank]
          split
          · simp
          · split <;> simp
      cases hs : splitBlank a with
      | nil => exact absurd hs this
      | cons x t => rfl

theorem ordinary_iff (w : PyStr) : Ordinary w ↔ ∀ c ∈ w, shPlain c = true := by
  unfold Ordinary shPlain
  refine forall₂_congr fun c _ => ?_
  simp

theorem ordinary_noblank {w : PyStr} (h : Ordinary w) : ' ' ∉ w := by
  intro hm
  have := (ordinary_iff w).1 h _ hm
  exact absurd this (by decide)

theorem ordinary_append {a b : PyStr} (ha : Ordinary a) (hb : Ordinary b) : Ordinary (a ++ b) := by
  intro c hc
  rcases List.mem_append.1 hc with h | h
  · exact ha c h
  · exact hb c h

theorem shWords_cp {a : PyStr} (ha : Ordinary a) (hne : a ≠ []) {b : PyStr} (hb : Ordinary b) (hbne : b ≠ []) :
    shWords ("cp ".toList ++ a ++ ' ' :: b) = some ["cp".toList, a, b] := by
  have e : "cp ".toList ++ a ++ ' ' :: b = "cp".toList ++ ' ' :: (a ++ ' ' :: b) := by simp
  have h1 : ' ' ∉ "cp".toList := by decide
  rw [e, shWords, if_pos]
  · rw [splitBlank_append, splitBlank_append, splitBlank_noblank h1, splitBlank_noblank (ordinary_noblank ha),
      splitBlank_noblank (ordinary_noblank hb)]
    simp [hne, hbne]
  · rw [List.all_eq_true]
    intro c hc
    rw [ordinary_iff] at ha hb
    simp only [List.mem_append, List.mem_cons] at hc
    rcases hc with hc | rfl | hc | rfl | hc
    · revert c; decide
    · rfl
    · simp [ha c hc]
    · rfl
    · simp [hb c hc]

theorem shWords_cp2 {a : PyStr} (ha : Ordinary a) (hne : a ≠ []) {b : PyStr} (hb : Ordinary b) (hbne : b ≠ [])
    {c : PyStr} (hc : Ordinary c) (hcne : c ≠ []) :
    shWords ("cp ".toList ++ a ++ ' ' :: (b ++ ' ' :: c)) = some ["cp".toList, a, b, c] := by
  have e : "cp ".toList ++ a ++ ' ' :: (b ++ ' ' :: c) = "cp".toList ++ ' ' :: (a ++ ' ' :: (b ++ ' ' :: c)) := by
    simp
  have h1 : ' ' ∉ "cp".toList := by decide
  rw [e, shWords, if_pos]
  · rw [splitBlank_append, splitBlank_append, splitBlank_append, splitBlank_noblank h1,
      splitBlank_noblank (ordinary_noblank ha), splitBlank_noblank (ordinary_noblank hb),
      splitBlank_noblank (ordinary_noblank hc)]
    simp [hne, hbne, hcne]
  · rw [List.all_eq_true]
    intro x hx
    rw [ordinary_iff] at ha hb hc
    simp only [List.mem_append, List.mem_cons] at hx
    rcases hx with hx | rfl | hx | rfl | hx | rfl | hx
    · revert x; decide
    · rfl
    · simp [ha x hx]
    · rfl
    · simp [hb x hx]
    · rfl
    · simp [hc x hx]

/-! ### paths -/

theorem splitPath_cons_slash (w : PyStr) : splitPath ('/' :: w) = splitPath w := by
  simp [splitPath, splitSlash]

theorem shPath_names {cwd : FPath} {w : PyStr} {p : FPath} (h : NamesPath cwd w p) : shPath cwd w = p := by
  obtain ⟨hne, ⟨hp, rfl⟩ | ⟨r, hr, hrp, hw, rfl⟩⟩ := h
  · rw [shPath, if_pos]
    · exact splitPath_pathText hp
    · cases p with
      | nil => exact absurd rfl hne
      | cons c t => simp [pathText]
  · have hs : splitPath w = r := by rw [← splitPath_cons_slash, hw, splitPath_pathText hrp]
    rw [shPath, if_neg, hs]
    intro hh
    obtain ⟨c, t, rfl⟩ := List.exists_cons_of_ne_nil hr
    have hc := hrp c (by simp)
    have : w = c.toList ++ pathText t := by
      have : '/' :: w = '/' :: (c.toList ++ pathText t) := by rw [hw]; simp [pathText]
      exact List.cons_injective this
    rw [this] at hh
    obtain ⟨x, y, hxy⟩ := List.exists_cons_of_ne_nil hc.1
    rw [hxy] at hh
    simp only [List.cons_append, List.head?_cons, Option.some.injEq] at hh
    exact hc.2 (by rw [hxy, hh]; simp)

theorem names_last {cwd : FPath} {w : PyStr} {p : FPath} (h : NamesPath cwd w p) : w.getLast? ≠ some '/' := by
  have key : ∀ {r : FPath}, PlainPath r → r ≠ [] → (pathText r).getLast? ≠ some '/' := by
    intro r hr hne hl
    have := (pathText_end hr hne).2
    rw [pyEndsWith, Bool.eq_false_iff] at this
    refine this ?_
    rw [List.isSuffixOf_iff_suffix]
    obtain ⟨hn, he⟩ := List.getLast?_eq_some_iff.1 hl
    exact ⟨_, he.symm⟩
  obtain ⟨hne, ⟨hp, rfl⟩ | ⟨r, hr, hrp, hw, rfl⟩⟩ := h
  · exact key hp hne
  · intro hl
    refine key hrp hr ?_
    rw [← hw]
    cases w with
    | nil => simp at hl
    | cons c t => rw [List.getLast?_cons_cons]; exact hl

/-! ### the call -/

/-- The state with a directory and everything in it removed. -/
def FS.without (fs : FS D) (p : FPath) : FS D :=
  ⟨fun q => if p <+: q then none else fs.files q, fun q => !(decide (p <+: q)) && fs.dirs q⟩

/-- The state with a new directory. -/
def FS.withDir (fs : FS D) (p : FPath) : FS D := { fs with dirs := fun q => decide (q = p) || fs.dirs q }

theorem inTempDir_eq (p : FPath) (m : FM D Unit) (fs : FS D) :
    inTempDir p m fs =
      ⟨fs.withDir p :: ((m (fs.withDir p)).trace ++ [(m (fs.withDir p)).fs.without p]),
        (m (fs.withDir p)).fs.without p, (m (fs.withDir p)).out⟩ := by
  unfold inTempDir
  rw [FM.get_bind, FM.put_bind]
  rfl

theorem checked_eq (m : FM D Bool) (fs : FS D) (ok : Bool) (h : (m fs).out = .ok ok) :
    checked m fs = ⟨(m fs).trace, (m fs).fs, if ok = true then .ok () else .error .runtimeError⟩ := by
  rw [checked, FM.bind_def, h]
  cases ok <;> simp [FM.cond, FM.raise, FM.pure_def]

theorem FM.status_out (m : FM D Unit) (fs : FS D) :
    (FM.status m fs).out = .ok (decide ((m fs).out = .ok ())) := by
  unfold FM.status
  cases (m fs).out with
  | ok u => simp
  | error e => simp

/-- The call, once the words of the copy command are known. -/
theorem geom_eq (g : GeomEnv D) (tilename ofile : PyStr) {fs : FS D} {T : FPath} (hg : g.Sound fs T) :
    ∃ st ok, GeomStart g fs T tilename st ∧ (g.easyaccess T st).out = .ok ok ∧
      makeCoaddtileGeomFits g tilename ofile fs =
        if ok = true then
          ⟨fs.withDir T :: (st :: ((g.easyaccess T st).trace ++
              (checked (runShell g.env g.other g.cwd ("cp ".toList ++ (pathText T ++ "/ctg.fits".toList) ++ ' ' :: ofile))
                (g.easyaccess T st).fs).trace) ++
              [(checked (runShell g.env g.other g.cwd ("cp ".toList ++ (pathText T ++ "/ctg.fits".toList) ++ ' ' :: ofile))
                (g.easyaccess T st).fs).fs.without T]),
            (checked (runShell g.env g.other g.cwd ("cp ".toList ++ (pathText T ++ "/ctg.fits".toList) ++ ' ' :: ofile))
              (g.easyaccess T st).fs).fs.without T,
            (checked (runShell g.env g.other g.cwd ("cp ".toList ++ (pathText T ++ "/ctg.fits".toList) ++ ' ' :: ofile))
              (g.easyaccess T st).fs).out⟩
        else ⟨fs.withDir T :: (st :: (g.easyaccess T st).trace ++ [(g.easyaccess T st).fs.without T]),
          (g.easyaccess T st).fs.without T, .error .runtimeError⟩ := by
  have hT : splitPath g.tmpdir = T := by rw [hg.text, splitPath_pathText hg.plain]
  have hq : splitPath (pyJoin g.tmpdir "sql.txt".toList) = T ++ ["sql.txt"] := by
    rw [hg.text, pyJoin_snoc hg.plain hg.root (by decide), splitPath_pathText
      (plain_append hg.plain (plain_one (by decide) (by decide)))]
    simp
  have he : "cp ".toList ++ g.tmpdir ++ "/ctg.fits ".toList ++ ofile =
      "cp ".toList ++ (pathText T ++ "/ctg.fits".toList) ++ ' ' :: ofile := by
    rw [hg.text]; simp
  obtain ⟨st, hst⟩ : ∃ st, st = (fs.withDir T).set (T ++ ["sql.txt"]) (some (g.text (geomQuery tilename g.tmpdir))) :=
    ⟨_, rfl⟩
  obtain ⟨ok, hok⟩ := hg.ends st
  have hw : writeAt (T ++ ["sql.txt"]) [g.text (geomQuery tilename g.tmpdir)] (fs.withDir T) = ⟨[st], st, .ok ()⟩ := by
    rw [hst]; rfl
  refine ⟨st, ok, ⟨⟨geomQuery tilename g.tmpdir, ?_, ?_⟩, ?_, ?_⟩, hok, ?_⟩
  · have hl : "\nSELECT ID, PIXELSCALE, NAXIS1, NAXIS2,\n    RA_CENT, DEC_CENT,\n    RA_SIZE,DEC_SIZE,\n    RAC1, RAC2, RAC3, RAC4,\n    DECC1, DECC2, DECC3, DECC4,\n    RACMIN,RACMAX,DECCMIN,DECCMAX,\n    CROSSRA0\nFROM coaddtile_geom\n    WHERE tilename='".toList =
        "\nSELECT ID, PIXELSCALE, NAXIS1, NAXIS2,\n    RA_CENT, DEC_CENT,\n    RA_SIZE,DEC_SIZE,\n    RAC1, RAC2, RAC3, RAC4,\n    DECC1, DECC2, DECC3, DECC4,\n    RACMIN,RACMAX,DECCMIN,DECCMAX,\n    CROSSRA0".toList ++ "\nFROM coaddtile_geom\n    WHERE tilename='".toList := by decide +kernel
    unfold geomQuery
    rw [hg.text, hl]
    exact ⟨_, rfl, by decide +kernel⟩
  · rw [hst]; simp [FS.set]
  · intro q hq
    rw [hst]; simp [FS.set, hq, FS.withDir]
  · intro q
    rw [hst]; simp [FS.set, FS.withDir]
  · unfold makeCoaddtileGeomFits
    rw [inTempDir_eq, hT, hq, he]
    rw [FM.bind_def, hw]
    dsimp only
    rw [FM.bind_def, checked_eq _ st ok hok]
    dsimp only
    cases ok <;> simp

/-- A copy fails if the source is missing, the directory is missing or the copy does not run to its end, and
succeeds otherwise; only the destination changes. -/
theorem shCopy_out (env : FsEnv D) (src dst : FPath) (fs : FS D) :
    ((shCopy env src dst fs).out = .ok () ↔
      (∃ d, fs.files src = some d) ∧ fs.dirs dst.dir = true ∧ env.copyOk src dst = true) ∧
    (fs.files src = none ∨ fs.dirs dst.dir = false →
      (shCopy env src dst fs).fs = fs ∧ (shCopy env src dst fs).trace = []) := by
  rw [shCopy, FM.get_bind]
  cases hs : fs.files src with
  | none => simp [FM.raise]
  | some d =>
    dsimp only
    cases hd : fs.dirs dst.dir with
    | false => simp [FM.raise]
    | true =>
      rw [if_pos rfl, FM.bind_def, (writeAt_result dst (env.partials d) fs).1]
      cases hc : env.copyOk src dst with
      | false => simp [FM.cond, FM.raise]
      | true =>
        simp only [FM.cond, if_true]
        rw [(writeAt_result dst [d] _).1]
        simp

theorem names_ctg {g : GeomEnv D} {fs : FS D} {T : FPath} (hg : g.Sound fs T) :
    NamesPath g.cwd (pathText T ++ "/ctg.fits".toList) (T ++ ["ctg.fits"]) ∧
    Ordinary (pathText T ++ "/ctg.fits".toList) ∧ (pathText T ++ "/ctg.fits".toList).head? ≠ some '-' := by
  have e : pathText T ++ "/ctg.fits".toList = pathText (T ++ ["ctg.fits"]) := by
    simp [pathText]
  refine ⟨⟨by simp, .inl ⟨plain_append hg.plain ?_, e⟩⟩, ?_, ?_⟩
  · intro c hc
    rw [List.mem_singleton] at hc
    subst hc
    decide
  · refine ordinary_append (hg.text ▸ hg.ordinary) ?_
    rw [ordinary_iff]
    decide
  · obtain ⟨c, t, rfl⟩ := List.exists_cons_of_ne_nil hg.root
    simp [pathText]

/-- Outside the temporary directory nothing but the output changes. -/
theorem without_files (fs : FS D) (T q : FPath) :
    (fs.without T).files q = if T <+: q then none else fs.files q := rfl

theorem without_dirs (fs : FS D) (T q : FPath) :
    (fs.without T).dirs q = (!(decide (T <+: q)) && fs.dirs q) := rfl

theorem same_of_outside {g : GeomEnv D} {fs : FS D} {T : FPath} (hg : g.Sound fs T) {st : FS D}
    (h : ∀ q, ¬ T <+: q → st.files q = fs.files q ∧ st.dirs q = fs.dirs q) : SameFs (st.without T) fs := by
  constructor
  · intro q
    rw [without_files]
    split
    · rename_i hq; rw [hg.newFiles q hq]
    · rename_i hq; exact (h q hq).1
  · intro q
    rw [without_dirs]
    by_cases hq : T <+: q
    · rw [hg.newDirs q hq]; simp [hq]
    · simp [hq, (h q hq).2]

theorem start_outside {g : GeomEnv D} {fs : FS D} {T : FPath} {tilename : PyStr} {st : FS D}
    (h : GeomStart g fs T tilename st) (q : FPath) (hq : ¬ T <+: q) :
    st.files q = fs.files q ∧ st.dirs q = fs.dirs q := by
  refine ⟨h.2.1 q fun e => hq ⟨_, e.symm⟩, ?_⟩
  have h1 := h.2.2 q
  have h2 : q ≠ T := fun e => hq (e ▸ List.prefix_refl _)
  rw [Bool.eq_iff_iff, h1]
  simp [h2]

/-- C128: for an output path that is one word for the shell, easyaccess gets the query for the tile in a
new directory.  If it fails or leaves no answer, or the directory of the output is missing, the call raises and the files are what they were.  If the copy breaks off, the
call raises and only the output may have changed.  Otherwise the call returns, the output is what
easyaccess wrote, and nothing else has changed; the temporary directory is gone in all cases. -/
theorem C128_one_word_partial (g : GeomEnv D) (tilename ofile : PyStr) (fs : FS D) (T O : FPath) (hg : g.Sound fs T)
    (hw : OneWord ofile) (ho : NamesPath g.cwd ofile O) (hT : ¬ T <+: O) (hTd : ¬ T <+: O.dir)
    (hdir : fs.dirs O = false) :
    ∃ st ok, GeomStart g fs T tilename st ∧ (g.easyaccess T st).out = .ok ok ∧
      ∀ res, makeCoaddtileGeomFits g tilename ofile fs = res →
        (ok = false ∨ (g.easyaccess T st).fs.files (T ++ ["ctg.fits"]) = none ∨ fs.dirs O.dir = false →
          res.out = .error .runtimeError ∧ SameFs res.fs fs) ∧
        (g.env.copyOk (T ++ ["ctg.fits"]) O = false →
          res.out = .error .runtimeError ∧ (∀ q, q ≠ O → res.fs.files q = fs.files q) ∧
          ∀ q, res.fs.dirs q = fs.dirs q) ∧
        (∀ d, ok = true → (g.easyaccess T st).fs.files (T ++ ["ctg.fits"]) = some d → fs.dirs O.dir = true →
          g.env.copyOk (T ++ ["ctg.fits"]) O = true →
          res.out = .ok () ∧ res.fs.files O = some d ∧ (∀ q, q ≠ O → res.fs.files q = fs.files q) ∧
          ∀ q, res.fs.dirs q = fs.dirs q) := by
  obtain ⟨st, ok, hst, hok, he⟩ := geom_eq g tilename ofile hg
  refine ⟨st, ok, hst, hok, fun res hres => ?_⟩
  subst hres
  rw [he]
  have hout : ∀ q, ¬ T <+: q → (g.easyaccess T st).fs.files q = fs.files q ∧
      (g.easyaccess T st).fs.dirs q = fs.dirs q := fun q hq =>
    ⟨((hg.only st _ (by simp) q hq).1).trans (start_outside hst q hq).1,
      ((hg.only st _ (by simp) q hq).2).trans (start_outside hst q hq).2⟩
  cases ok with
  | false =>
    refine ⟨fun _ => ⟨rfl, same_of_outside hg hout⟩, fun _ => ⟨rfl, fun q _ => (same_of_outside hg hout).1 q,
      (same_of_outside hg hout).2⟩, fun d h => by simp at h⟩
  | true =>
    obtain ⟨hc1, hc2, hc3⟩ := names_ctg hg
    obtain ⟨r, hr⟩ : ∃ r, r = (g.easyaccess T st).fs := ⟨_, rfl⟩
    rw [← hr] at hout ⊢
    have hsh : runShell g.env g.other g.cwd ("cp ".toList ++ (pathText T ++ "/ctg.fits".toList) ++ ' ' :: ofile) r =
        FM.status (shCopy g.env (T ++ ["ctg.fits"]) O) r := by
      rw [runShell, shWords_cp hc2 (by simp) hw.2.1 hw.1]
      dsimp only
      rw [if_pos ⟨rfl, by simp [hw.2.2]; simpa using hc3⟩]
      simp only [List.dropLast_cons_cons, List.dropLast_singleton, List.getLast_singleton]
      rw [shCp, FM.get_bind, shPath_names ho, (hout O hT).2, hdir]
      rw [if_neg (by simp), if_neg (names_last ho), shPath_names hc1]
    rw [if_pos rfl]
    obtain ⟨hc, hn⟩ := shCopy_out g.env (T ++ ["ctg.fits"]) O r
    have hst' : (runShell g.env g.other g.cwd ("cp ".toList ++ (pathText T ++ "/ctg.fits".toList) ++ ' ' :: ofile) r).out =
        .ok (decide ((shCopy g.env (T ++ ["ctg.fits"]) O r).out = .ok ())) := by rw [hsh, FM.status_out]
    rw [checked_eq _ r _ hst', hsh]
    have hfs : (FM.status (shCopy g.env (T ++ ["ctg.fits"]) O) r).fs = (shCopy g.env (T ++ ["ctg.fits"]) O r).fs := rfl
    rw [hfs]
    dsimp only
    have hOd : r.dirs O.dir = fs.dirs O.dir := (hout _ hTd).2
    -- the copy changes the output only
    have hcp : (∀ q, q ≠ O → (shCopy g.env (T ++ ["ctg.fits"]) O r).fs.files q = r.files q) ∧
        ∀ q, (shCopy g.env (T ++ ["ctg.fits"]) O r).fs.dirs q = r.dirs q := by
      have := (shCopy_keeps (P := fun a : FS D => (∀ q, q ≠ O → a.files q = r.files q) ∧ ∀ q, a.dirs q = r.dirs q)
        g.env (src := T ++ ["ctg.fits"]) (dst := O)
        (fun a d ha => ⟨fun q hq => by simp [FS.set, hq, ha.1 q hq], ha.2⟩) r ⟨fun _ _ => rfl, fun _ => rfl⟩).2
      exact this
    have hfin : (∀ q, q ≠ O → ((shCopy g.env (T ++ ["ctg.fits"]) O r).fs.without T).files q = fs.files q) ∧
        ∀ q, ((shCopy g.env (T ++ ["ctg.fits"]) O r).fs.without T).dirs q = fs.dirs q := by
      refine ⟨fun q hq => ?_, fun q => ?_⟩
      · rw [without_files]
        split
        · rename_i h; rw [hg.newFiles q h]
        · rename_i h; rw [hcp.1 q hq, (hout q h).1]
      · rw [without_dirs]
        by_cases h : T <+: q
        · rw [hg.newDirs q h]; simp [h]
        · simp [h, hcp.2 q, (hout q h).2]
    refine ⟨fun h => ?_, fun h => ?_, fun d _ h1 h2 h3 => ?_⟩
    · have h' : r.files (T ++ ["ctg.fits"]) = none ∨ r.dirs O.dir = false := by
        rcases h with h | h | h
        · exact absurd h (by simp)
        · exact .inl h
        · exact .inr (hOd.trans h)
      obtain ⟨hn1, -⟩ := hn h'
      rw [hn1]
      refine ⟨?_, same_of_outside hg hout⟩
      rw [if_neg]
      rw [decide_eq_true_eq, hc]
      rintro ⟨⟨d, hd⟩, h2, -⟩
      rcases h' with h' | h'
      · rw [h'] at hd; cases hd
      · rw [h'] at h2; cases h2
    · refine ⟨?_, hfin⟩
      rw [if_neg]
      rw [decide_eq_true_eq, hc, h]
      simp
    · have hcok : (shCopy g.env (T ++ ["ctg.fits"]) O r).out = .ok () := hc.2 ⟨⟨d, h1⟩, hOd.trans h2, h3⟩
      refine ⟨by rw [if_pos (by simp [hcok])], ?_, hfin⟩
      obtain ⟨d', h4, h5, -⟩ := shCopy_ok hcok
      rw [without_files, if_neg hT, h5]
      rw [h4] at h1
      cases h1
      simp [FS.set]

/-- C128 fails for paths with a blank: the shell takes the path for two words, so the call raises and
leaves no output, whatever easyaccess answers (unless the second word is a directory). -/
theorem C128_blank_fails (g : GeomEnv D) (tilename u v : PyStr) (fs : FS D) (T V : FPath) (hg : g.Sound fs T)
    (hu : OneWord u) (hv : OneWord v) (hV : NamesPath g.cwd v V) (hT : ¬ T <+: V) (hdir : fs.dirs V = false) :
    ∀ res, makeCoaddtileGeomFits g tilename (u ++ ' ' :: v) fs = res →
      res.out = .error .runtimeError ∧ SameFs res.fs fs := by
  obtain ⟨st, ok, hst, hok, he⟩ := geom_eq g tilename (u ++ ' ' :: v) hg
  intro res hres
  subst hres
  rw [he]
  have hout : ∀ q, ¬ T <+: q → (g.easyaccess T st).fs.files q = fs.files q ∧
      (g.easyaccess T st).fs.dirs q = fs.dirs q := fun q hq =>
    ⟨((hg.only st _ (by simp) q hq).1).trans (start_outside hst q hq).1,
      ((hg.only st _ (by simp) q hq).2).trans (start_outside hst q hq).2⟩
  cases ok with
  | false => exact ⟨rfl, same_of_outside hg hout⟩
  | true =>
    obtain ⟨hc1, hc2, hc3⟩ := names_ctg hg
    obtain ⟨r, hr⟩ : ∃ r, r = (g.easyaccess T st).fs := ⟨_, rfl⟩
    rw [← hr] at hout ⊢
    have hsh : runShell g.env g.other g.cwd
        ("cp ".toList ++ (pathText T ++ "/ctg.fits".toList) ++ ' ' :: (u ++ ' ' :: v)) r = ⟨[], r, .ok false⟩ := by
      rw [runShell, shWords_cp2 hc2 (by simp) hu.2.1 hu.1 hv.2.1 hv.1]
      dsimp only
      rw [if_pos ⟨rfl, by simp [hu.2.2, hv.2.2]; simpa using hc3⟩]
      simp only [List.dropLast_cons_cons, List.dropLast_singleton]
      rw [shCp, FM.get_bind, List.getLast_cons (by simp), List.getLast_singleton, shPath_names hV, (hout V hT).2, hdir]
      · rfl
      · intro src h
        simp at h
    rw [if_pos rfl, checked_eq _ r false (by rw [hsh]), hsh]
    exact ⟨rfl, same_of_outside hg hout⟩

/-- C128 fails if the path asked for is a directory: the answer goes into the directory under the name `ctg.fits` and the
call returns, with no file at the path asked for.  If there is no answer, if `ctg.fits` is a directory there or if the
copy breaks off the call raises.  Nothing else changes. -/
theorem C128_directory_fails (g : GeomEnv D) (tilename ofile : PyStr) (fs : FS D) (T O : FPath) (hg : g.Sound fs T)
    (hw : OneWord ofile) (ho : NamesPath g.cwd ofile O) (hT : ¬ T <+: O ++ ["ctg.fits"]) (hdir : fs.dirs O = true) :
    ∃ st ok, GeomStart g fs T tilename st ∧ (g.easyaccess T st).out = .ok ok ∧
      ∀ res, makeCoaddtileGeomFits g tilename ofile fs = res →
        (∀ q, q ≠ O ++ ["ctg.fits"] → res.fs.files q = fs.files q) ∧ (∀ q, res.fs.dirs q = fs.dirs q) ∧
        (ok = false ∨ (g.easyaccess T st).fs.files (T ++ ["ctg.fits"]) = none ∨ fs.dirs (O ++ ["ctg.fits"]) = true ∨
          g.env.copyOk (T ++ ["ctg.fits"]) (O ++ ["ctg.fits"]) = false → res.out = .error .runtimeError) ∧
        (∀ d, ok = true → (g.easyaccess T st).fs.files (T ++ ["ctg.fits"]) = some d → fs.dirs (O ++ ["ctg.fits"]) = false →
          g.env.copyOk (T ++ ["ctg.fits"]) (O ++ ["ctg.fits"]) = true →
          res.out = .ok () ∧ res.fs.files (O ++ ["ctg.fits"]) = some d ∧ res.fs.files O = fs.files O) := by
  obtain ⟨st, ok, hst, hok, he⟩ := geom_eq g tilename ofile hg
  refine ⟨st, ok, hst, hok, fun res hres => ?_⟩
  subst hres
  rw [he]
  have hout : ∀ q, ¬ T <+: q → (g.easyaccess T st).fs.files q = fs.files q ∧
      (g.easyaccess T st).fs.dirs q = fs.dirs q := fun q hq =>
    ⟨((hg.only st _ (by simp) q hq).1).trans (start_outside hst q hq).1,
      ((hg.only st _ (by simp) q hq).2).trans (start_outside hst q hq).2⟩
  have hTO : ¬ T <+: O := fun h => hT (h.trans (List.prefix_append _ _))
  cases ok with
  | false =>
    have hs := same_of_outside hg hout
    exact ⟨fun q _ => hs.1 q, hs.2, fun _ => rfl, fun d h => by simp at h⟩
  | true =>
    obtain ⟨hc1, hc2, hc3⟩ := names_ctg hg
    obtain ⟨r, hr⟩ : ∃ r, r = (g.easyaccess T st).fs := ⟨_, rfl⟩
    rw [← hr] at hout ⊢
    obtain ⟨m, hm⟩ : ∃ m : FM D Unit, m = if r.dirs (O ++ ["ctg.fits"]) = true then FM.raise .ioError
      else shCopy g.env (T ++ ["ctg.fits"]) (O ++ ["ctg.fits"]) := ⟨_, rfl⟩
    have hsh : runShell g.env g.other g.cwd ("cp ".toList ++ (pathText T ++ "/ctg.fits".toList) ++ ' ' :: ofile) r =
        ⟨(m r).trace, (m r).fs, .ok (decide ((m r).out = .ok ()))⟩ := by
      rw [runShell, shWords_cp hc2 (by simp) hw.2.1 hw.1]
      dsimp only
      rw [if_pos ⟨rfl, by simp [hw.2.2]; simpa using hc3⟩]
      simp only [List.dropLast_cons_cons, List.dropLast_singleton, List.getLast_singleton]
      rw [shCp, FM.get_bind, shPath_names ho, (hout O hTO).2, hdir, if_pos rfl]
      simp only [List.map_cons, List.map_nil, shPath_names hc1]
      have hj : FPath.join O (FPath.base (T ++ ["ctg.fits"])) = O ++ ["ctg.fits"] := by simp [FPath.join, FPath.base]
      rw [cpInto, FM.get_bind, hj, ← hm, FM.bind_def, FM.status_out]
      simp [cpInto, FM.bind_def, FM.pure_def, FM.status]
    rw [if_pos rfl, checked_eq _ r _ (by rw [hsh]), hsh]
    dsimp only
    have hdO : r.dirs (O ++ ["ctg.fits"]) = fs.dirs (O ++ ["ctg.fits"]) := (hout _ hT).2
    have hcp : (∀ q, q ≠ O ++ ["ctg.fits"] → (m r).fs.files q = r.files q) ∧ ∀ q, (m r).fs.dirs q = r.dirs q := by
      rw [hm]
      split
      · exact ⟨fun _ _ => rfl, fun _ => rfl⟩
      · exact (shCopy_keeps (P := fun a : FS D => (∀ q, q ≠ O ++ ["ctg.fits"] → a.files q = r.files q) ∧ ∀ q, a.dirs q = r.dirs q)
          g.env (src := T ++ ["ctg.fits"]) (dst := O ++ ["ctg.fits"])
          (fun a d ha => ⟨fun q hq => by simp [FS.set, hq, ha.1 q hq], ha.2⟩) r ⟨fun _ _ => rfl, fun _ => rfl⟩).2
    have hfin : (∀ q, q ≠ O ++ ["ctg.fits"] → ((m r).fs.without T).files q = fs.files q) ∧
        ∀ q, ((m r).fs.without T).dirs q = fs.dirs q := by
      refine ⟨fun q hq => ?_, fun q => ?_⟩
      · rw [without_files]
        split
        · rename_i h; rw [hg.newFiles q h]
        · rename_i h; rw [hcp.1 q hq, (hout q h).1]
      · rw [without_dirs]
        by_cases h : T <+: q
        · rw [hg.newDirs q h]; simp [h]
        · simp [h, hcp.2 q, (hout q h).2]
    have hOd : FPath.dir (O ++ ["ctg.fits"]) = O := by simp [FPath.dir]
    obtain ⟨hc, -⟩ := shCopy_out g.env (T ++ ["ctg.fits"]) (O ++ ["ctg.fits"]) r
    refine ⟨hfin.1, hfin.2, fun h => ?_, fun d _ h1 h2 h3 => ?_⟩
    · rw [if_neg]
      rw [decide_eq_true_eq, hm]
      split
      · simp [FM.raise]
      · rename_i hn
        rw [hc]
        rintro ⟨⟨d, hd⟩, -, h3⟩
        rcases h with h | h | h | h
        · exact absurd h (by simp)
        · rw [h] at hd; cases hd
        · exact hn (hdO.trans h)
        · rw [h] at h3; cases h3
    · have hm' : m = shCopy g.env (T ++ ["ctg.fits"]) (O ++ ["ctg.fits"]) := by
        rw [hm, if_neg]
        rw [hdO, h2]
        simp
      have hcok : (m r).out = .ok () := by
        rw [hm', hc, hOd]
        exact ⟨⟨d, h1⟩, (hout O hTO).2.trans hdir, h3⟩
      refine ⟨by rw [if_pos (by simp [hcok])], ?_, hfin.1 O fun e => ?_⟩
      · rw [hm'] at hcok ⊢
        obtain ⟨d', h4, h5, -⟩ := shCopy_ok hcok
        rw [without_files, if_neg hT, h5]
        rw [h4] at h1
        cases h1
        simp [FS.set]
      · have := congrArg List.length e
        simp at this

/-- C128: a path that ends in a slash and is no directory is refused. -/
theorem C128_slash (g : GeomEnv D) (tilename w : PyStr) (fs : FS D) (T O : FPath) (hg : g.Sound fs T)
    (hw : OneWord w) (ho : NamesPath g.cwd w O) (hT : ¬ T <+: O) (hdir : fs.dirs O = false) :
    ∀ res, makeCoaddtileGeomFits g tilename (w ++ ['/']) fs = res → res.out = .error .runtimeError ∧ SameFs res.fs fs := by
  obtain ⟨st, ok, hst, hok, he⟩ := geom_eq g tilename (w ++ ['/']) hg
  intro res hres
  subst hres
  rw [he]
  have hout : ∀ q, ¬ T <+: q → (g.easyaccess T st).fs.files q = fs.files q ∧
      (g.easyaccess T st).fs.dirs q = fs.dirs q := fun q hq =>
    ⟨((hg.only st _ (by simp) q hq).1).trans (start_outside hst q hq).1,
      ((hg.only st _ (by simp) q hq).2).trans (start_outside hst q hq).2⟩
  cases ok with
  | false => exact ⟨rfl, same_of_outside hg hout⟩
  | true =>
    obtain ⟨hc1, hc2, hc3⟩ := names_ctg hg
    obtain ⟨r, hr⟩ : ∃ r, r = (g.easyaccess T st).fs := ⟨_, rfl⟩
    rw [← hr] at hout ⊢
    have hsp : shPath g.cwd (w ++ ['/']) = O := by
      rw [← shPath_names ho]
      unfold shPath
      rw [splitPath_slash]
      obtain ⟨c, t, rfl⟩ := List.exists_cons_of_ne_nil hw.1
      simp
    have hord : Ordinary (w ++ ['/']) := ordinary_append hw.2.1 ((ordinary_iff _).2 (by decide))
    have hhd : (w ++ ['/']).head? ≠ some '-' := by
      obtain ⟨c, t, rfl⟩ := List.exists_cons_of_ne_nil hw.1
      simpa using hw.2.2
    have hsh : runShell g.env g.other g.cwd
        ("cp ".toList ++ (pathText T ++ "/ctg.fits".toList) ++ ' ' :: (w ++ ['/'])) r = ⟨[], r, .ok false⟩ := by
      rw [runShell, shWords_cp hc2 (by simp) hord (by simp)]
      dsimp only
      rw [if_pos ⟨rfl, by
        rw [List.all_eq_true]
        intro a ha
        simp only [List.mem_cons, List.not_mem_nil, or_false] at ha
        rcases ha with rfl | rfl
        · simpa using hc3
        · simpa using hhd⟩]
      simp only [List.dropLast_cons_cons, List.dropLast_singleton, List.getLast_singleton]
      rw [shCp, FM.get_bind, hsp, (hout O hT).2, hdir]
      rw [if_neg (by simp), if_pos (by simp)]
      rfl
    rw [if_pos rfl, checked_eq _ r false (by rw [hsh]), hsh]
    exact ⟨rfl, same_of_outside hg hout⟩

/-- C128: at no time does a file outside the temporary directory other than the output change. -/
theorem C128_at_all_times (g : GeomEnv D) (tilename ofile : PyStr) (fs : FS D) (T O : FPath) (hg : g.Sound fs T)
    (hw : OneWord ofile) (ho : NamesPath g.cwd ofile O) (hT : ¬ T <+: O) (hdir : fs.dirs O = false) :
    ∀ a ∈ (makeCoaddtileGeomFits g tilename ofile fs).trace, ∀ q, ¬ T <+: q → q ≠ O →
      a.files q = fs.files q ∧ a.dirs q = fs.dirs q := by
  obtain ⟨st, ok, hst, hok, he⟩ := geom_eq g tilename ofile hg
  rw [he]
  obtain ⟨P, hP⟩ : ∃ P : FS D → Prop, P = fun a => ∀ q, ¬ T <+: q → q ≠ O → a.files q = fs.files q ∧ a.dirs q = fs.dirs q :=
    ⟨_, rfl⟩
  have hea : ∀ a ∈ (g.easyaccess T st).fs :: (g.easyaccess T st).trace, ∀ q, ¬ T <+: q →
      a.files q = fs.files q ∧ a.dirs q = fs.dirs q := fun a ha q hq =>
    ⟨((hg.only st a ha q hq).1).trans (start_outside hst q hq).1,
      ((hg.only st a ha q hq).2).trans (start_outside hst q hq).2⟩
  have hwithout : ∀ a, P a → P (a.without T) := by
    rw [hP]
    intro a ha q hq hqO
    rw [without_files, without_dirs, if_neg hq]
    simpa [hq] using ha q hq hqO
  have hd : P (fs.withDir T) := by
    rw [hP]
    intro q hq _
    refine ⟨rfl, ?_⟩
    have : q ≠ T := fun e => hq (e ▸ List.prefix_refl _)
    simp [FS.withDir, this]
  have hs : P st := by
    rw [hP]
    exact fun q hq _ => start_outside hst q hq
  have hr : ∀ a ∈ (g.easyaccess T st).fs :: (g.easyaccess T st).trace, P a := by
    intro a ha
    rw [hP]
    exact fun q hq _ => hea a ha q hq
  suffices h : ∀ a ∈ (if ok = true then _ else _ : FRes D Unit).trace, P a by
    rw [hP] at h
    exact h
  split
  · obtain ⟨hc1, hc2, hc3⟩ := names_ctg hg
    obtain ⟨r, hrr⟩ : ∃ r, r = (g.easyaccess T st).fs := ⟨_, rfl⟩
    have hsh : runShell g.env g.other g.cwd ("cp ".toList ++ (pathText T ++ "/ctg.fits".toList) ++ ' ' :: ofile) r =
        FM.status (shCopy g.env (T ++ ["ctg.fits"]) O) r := by
      rw [runShell, shWords_cp hc2 (by simp) hw.2.1 hw.1]
      dsimp only
      rw [if_pos ⟨rfl, by simp [hw.2.2]; simpa using hc3⟩]
      simp only [List.dropLast_cons_cons, List.dropLast_singleton, List.getLast_singleton]
      rw [shCp, FM.get_bind, shPath_names ho, hrr, (hea _ (by simp) O hT).2, hdir]
      rw [if_neg (by simp), if_neg (names_last ho), shPath_names hc1]
    have hst' : (runShell g.env g.other g.cwd ("cp ".toList ++ (pathText T ++ "/ctg.fits".toList) ++ ' ' :: ofile) r).out =
        .ok (decide ((shCopy g.env (T ++ ["ctg.fits"]) O r).out = .ok ())) := by rw [hsh, FM.status_out]
    rw [← hrr, checked_eq _ r _ hst', hsh]
    have hk := shCopy_keeps (P := P) g.env (src := T ++ ["ctg.fits"]) (dst := O) (fun a d ha => by
      rw [hP] at ha ⊢
      intro q hq hqO
      refine ⟨?_, (ha q hq hqO).2⟩
      rw [← (ha q hq hqO).1]
      simp [FS.set, hqO]) r (hr r (by simp [hrr]))
    intro a ha
    simp only [List.mem_cons, List.mem_append, List.cons_append, List.not_mem_nil, or_false] at ha
    rcases ha with rfl | rfl | (ha | ha) | rfl
    · exact hd
    · exact hs
    · exact hr a (by simp [ha])
    · exact hk.1 a ha
    · exact hwithout _ hk.2
  · intro a ha
    simp only [List.mem_cons, List.mem_append, List.cons_append, List.not_mem_nil, or_false] at ha
    rcases ha with rfl | rfl | ha | rfl
    · exact hd
    · exact hs
    · exact hr a (by simp [ha])
    · exact hwithout _ (hr _ (by simp))

/-! ### an example -/

/-- A machine with the directories /tmp and /out; easyaccess answers with one file. -/
def exGeomFs : FS PyStr := ⟨fun _ => none, fun q => decide (q = [] ∨ q = ["tmp"] ∨ q = ["out"])⟩

def exGeomEnv : GeomEnv PyStr where
  env := ⟨fun _ => true, fun _ _ => true, fun _ => [], fun _ _ => true⟩
  tmpdir := "/tmp/t1".toList
  cwd := ["out"]
  easyaccess := fun t => do
    writeAt (t ++ ["ctg.fits"]) ["answer".toList]
    pure true
  other := fun _ => pure false
  text := id

theorem exGeom_sound : exGeomEnv.Sound exGeomFs ["tmp", "t1"] := by
  refine ⟨by simp, ?_, by rfl, ?_, fun q _ => rfl, ?_, ?_, fun st => ⟨true, rfl⟩⟩
  · intro c hc
    rw [List.mem_cons, List.mem_singleton] at hc
    rcases hc with rfl | rfl <;> decide
  · rw [ordinary_iff]; decide
  · rintro q ⟨t, rfl⟩
    simp [exGeomFs]
  · intro fs st hst q hq
    have e : st = fs.set (["tmp", "t1"] ++ ["ctg.fits"]) (some "answer".toList) := by
      have h2 : st ∈ [fs.set (["tmp", "t1"] ++ ["ctg.fits"]) (some "answer".toList),
        fs.set (["tmp", "t1"] ++ ["ctg.fits"]) (some "answer".toList)] := hst
      simpa using h2
    subst e
    have : q ≠ ["tmp", "t1"] ++ ["ctg.fits"] := fun e => hq ⟨_, e.symm⟩
    exact ⟨by simp only [FS.set]; rw [if_neg this], rfl⟩

theorem exGeom_names : NamesPath exGeomEnv.cwd "geom.fits".toList ["out", "geom.fits"] :=
  ⟨by simp, .inr ⟨["geom.fits"], by simp, by
    intro c hc
    rw [List.mem_singleton] at hc
    subst hc
    decide, by rfl, rfl⟩⟩

theorem exGeom_word : OneWord "geom.fits".toList := ⟨by decide, (ordinary_iff _).2 (by decide), by decide⟩

/-- `C128_one_word_partial` with a path below the working directory: the answer arrives there. -/
example : ∃ res, makeCoaddtileGeomFits exGeomEnv "DES0146-3623".toList "geom.fits".toList exGeomFs = res ∧
    res.out = .ok () ∧ res.fs.files ["out", "geom.fits"] = some "answer".toList := by
  obtain ⟨st, ok, -, h1, h2⟩ := C128_one_word_partial exGeomEnv "DES0146-3623".toList "geom.fits".toList exGeomFs
    ["tmp", "t1"] ["out", "geom.fits"] exGeom_sound exGeom_word exGeom_names (by decide) (by decide) (by decide)
  have hok : ok = true := by
    have : (Except.ok true : Except Err Bool) = .ok ok := h1
    injection this with h; exact h.symm
  obtain ⟨h3, h4, -⟩ := (h2 _ rfl).2.2 "answer".toList hok (by rfl) (by decide) rfl
  exact ⟨_, rfl, h3, h4⟩

/-- `C128_at_all_times` on the same call. -/
example := C128_at_all_times exGeomEnv "DES0146-3623".toList "geom.fits".toList exGeomFs
    ["tmp", "t1"] ["out", "geom.fits"] exGeom_sound exGeom_word exGeom_names (by decide) (by decide)

/-- `C128_blank_fails` for the path `tile geom.fits`. -/
example : (makeCoaddtileGeomFits exGeomEnv "DES0146-3623".toList "tile geom.fits".toList exGeomFs).out =
    .error .runtimeError :=
  (C128_blank_fails exGeomEnv "DES0146-3623".toList "tile".toList "geom.fits".toList exGeomFs
    ["tmp", "t1"] ["out", "geom.fits"] exGeom_sound ⟨by decide, (ordinary_iff _).2 (by decide), by decide⟩
    exGeom_word exGeom_names (by decide) (by decide) _ rfl).1

/-- `C128_directory_fails` for the directory `/out`: the call returns and there is no file at that path. -/
example : ∃ res, makeCoaddtileGeomFits exGeomEnv "DES0146-3623".toList "/out".toList exGeomFs = res ∧
    res.out = .ok () ∧ res.fs.files ["out"] = none ∧ res.fs.files ["out", "ctg.fits"] = some "answer".toList := by
  obtain ⟨st, ok, -, h1, h2⟩ := C128_directory_fails exGeomEnv "DES0146-3623".toList "/out".toList exGeomFs
    ["tmp", "t1"] ["out"] exGeom_sound ⟨by decide, (ordinary_iff _).2 (by decide), by decide⟩
    ⟨by simp, .inl ⟨by
      intro c hc
      rw [List.mem_singleton] at hc
      subst hc
      decide, by rfl⟩⟩ (by decide) (by decide)
  have hok : ok = true := by
    have : (Except.ok true : Except Err Bool) = .ok ok := h1
    injection this with h; exact h.symm
  obtain ⟨res, hres⟩ : ∃ res, makeCoaddtileGeomFits exGeomEnv "DES0146-3623".toList "/out".toList exGeomFs = res := ⟨_, rfl⟩
  obtain ⟨h3, h4, h5⟩ := (h2 res hres).2.2.2 "answer".toList hok (by rfl) (by decide) rfl
  exact ⟨res, hres, h3, h5, h4⟩

/-- `C128_slash` for the path `geom.fits/`. -/
example : (makeCoaddtileGeomFits exGeomEnv "DES0146-3623".toList ("geom.fits".toList ++ ['/']) exGeomFs).out = .error .runtimeError :=
  (C128_slash exGeomEnv "DES0146-3623".toList "geom.fits".toList exGeomFs
    ["tmp", "t1"] ["out", "geom.fits"] exGeom_sound exGeom_word exGeom_names (by decide) (by decide) _ rfl).1

end Pizza
