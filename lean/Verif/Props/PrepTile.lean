import Verif.Spec.PrepTile
import Verif.Props.CheckInfo
import Verif.Props.DesTile
import Verif.Props.Files
import Verif.Props.Publish
import Verif.Props.CliRun

/-!
Preparing a tile (C112).
-/

namespace Pizza
variable {A D : Type}

/-! ### texts of paths -/

theorem splitSlash_noslash {a : PyStr} (h : '/' ∉ a) : splitSlash a = [a] := by
  induction a with
  | nil => rfl
  | cons c a ih =>
    have hc : c ≠ '/' := fun e => h (by simp [e])
    rw [splitSlash, if_neg hc, ih fun hm => h (by simp [hm])]

theorem splitSlash_append (a b : PyStr) : splitSlash (a ++ '/' :: b) = splitSlash a ++ splitSlash b := by
  induction a with
  | nil => simp [splitSlash]
  | cons c a ih =>
    rw [List.cons_append, splitSlash, splitSlash]
    split
    · rw [ih]; rfl
    · rw [ih]
      have : splitSlash a ≠ [] := by
        cases a with
        | nil => simp [splitSlash]
        | cons d a =>
          rw [splitSlash]
          split
          · simp
          · split <;> simp
      cases hs : splitSlash a with
      | nil => exact absurd hs this
      | cons x t => rfl

theorem splitPath_append (a b : PyStr) : splitPath (a ++ '/' :: b) = splitPath a ++ splitPath b := by
  rw [splitPath, splitSlash_append, List.filter_append, List.map_append]
  rfl

theorem splitPath_one {c : PyStr} (h : c ≠ []) (hs : '/' ∉ c) : splitPath c = [String.ofList c] := by
  rw [splitPath, splitSlash_noslash hs]
  simp [h]

theorem pathText_append (a b : FPath) : pathText (a ++ b) = pathText a ++ pathText b := by
  simp [pathText]

theorem pathText_one (c : PyStr) : pathText [String.ofList c] = '/' :: c := by
  simp [pathText]

theorem pathText_snoc (a : FPath) (c : PyStr) : pathText (a ++ [String.ofList c]) = pathText a ++ '/' :: c := by
  rw [pathText_append, pathText_one]

theorem plain_append {a b : FPath} (ha : PlainPath a) (hb : PlainPath b) : PlainPath (a ++ b) := by
  intro c hc
  rcases List.mem_append.1 hc with h | h
  · exact ha c h
  · exact hb c h

theorem plain_one {c : PyStr} (h : c ≠ []) (hs : '/' ∉ c) : PlainPath [String.ofList c] := by
  intro x hx
  rw [List.mem_singleton] at hx
  subst hx
  simp [h, hs]

theorem splitPath_pathText {p : FPath} (h : PlainPath p) : splitPath (pathText p) = p := by
  induction p using List.reverseRecOn with
  | nil => rfl
  | append_singleton p c ih =>
    have hc := h c (by simp)
    have hp : PlainPath p := fun x hx => h x (by simp [hx])
    have e : [c] = [String.ofList c.toList] := by simp
    rw [e, pathText_snoc, splitPath_append, ih hp, splitPath_one hc.1 hc.2]

/-- The text of a path does not end in a slash. -/
theorem pathText_end {p : FPath} (h : PlainPath p) (hne : p ≠ []) :
    pathText p ≠ [] ∧ pyEndsWith (pathText p) ['/'] = false := by
  obtain ⟨q, c, rfl⟩ : ∃ q c, p = q ++ [c] := ⟨p.dropLast, p.getLast hne, (List.dropLast_append_getLast hne).symm⟩
  have hc := h c (by simp)
  have e : [c] = [String.ofList c.toList] := by simp
  rw [e, pathText_snoc]
  refine ⟨by simp, ?_⟩
  rw [pyEndsWith, Bool.eq_false_iff]
  intro hs
  rw [List.isSuffixOf_iff_suffix] at hs
  obtain ⟨t, ht⟩ := hs
  have h1 := congrArg List.getLast? ht
  obtain ⟨d, x, hd⟩ : ∃ d x, c.toList = d ++ [x] :=
    ⟨c.toList.dropLast, c.toList.getLast hc.1, (List.dropLast_append_getLast hc.1).symm⟩
  rw [hd] at h1
  have h2 : pathText q ++ '/' :: (d ++ [x]) = (pathText q ++ '/' :: d) ++ [x] := by simp
  rw [h2, List.getLast?_concat, List.getLast?_concat] at h1
  cases h1
  exact hc.2 (by rw [hd]; simp)

theorem starts_false {b : PyStr} (hb : b.head? ≠ some '/') : pyStartsWith b ['/'] = false := by
  cases b with
  | nil => rfl
  | cons c l =>
    have : c ≠ '/' := fun e => hb (by rw [e]; rfl)
    simp [pyStartsWith, List.isPrefixOf, Ne.symm this]

theorem head_ne_slash {b : PyStr} (h : '/' ∉ b) : b.head? ≠ some '/' := by
  intro e
  exact h (List.mem_of_mem_head? (by rw [e]; rfl))

theorem pyJoin_pathText {p : FPath} (h : PlainPath p) (hne : p ≠ []) {s : PyStr} (hs : s.head? ≠ some '/') :
    pyJoin (pathText p) s = pathText p ++ '/' :: s := by
  obtain ⟨h1, h2⟩ := pathText_end h hne
  rw [pyJoin, starts_false hs, h2]
  simp [h1]

theorem pyJoin_snoc {p : FPath} (h : PlainPath p) (hne : p ≠ []) {s : PyStr} (hs : '/' ∉ s) :
    pyJoin (pathText p) s = pathText (p ++ [String.ofList s]) := by
  rw [pyJoin_pathText h hne (head_ne_slash hs), pathText_snoc]

theorem pyDirname_snoc (d c : PyStr) (h : '/' ∉ c) : pyDirname (d ++ '/' :: c) = d ++ ['/'] := by
  unfold pyDirname
  have e : (d ++ '/' :: c).reverse = c.reverse ++ '/' :: d.reverse := by simp
  rw [e, List.dropWhile_append_of_pos]
  · simp
  · intro x hx
    simp only [ne_eq, decide_eq_true_eq]
    exact fun e => h (e ▸ List.mem_reverse.1 hx)

theorem splitPath_slash (d : PyStr) : splitPath (d ++ ['/']) = splitPath d := by
  rw [splitPath_append]
  simp [splitPath, splitSlash]

/-! ### the query -/

theorem sqlLike_literal {v : PyStr} (h : ∀ c ∈ v, c ≠ '%' ∧ c ≠ '_') (s : PyStr) :
    sqlLike v s = true ↔ s = v := by
  induction v generalizing s with
  | nil => cases s <;> simp [sqlLike]
  | cons a v ih =>
    obtain ⟨h1, h2⟩ := h a (by simp)
    cases s with
    | nil => rw [sqlLike.eq_def]; simp
    | cons c s =>
      rw [sqlLike.eq_6 _ _ _ _ h1, Bool.and_eq_true, ih (fun c hc => h c (by simp [hc])) s]
      simp only [beq_iff_eq, h2, Bool.or_eq_true, false_or, List.cons.injEq]
      exact and_congr_left fun _ => eq_comm

theorem sqlLike_suffix {v : PyStr} (h : ∀ c ∈ v, c ≠ '%' ∧ c ≠ '_') (s : PyStr) :
    sqlLike ('%' :: v) s = true ↔ ∃ mid, s = mid ++ v := by
  induction s with
  | nil =>
    rw [sqlLike, sqlLike_literal h]
    simp [eq_comm]
  | cons c s ih =>
    rw [sqlLike, Bool.or_eq_true, sqlLike_literal h, ih]
    constructor
    · rintro (e | ⟨mid, rfl⟩)
      · exact ⟨[], e⟩
      · exact ⟨c :: mid, rfl⟩
    · rintro ⟨_ | ⟨x, mid⟩, e⟩
      · exact .inl e
      · cases e
        exact .inr ⟨mid, rfl⟩

theorem sqlLike_between {t v : PyStr} (ht : ∀ c ∈ t, c ≠ '%' ∧ c ≠ '_') (h : ∀ c ∈ v, c ≠ '%' ∧ c ≠ '_')
    (s : PyStr) : sqlLike (t ++ '%' :: v) s = true ↔ ∃ mid, s = t ++ mid ++ v := by
  induction t generalizing s with
  | nil => simpa using sqlLike_suffix h s
  | cons a t ih =>
    obtain ⟨h1, h2⟩ := ht a (by simp)
    cases s with
    | nil => rw [List.cons_append, sqlLike.eq_def]; simp
    | cons c s =>
      rw [List.cons_append, sqlLike.eq_6 _ _ _ _ h1, Bool.and_eq_true, ih (fun c hc => ht c (by simp [hc])) s]
      simp only [h2, beq_iff_eq, Bool.or_eq_true, false_or, List.cons_append, List.cons.injEq]
      constructor
      · rintro ⟨e, mid, e'⟩
        exact ⟨mid, e.symm, e'⟩
      · rintro ⟨mid, e, e'⟩
        exact ⟨e.symm, mid, e'⟩

theorem getGaiaPath_iff {p : Prep A D} {meds tdir : FPath} {conf : PyStr} (h : PrepAt p meds tdir conf)
    (g : PyStr) : getGaiaPath p.table p.tilename "v1".toList = .ok g ↔
      ∃ r rp, GaiaFile p r rp ∧ '/' :: g = pathText (rp ++ [String.ofList r.filename]) := by
  have hq : ∀ r : ArchiveRow, (r.filetype == "cat_tile_gaia".toList &&
      sqlLike (p.tilename ++ '%' :: "v1".toList ++ ".fits".toList) r.filename) = true ↔
      IsGaiaRow p.tilename r := by
    intro r
    have e : p.tilename ++ '%' :: "v1".toList ++ ".fits".toList = p.tilename ++ '%' :: "v1.fits".toList := by
      rw [List.append_assoc]; rfl
    rw [e, Bool.and_eq_true, sqlLike_between
      (fun c hc => ⟨fun e => h.tile.2.2 (e ▸ hc), fun e => h.tile.2.1 (e ▸ hc)⟩) (by decide)]
    simp [IsGaiaRow]
  have hjoin : ∀ r ∈ p.table, IsGaiaRow p.tilename r → ∀ rp, PlainPath rp → '/' :: r.path = pathText rp →
      '/' :: pyJoin r.path r.filename = pathText (rp ++ [String.ofList r.filename]) := by
    intro r hr hg rp hp hd
    have hne : rp ≠ [] := by
      rintro rfl
      cases hd
    obtain ⟨h1, h2⟩ := pathText_end hp hne
    have hs := (h.rows r hr).1
    rw [pathText_snoc, ← hd]
    rw [pyJoin, starts_false (head_ne_slash hs)]
    have hne' : r.path ≠ [] := by
      intro e
      rw [e] at hd
      rw [← hd] at h2
      cases h2
    have hend : pyEndsWith r.path ['/'] = false := by
      rw [← hd] at h2
      rw [Bool.eq_false_iff] at h2 ⊢
      intro hs
      apply h2
      rw [pyEndsWith, List.isSuffixOf_iff_suffix] at hs ⊢
      exact hs.trans (List.suffix_cons _ _)
    rw [hend]
    simp [hne']
  unfold getGaiaPath
  constructor
  · intro hg
    split at hg
    · cases hg
    · rename_i r l hf
      cases hg
      obtain ⟨pre, post, e1, e2, e3, -⟩ := List.filter_eq_cons_iff.1 hf
      have hmem : r ∈ p.table := by rw [e1]; simp
      have hrow := (hq r).1 e3
      obtain ⟨-, rp, hp, -, hd⟩ := h.rows r hmem
      exact ⟨r, rp, ⟨⟨pre, post, e1, fun r' hr' hg' => e2 r' hr' ((hq r').2 hg')⟩, hrow, hp, hd⟩,
        hjoin r hmem hrow rp hp hd⟩
  · rintro ⟨r, rp, ⟨⟨pre, post, e1, e2⟩, hrow, hp, hd⟩, e⟩
    have hmem : r ∈ p.table := by rw [e1]; simp
    have hf := List.filter_eq_cons_iff.2 ⟨pre, post, e1, fun r' hr' hg' => e2 r' hr' ((hq r').1 hg'),
      (hq r).2 hrow, rfl⟩
    rw [hf]
    have := hjoin r hmem hrow rp hp hd
    rw [← e] at this
    exact congrArg Except.ok (List.cons.inj this).2

/-! ### the check -/

theorem seesPath_view (v : Option (TVal A)) (h : (v.isNone || (viewPath v).isSome) = true) :
    SeesPath v (viewPath v) := by
  rcases v with _ | v
  · exact .missing
  · cases v <;> first | exact .null | exact .text _ | cases h

theorem seesStr_view (v : Option (TVal A)) (h : (v.isNone || (viewStr v).isSome) = true) :
    SeesStr v (viewStr v) := by
  rcases v with _ | v
  · exact .missing
  · cases v <;> first | exact .text _ | cases h

theorem seesNat_view (v : Option (TVal A)) (h : (v.isNone || (viewNat v).isSome) = true) :
    SeesNat v (viewNat v) := by
  rcases v with _ | v
  · exact .missing
  · cases v <;> first | exact .num _ | cases h

theorem SeesPath.view {v : Option (TVal A)} {x : Option (Option PyStr)} (h : SeesPath v x) :
    (v.isNone || (viewPath v).isSome) = true ∧ viewPath v = x := by
  cases h <;> exact ⟨rfl, rfl⟩

theorem SeesStr.view {v : Option (TVal A)} {x : Option PyStr} (h : SeesStr v x) :
    (v.isNone || (viewStr v).isSome) = true ∧ viewStr v = x := by
  cases h <;> exact ⟨rfl, rfl⟩

theorem SeesNat.view {v : Option (TVal A)} {x : Option Nat} (h : SeesNat v x) :
    (v.isNone || (viewNat v).isSome) = true ∧ viewNat v = x := by
  cases h <;> exact ⟨rfl, rfl⟩

theorem seesSrc_iff (d : TDict A) :
    typedDict (seKeys ++ ["head_path"]) ["band", "tilename"] ["expnum", "ccdnum"] d = true ↔
      SeesSrc d (checkSrcView d) := by
  simp only [typedDict, Bool.and_eq_true, List.all_eq_true]
  constructor
  · rintro ⟨⟨h1, h2⟩, h3⟩
    exact ⟨fun k hk => seesPath_view _ (h1 k hk), seesStr_view _ (h2 _ (by simp)), seesStr_view _ (h2 _ (by simp)),
      seesNat_view _ (h3 _ (by simp)), seesNat_view _ (h3 _ (by simp))⟩
  · intro h
    refine ⟨⟨fun k hk => (h.paths k hk).view.1, fun k hk => ?_⟩, fun k hk => ?_⟩
    · fin_cases hk
      · exact h.band.view.1
      · exact h.tilename.view.1
    · fin_cases hk
      · exact h.expnum.view.1
      · exact h.ccdnum.view.1

theorem srcFits_congr {tile band : PyStr} {d : TDict A} {c : CheckSrc} {e n : Nat} (hs : SeesSrc d c)
    (h : SrcFits tile band c e n) : SrcFits tile band (checkSrcView d) e n where
  exp := hs.expnum.view.2.trans h.exp
  ccd := hs.ccdnum.view.2.trans h.ccd
  sameBand := hs.band.view.2.trans h.sameBand
  sameTile := hs.tilename.view.2.trans h.sameTile
  slug key p b hp hb hk := h.slug key p b
    ⟨((hs.paths key (List.mem_append_left ["head_path"] hk)).view.2).symm.trans hp.1, hp.2⟩ hb hk
  head p b hp hb := h.head p b ⟨((hs.paths _ (by simp)).view.2).symm.trans hp.1, hp.2⟩ hb

theorem sees_view_iff (d : TDict A) (src : List (TDict A)) :
    (typedDict (coaddKeys ++ ["cat_path"]) ["band"] [] d &&
      src.all (typedDict (seKeys ++ ["head_path"]) ["band", "tilename"] ["expnum", "ccdnum"])) = true ↔
      Sees d src (checkView d src) := by
  rw [Bool.and_eq_true, List.all_eq_true]
  have hscale : (checkView d src).scale = some 1 ↔ d "scale" = some (.num 1) ∨ d "scale" = some (.nat 1) := by
    unfold checkView
    dsimp only
    split
    · rename_i x hx
      rw [hx]
      simp only [Option.some.injEq, TVal.num.injEq, reduceCtorEq, or_false]
      split
      · simpa
      · simpa
    · rename_i n hn
      rw [hn]
      simp
    · rename_i h1 h2
      simp only [reduceCtorEq, false_iff, not_or]
      exact ⟨h1 1, h2 1⟩
  constructor
  · rintro ⟨h1, h2⟩
    simp only [typedDict, Bool.and_eq_true, List.all_eq_true] at h1
    refine ⟨fun k hk => seesPath_view _ (h1.1.1 k hk), hscale, seesStr_view _ (h1.1.2 _ (by simp)), ?_⟩
    show List.Forall₂ SeesSrc src (src.map checkSrcView)
    rw [List.forall₂_map_right_iff, List.forall₂_same]
    exact fun d hd => (seesSrc_iff d).1 (h2 d hd)
  · intro h
    refine ⟨?_, ?_⟩
    · simp only [typedDict, Bool.and_eq_true, List.all_eq_true]
      refine ⟨⟨fun k hk => (h.paths k hk).view.1, fun k hk => ?_⟩, fun k hk => by simp at hk⟩
      fin_cases hk
      exact h.band.view.1
    · have := h.srcs
      change List.Forall₂ SeesSrc src (src.map checkSrcView) at this
      rw [List.forall₂_map_right_iff, List.forall₂_same] at this
      exact fun d hd => (seesSrc_iff d).2 (this d hd)

theorem sees_consistent {d : TDict A} {src : List (TDict A)} {c : CheckInfo} {tile band : PyStr}
    (hs : Sees d src c) (h : Consistent c tile band) : Sees d src (checkView d src) ∧
      Consistent (checkView d src) tile band := by
  have hp : ∀ k ∈ ["image_path", "seg_path", "bmask_path", "psf_path", "gaia_stars_file", "cat_path"],
      (checkView d src).paths k = c.paths k := fun k hk => (hs.paths k hk).view.2
  have hv : Sees d src (checkView d src) := by
    rw [← sees_view_iff, Bool.and_eq_true, List.all_eq_true]
    refine ⟨?_, ?_⟩
    · simp only [typedDict, Bool.and_eq_true, List.all_eq_true]
      refine ⟨⟨fun k hk => (hs.paths k hk).view.1, fun k hk => ?_⟩, fun k hk => by simp at hk⟩
      fin_cases hk
      exact hs.band.view.1
    · intro x hx
      obtain ⟨i, hi, rfl⟩ := List.getElem_of_mem hx
      have h2 := (List.forall₂_iff_get.1 hs.srcs).2 i hi (by rw [← hs.srcs.length_eq]; exact hi)
      rw [seesSrc_iff]
      refine ⟨fun k hk => seesPath_view _ (h2.paths k hk).view.1, seesStr_view _ h2.band.view.1,
        seesStr_view _ h2.tilename.view.1, seesNat_view _ h2.expnum.view.1, seesNat_view _ h2.ccdnum.view.1⟩
  have hhas : ∀ k ∈ ["image_path", "seg_path", "bmask_path", "psf_path", "gaia_stars_file", "cat_path"],
      ∀ p, HasPath (checkView d src).paths k p ↔ HasPath c.paths k p := fun k hk p => by
    rw [HasPath, HasPath, hp k hk]
  refine ⟨hv, ⟨hv.scale.2 (hs.scale.1 h.scale), hs.band.view.2.trans h.ownBand, ?_, ?_, ?_, ?_, ?_, ?_, ?_, ?_⟩⟩
  · obtain ⟨k, hk, p, hq⟩ := h.present
    exact ⟨k, hk, p, (hhas k (List.mem_append_left ["cat_path"] hk) p).2 hq⟩
  · intro k hk p b hq hb
    exact h.oneTile k hk p b ((hhas k (List.mem_append_left ["cat_path"] hk) p).1 hq) hb
  · exact fun p hq => h.image p ((hhas _ (by simp) p).1 hq)
  · exact fun p hq => h.bmask p ((hhas _ (by simp) p).1 hq)
  · exact fun p hq => h.cat p ((hhas _ (by simp) p).1 hq)
  · exact fun p hq => h.psf p ((hhas _ (by simp) p).1 hq)
  · exact fun p hq => h.seg p ((hhas _ (by simp) p).1 hq)
  · intro ii hii
    obtain ⟨x, hx, rfl⟩ := List.mem_map.1 (show ii ∈ src.map checkSrcView from hii)
    obtain ⟨i, hi, rfl⟩ := List.getElem_of_mem hx
    have hl : i < c.srcs.length := by rw [← hs.srcs.length_eq]; exact hi
    have h2 := (List.forall₂_iff_get.1 hs.srcs).2 i hi hl
    obtain ⟨e, n, hf⟩ := h.srcs _ (List.getElem_mem hl)
    exact ⟨e, n, srcFits_congr h2 hf⟩

theorem checkDescription_iff (d : TDict A) (src : List (TDict A)) :
    checkDescription d src = .ok () ↔ ∃ c tile band, Sees d src c ∧ Consistent c tile band := by
  unfold checkDescription
  split
  · rename_i h
    rw [C78_check_info]
    constructor
    · rintro ⟨tile, band, hc⟩
      exact ⟨_, tile, band, (sees_view_iff d src).1 h, hc⟩
    · rintro ⟨c, tile, band, hs, hc⟩
      exact ⟨tile, band, (sees_consistent hs hc).2⟩
  · rename_i h
    simp only [reduceCtorEq, false_iff]
    rintro ⟨c, tile, band, hs, hc⟩
    exact h ((sees_view_iff d src).2 (sees_consistent hs hc).1)

/-! ### the places -/

theorem prep_medsconf {p : Prep A D} {meds tdir : FPath} {conf : PyStr} (h : PrepAt p meds tdir conf) :
    p.medsconf = conf := stem_of_configName h.name.1

theorem prep_output {p : Prep A D} {meds tdir : FPath} {conf : PyStr} (h : PrepAt p meds tdir conf) :
    splitPath p.output = infoPlace meds conf p.tilename p.band := by
  have hc : '/' ∉ conf := h.name.1.1
  have hn : '/' ∉ p.tilename ++ '_' :: p.band ++ "_pizza_cutter_info.yaml".toList := by
    intro hm
    simp only [List.mem_append, List.mem_cons] at hm
    rcases hm with (hm | hm | hm) | hm
    · exact h.tile.1 hm
    · cases hm
    · exact h.band hm
    · revert hm; decide
  have h1 : PlainPath (meds ++ [String.ofList conf]) := plain_append h.medsPlain.1 (plain_one h.name.2 hc)
  have h2 : PlainPath (meds ++ [String.ofList conf] ++ [String.ofList "pizza_cutter_info".toList]) :=
    plain_append h1 (plain_one (by decide) (by decide))
  have h3 := plain_append h2 (plain_one (c := p.tilename ++ '_' :: p.band ++ "_pizza_cutter_info.yaml".toList)
    (by simp) hn)
  rw [Prep.output, prep_medsconf h, getDesInfoFile, h.medsDir, pyJoin_snoc h.medsPlain.1 h.medsPlain.2 hc,
    pyJoin_snoc h1 (by simp) (by decide), pyJoin_snoc h2 (by simp) hn, splitPath_pathText h3, infoPlace]
  simp

theorem prep_sourceDir {p : Prep A D} {meds tdir : FPath} {conf : PyStr} (h : PrepAt p meds tdir conf) :
    p.sourceDir = pathText (tdir ++ [String.ofList ("sources-".toList ++ p.band)]) ∧
    PlainPath (tdir ++ [String.ofList ("sources-".toList ++ p.band)]) := by
  have hb : '/' ∉ "sources-".toList ++ p.band := by
    rw [List.mem_append]
    rintro (hm | hm)
    · revert hm; decide
    · exact h.band hm
  refine ⟨?_, plain_append h.tilePlain.1 (plain_one (by simp) hb)⟩
  rw [Prep.sourceDir, prep_medsconf h, h.tileDir, pyJoin_snoc h.tilePlain.1 h.tilePlain.2 hb]

/-- The path in the description, the target of the download and its directory. -/
theorem prep_gaia {p : Prep A D} {meds tdir : FPath} {conf : PyStr} (h : PrepAt p meds tdir conf)
    {r : ArchiveRow} {rp : FPath} (hr : GaiaFile p r rp) {g : PyStr}
    (hg : '/' :: g = pathText (rp ++ [String.ofList r.filename])) :
    pyJoin p.sourceDir g = pathText (gaiaPlace tdir p.band rp r) ∧
    splitPath (p.sourceDir ++ '/' :: g) = gaiaPlace tdir p.band rp r ∧
    splitPath (pyDirname (pyJoin p.sourceDir g)) = (gaiaPlace tdir p.band rp r).dropLast ∧
    PlainPath (gaiaPlace tdir p.band rp r) := by
  obtain ⟨hs, hsp⟩ := prep_sourceDir h
  obtain ⟨pre, post, e, -⟩ := hr.first
  have hf : '/' ∉ r.filename := (h.rows r (by rw [e]; simp)).1
  have hfne : r.filename ≠ [] := by
    obtain ⟨mid, e⟩ := hr.row.2
    rw [e]
    simp
  have hne : rp ≠ [] := by
    rintro rfl
    cases hr.dir
  have htail : PlainPath (rp ++ [String.ofList r.filename]) := plain_append hr.plain (plain_one hfne hf)
  have hplain : PlainPath (gaiaPlace tdir p.band rp r) := by
    have := plain_append hsp htail
    rwa [← List.append_assoc] at this
  have hhead : g.head? ≠ some '/' := by
    obtain ⟨c, l, rfl⟩ := List.exists_cons_of_ne_nil hne
    have hc := hr.plain c (by simp)
    have : g = c.toList ++ pathText (l ++ [String.ofList r.filename]) := by
      have e2 : pathText (c :: l ++ [String.ofList r.filename]) =
        '/' :: (c.toList ++ pathText (l ++ [String.ofList r.filename])) := by simp [pathText]
      rw [e2] at hg
      exact (List.cons.inj hg).2
    rw [this]
    intro e
    cases hcl : c.toList with
    | nil => exact hc.1 hcl
    | cons x t =>
      rw [hcl] at e
      simp only [List.cons_append, List.head?_cons, Option.some.injEq] at e
      exact hc.2 (by rw [hcl, e]; simp)
  have htext : p.sourceDir ++ '/' :: g = pathText (gaiaPlace tdir p.band rp r) := by
    rw [hs, hg, ← pathText_append, gaiaPlace]
    simp
  have hjoin : pyJoin p.sourceDir g = pathText (gaiaPlace tdir p.band rp r) := by
    rw [hs, pyJoin_pathText hsp (by simp) hhead, ← hs, htext]
  refine ⟨hjoin, by rw [htext, splitPath_pathText hplain], ?_, hplain⟩
  rw [hjoin, gaiaPlace, pathText_snoc, pyDirname_snoc _ _ hf, splitPath_slash, splitPath_pathText,
    List.dropLast_concat]
  intro c hc
  exact hplain c (by rw [gaiaPlace]; exact List.mem_append_left _ hc)

theorem places_ne {p : Prep A D} {r : ArchiveRow} (hr : IsGaiaRow p.tilename r)
    (meds tdir rp : FPath) (conf band : PyStr) :
    gaiaPlace tdir band rp r ≠ infoPlace meds conf p.tilename band := by
  intro e
  have h1 := congrArg List.getLast? e
  rw [gaiaPlace, infoPlace, List.getLast?_concat] at h1
  have h2 : (meds ++ [String.ofList conf, "pizza_cutter_info",
      String.ofList (p.tilename ++ "_".toList ++ band ++ "_pizza_cutter_info.yaml".toList)]).getLast? =
      some (String.ofList (p.tilename ++ "_".toList ++ band ++ "_pizza_cutter_info.yaml".toList)) := by
    simp
  rw [h2, Option.some.injEq] at h1
  have h3 := congrArg String.toList h1
  simp only [String.toList_ofList] at h3
  obtain ⟨mid, hm⟩ := hr.2
  rw [hm] at h3
  have h4 := congrArg List.getLast? h3
  have a1 : "v1.fits".toList.getLast? = some 's' := by decide
  have a2 : "_pizza_cutter_info.yaml".toList.getLast? = some 'l' := by decide
  simp only [List.getLast?_append, a1, a2, Option.some_or, Option.some.injEq] at h4
  exact absurd h4 (by decide)

/-! ### the description -/

theorem described_iff {p : Prep A D} {meds tdir : FPath} {conf : PyStr} (h : PrepAt p meds tdir conf)
    {r : ArchiveRow} {rp : FPath} (hr : GaiaFile p r rp) {g : PyStr}
    (hg : '/' :: g = pathText (rp ++ [String.ofList r.filename])) (info : TDict A) (src : List (TDict A)) :
    prepInfo p g = .ok (info, src) ↔
      ∃ tile band, Described p (gaiaPlace tdir p.band rp r) info src tile band := by
  obtain ⟨hjoin, -, -, -⟩ := prep_gaia h hr hg
  have hput : ∀ info0 : TDict A, info0.put "gaia_stars_file" (.str (pyJoin p.sourceDir g)) =
      fun k => if k = "gaia_stars_file" then some (.str (pathText (gaiaPlace tdir p.band rp r))) else info0 k := by
    intro info0
    funext k
    rw [hjoin, TDict.put, Function.update_apply]
  have hnamed : ∀ {info0 : TDict A} {c : CheckInfo} {tile band : PyStr},
      CoaddDone p.db (fun k => if k = "gaia_stars_file" then
        some (.str (pathText (gaiaPlace tdir p.band rp r))) else info0 k) info →
      Sees info src c → Consistent c tile band → p.tilename <+: tile := by
    intro info0 c tile band hd hs hc
    have h1 : info "gaia_stars_file" = some (.str (pathText (gaiaPlace tdir p.band rp r))) := by
      rw [hd.rest _ (by decide)]
      simp
    have h2 := (hs.paths "gaia_stars_file" (by simp)).view.2
    rw [h1] at h2
    have h3 : HasPath c.paths "gaia_stars_file" (pathText (gaiaPlace tdir p.band rp r)) :=
      ⟨h2.symm, by rw [gaiaPlace, pathText_snoc]; simp⟩
    obtain ⟨pre, post, e, -⟩ := hr.first
    have hf : '/' ∉ r.filename := (h.rows r (by rw [e]; simp)).1
    have h4 : IsBase (pathText (gaiaPlace tdir p.band rp r)) r.filename :=
      ⟨hf, .inr ⟨_, by rw [gaiaPlace, pathText_snoc]⟩⟩
    have h5 := hc.oneTile _ (by simp) _ _ h3 h4
    rw [isTile_iff] at h5
    rw [h5, beforeUnderscore]
    obtain ⟨mid, hm⟩ := hr.row.2
    rw [hm, List.append_assoc, List.takeWhile_append_of_pos]
    · exact List.prefix_append _ _
    · intro x hx
      simp only [ne_eq, decide_eq_true_eq]
      exact fun e => h.tile.2.1 (e ▸ hx)
  unfold prepInfo
  constructor
  · intro hp
    obtain ⟨⟨info0, src0⟩, h1, hp⟩ := bind_eq_ok.1 hp
    obtain ⟨camp, h2, hp⟩ := bind_eq_ok.1 hp
    obtain ⟨⟨info', src'⟩, h3, hp⟩ := bind_eq_ok.1 hp
    obtain ⟨_, h4, hp⟩ := bind_eq_ok.1 hp
    cases hp
    obtain ⟨c, hc, rfl⟩ : ∃ c, p.piffCampaign = some c ∧ pyUpper c = camp := by
      cases hpc : p.piffCampaign with
      | none => rw [hpc] at h2; cases h2
      | some c => rw [hpc] at h2; cases h2; exact ⟨c, rfl, rfl⟩
    rw [C102_tile_info, hput] at h3
    obtain ⟨x, tile, band, hs, hcon⟩ := (checkDescription_iff _ _).1 h4
    exact ⟨tile, band, ⟨info0, src0, c, h1, hc, h3.1, h3.2⟩, ⟨x, hs, hcon⟩, hnamed h3.1 hs hcon⟩
  · rintro ⟨tile, band, ⟨info0, src0, c, h1, hc, h3, h4⟩, ⟨x, hs, hcon⟩, -⟩
    have h5 := (checkDescription_iff info src).2 ⟨x, tile, band, hs, hcon⟩
    have h6 := (C102_tile_info p.db (some (pyUpper c)) _ info src0 src).2 ⟨h3, h4⟩
    rw [h1, ok_bind, hc]
    dsimp only
    rw [hput]
    show (addExtraTileInfo _ _ _ _ >>= _) = _
    rw [h6, ok_bind, h5]
    rfl

/-! ### the file operations -/

theorem FM.lift_ok {α β : Type} (a : α) (f : α → FM D β) : (FM.lift (.ok a) >>= f) = f a := rfl

theorem FM.lift_error {α β : Type} (e : Err) (f : α → FM D β) : (FM.lift (.error e) >>= f) = FM.raise e := rfl

theorem writeSlow_keeps {P : FS D → Prop} (env : FsEnv D) (q : FPath) (d : D) (ok : Bool)
    (h : ∀ fs x, P fs → x ∈ env.partials d ∨ x = d → P (fs.set q (some x))) :
    (writeSlow env q d ok).Keeps P := by
  refine FM.Keeps.get fun fs hp => ?_
  split
  · refine FM.Keeps.bind (writeAt_keeps _ fun fs x hx hp => h fs x hp (.inl hx)) (fun _ => ?_) fs hp
    unfold FM.cond
    split
    · exact writeAt_keeps _ fun fs x hx hp => h fs x hp (.inr (by simpa using hx))
    · exact FM.Keeps.raise _
  · exact FM.Keeps.raise _ fs hp

theorem writeSlow_ok {env : FsEnv D} {q : FPath} {d : D} {ok : Bool} {fs : FS D}
    (h : (writeSlow env q d ok fs).out = .ok ()) :
    (writeSlow env q d ok fs).fs.files q = some d ∧
    (∀ q', q' ≠ q → (writeSlow env q d ok fs).fs.files q' = fs.files q') := by
  unfold writeSlow at h ⊢
  rw [FM.get_bind] at h ⊢
  split at h
  · rename_i hc
    rw [if_pos hc]
    obtain ⟨_, -, h2, h3⟩ := FM.ok_inv h
    rw [h3]
    cases ok with
    | false => cases h2
    | true =>
      obtain ⟨-, -, r3⟩ := writeAt_result q [d] (writeAt q (env.partials d) fs).fs
      obtain ⟨-, -, w3⟩ := writeAt_result q (env.partials d) fs
      have e : FM.cond true (writeAt q [d]) (FM.raise .ioError) = writeAt q [d] := rfl
      rw [e, r3]
      refine ⟨by simp [FS.set], fun q' hq' => ?_⟩
      simp only [List.getLast?_singleton, FS.set, hq', if_false]
      rw [w3]
      cases (env.partials d).getLast? with
      | none => rfl
      | some y => simp [FS.set, hq']
  · cases h

theorem writeSlow_succeeds {env : FsEnv D} {q : FPath} {d : D} {fs : FS D} (h1 : fs.dirs q.dropLast = true)
    (h2 : fs.dirs q = false) : (writeSlow env q d true fs).out = .ok () ∧
      (writeSlow env q d true fs).fs.dirs = fs.dirs := by
  unfold writeSlow
  rw [FM.get_bind, if_pos ⟨h1, h2⟩, FM.bind_def]
  obtain ⟨w1, w2, -⟩ := writeAt_result q (env.partials d) fs
  obtain ⟨r1, r2, -⟩ := writeAt_result q [d] (writeAt q (env.partials d) fs).fs
  rw [w1]
  exact ⟨r1, r2.trans w2⟩

theorem osMakedirsOk_keeps {P : FS D → Prop} (env : FsEnv D) (d : FPath)
    (h : ∀ (fs : FS D) dirs, P fs → P { fs with dirs := dirs }) : (osMakedirsOk env d).Keeps P := by
  refine FM.Keeps.get fun fs hp => ?_
  unfold FM.cond
  split
  · exact FM.Keeps.pure _ fs hp
  · exact osMakedirs_keeps env d h fs hp

theorem downloadArchiveFile_keeps {P : FS D → Prop} (env : FsEnv D) (archive : PyStr → Option D) (ok : Bool)
    (g s : PyStr) (h : ∀ (fs : FS D) dirs, P fs → P { fs with dirs := dirs })
    (h' : ∀ fs x, P fs → P (fs.set (splitPath (s ++ '/' :: g)) (some x))) :
    (downloadArchiveFile env archive ok g s).Keeps P := by
  refine FM.Keeps.bind (osMakedirsOk_keeps env _ h) fun _ => ?_
  cases archive g with
  | none => exact FM.Keeps.raise _
  | some d => exact writeSlow_keeps env _ _ _ fun fs x hp _ => h' fs x hp

theorem downloadArchiveFile_ok {env : FsEnv D} {archive : PyStr → Option D} {ok : Bool} {g s : PyStr} {fs : FS D}
    (h : (downloadArchiveFile env archive ok g s fs).out = .ok ()) :
    ∃ x, archive g = some x ∧
      (downloadArchiveFile env archive ok g s fs).fs.files (splitPath (s ++ '/' :: g)) = some x := by
  obtain ⟨_, -, h2, h3⟩ := FM.ok_inv h
  unfold downloadArchiveFile
  rw [h3]
  cases ha : archive g with
  | none => rw [ha] at h2; cases h2
  | some d =>
    rw [ha] at h2
    exact ⟨d, rfl, (writeSlow_ok h2).1⟩

theorem raiseIf_keeps {P : FS D → Prop} (o : Option Err) : (raiseIf o : FM D Unit).Keeps P := by
  cases o with
  | none => exact FM.Keeps.pure _
  | some e => exact FM.Keeps.raise e

/-- **C112** At any time, also if the program fails or is killed, the description is as it was before, or
complete and consistent with the new one being written: nothing is written at its place before every check
has passed, and nothing at all with `--clean`. -/
theorem C112_untouched (env : FsEnv D) (p : Prep A D) (meds tdir : FPath) (conf : PyStr) (fs : FS D)
    (h : PrepAt p meds tdir conf)
    (hdl : ∀ fs, ∀ st ∈ crashStates p.download fs,
      st.files (infoPlace meds conf p.tilename p.band) = fs.files (infoPlace meds conf p.tilename p.band))
    (hcl : ∀ fs, ∀ st ∈ crashStates p.cleanUp fs,
      st.files (infoPlace meds conf p.tilename p.band) = fs.files (infoPlace meds conf p.tilename p.band)) :
    ∀ st ∈ crashStates (prepTile env p) fs,
      st.files (infoPlace meds conf p.tilename p.band) = fs.files (infoPlace meds conf p.tilename p.band) ∨
      p.clean = false ∧ ∃ r rp info src tile band x, GaiaFile p r rp ∧
        Described p (gaiaPlace tdir p.band rp r) info src tile band ∧
        st.files (infoPlace meds conf p.tilename p.band) = some x ∧
        (x = p.dump (info, src) ∨ x ∈ env.partials (p.dump (info, src))) := by
  set o := infoPlace meds conf p.tilename p.band with ho
  have hlift : ∀ {m : FM D Unit}, (∀ fs, ∀ st ∈ crashStates m fs, st.files o = fs.files o) →
      ∀ P : Option D → Prop, m.Keeps fun st => P (st.files o) := by
    intro m hm P st hp
    refine ⟨fun s hs => ?_, ?_⟩
    · show P (s.files o)
      rw [hm st s (by simp [crashStates, hs])]
      exact hp
    · show P ((m st).fs.files o)
      rw [hm st (m st).fs (by simp [crashStates])]
      exact hp
  let Q : Option D → Prop := fun y => y = fs.files o ∨
      p.clean = false ∧ ∃ r rp info src tile band x, GaiaFile p r rp ∧
        Described p (gaiaPlace tdir p.band rp r) info src tile band ∧ y = some x ∧
        (x = p.dump (info, src) ∨ x ∈ env.partials (p.dump (info, src)))
  have key : (prepTile env p).Keeps fun st => Q (st.files o) := by
    refine FM.Keeps.bind (raiseIf_keeps _) fun _ => ?_
    cases hg : getGaiaPath p.table p.tilename "v1".toList with
    | error e =>
      rw [FM.lift_error]
      exact FM.Keeps.raise _
    | ok g =>
      rw [FM.lift_ok]
      obtain ⟨r, rp, hr, hgt⟩ := (getGaiaPath_iff h g).1 hg
      obtain ⟨-, hd, -, -⟩ := prep_gaia h hr hgt
      split
      · exact hlift hcl Q
      · rename_i hclean
        rw [Bool.not_eq_true] at hclean
        refine FM.Keeps.bind (downloadArchiveFile_keeps env _ _ _ _ (fun fs dirs hp => hp) ?_) fun _ => ?_
        · intro st x hp
          rw [hd]
          simp only [FS.set]
          rw [if_neg (places_ne hr.row meds tdir rp conf p.band).symm]
          exact hp
        refine FM.Keeps.bind (hlift hdl Q) fun _ => ?_
        cases hi : prepInfo p g with
        | error e =>
          rw [FM.lift_error]
          exact FM.Keeps.raise _
        | ok d =>
          rw [FM.lift_ok]
          obtain ⟨info, src⟩ := d
          obtain ⟨tile, band, hdesc⟩ := (described_iff h hr hgt info src).1 hi
          refine FM.Keeps.bind (makedirFromfile_keeps env _ fun fs dirs hp => hp) fun _ => ?_
          refine writeSlow_keeps env _ _ _ fun st x _ hx => ?_
          rw [prep_output h]
          refine .inr ⟨hclean, r, rp, info, src, tile, band, x, hr, hdesc, ?_, hx.symm⟩
          show (FS.set st (infoPlace meds conf p.tilename p.band) (some x)).files o = some x
          simp [FS.set, ho]
  exact keeps_crash key (.inl rfl)

/-- **C112** A run that returns without `--clean` has written the complete and consistent description of the
tile asked for, and the catalog of the archive is in the place that the description names. -/
theorem C112_written (env : FsEnv D) (p : Prep A D) (meds tdir : FPath) (conf : PyStr) (fs : FS D)
    (h : PrepAt p meds tdir conf) (hclean : p.clean = false)
    (hdl : ∀ r rp, GaiaFile p r rp → ∀ fs,
      (p.download fs).fs.files (gaiaPlace tdir p.band rp r) = fs.files (gaiaPlace tdir p.band rp r))
    (hok : (prepTile env p fs).out = .ok ()) :
    ∃ r rp info src tile band x g, GaiaFile p r rp ∧
      Described p (gaiaPlace tdir p.band rp r) info src tile band ∧
      (prepTile env p fs).fs.files (infoPlace meds conf p.tilename p.band) = some (p.dump (info, src)) ∧
      '/' :: g = pathText (rp ++ [String.ofList r.filename]) ∧ p.archive g = some x ∧
      (prepTile env p fs).fs.files (gaiaPlace tdir p.band rp r) = some x := by
  unfold prepTile at hok ⊢
  obtain ⟨_, -, h1, e1⟩ := FM.ok_inv hok
  rw [e1]
  cases hg : getGaiaPath p.table p.tilename "v1".toList with
  | error e => rw [hg, FM.lift_error] at h1; cases h1
  | ok g =>
    rw [hg, FM.lift_ok, hclean] at h1
    rw [FM.lift_ok, hclean]
    rw [if_neg (by simp)] at h1 ⊢
    obtain ⟨r, rp, hr, hgt⟩ := (getGaiaPath_iff h g).1 hg
    obtain ⟨-, hd, -, -⟩ := prep_gaia h hr hgt
    unfold prepMake at h1 ⊢
    obtain ⟨_, h2, h3, e3⟩ := FM.ok_inv h1
    obtain ⟨_, h4, h5, e5⟩ := FM.ok_inv h3
    rw [e3, e5]
    obtain ⟨x, hx, hfile⟩ := downloadArchiveFile_ok h2
    cases hi : prepInfo p g with
    | error e => rw [hi, FM.lift_error] at h5; cases h5
    | ok d =>
      rw [hi, FM.lift_ok] at h5
      rw [FM.lift_ok]
      obtain ⟨info, src⟩ := d
      obtain ⟨tile, band, hdesc⟩ := (described_iff h hr hgt info src).1 hi
      unfold dumpInfo at h5 ⊢
      obtain ⟨_, -, h7, e7⟩ := FM.ok_inv h5
      rw [e7]
      obtain ⟨w1, w2⟩ := writeSlow_ok h7
      refine ⟨r, rp, info, src, tile, band, x, g, hr, hdesc, ?_, hgt, hx, ?_⟩
      · rw [← prep_output h]; exact w1
      · rw [w2 _ (by rw [prep_output h]; exact places_ne hr.row meds tdir rp conf p.band)]
        have hk := (makedirFromfile_keeps (P := fun st => st.files (gaiaPlace tdir p.band rp r) = some x) env
          (splitPath p.output) (fun fs dirs hp => hp) (p.download
            (downloadArchiveFile env p.archive p.netOk g p.sourceDir ((raiseIf p.pre : FM D Unit) fs).fs).fs).fs ?_).2
        · exact hk
        · refine (hdl r rp hr _).trans ?_
          rw [← hd]
          exact hfile

/-- **C112** If the downloads and the writing work, the program returns exactly if there is a complete and
consistent description of the tile asked for. -/
theorem C112_returns (env : FsEnv D) (p : Prep A D) (meds tdir : FPath) (conf : PyStr) (fs : FS D)
    (h : PrepAt p meds tdir conf) (hclean : p.clean = false) (hpre : p.pre = none)
    (hnet : p.netOk = true) (hdump : p.dumpOk = true)
    (harch : ∀ r rp g, GaiaFile p r rp → '/' :: g = pathText (rp ++ [String.ofList r.filename]) →
      ∃ x, p.archive g = some x)
    (hdirs : ∀ r rp, GaiaFile p r rp → fs.dirs (gaiaPlace tdir p.band rp r).dropLast = true ∧
      fs.dirs (gaiaPlace tdir p.band rp r) = false)
    (hout : fs.dirs (infoPlace meds conf p.tilename p.band).dropLast = true ∧
      fs.dirs (infoPlace meds conf p.tilename p.band) = false)
    (hdl : ∀ fs, (p.download fs).out = .ok () ∧ (p.download fs).fs.dirs = fs.dirs) :
    (prepTile env p fs).out = .ok () ↔
      ∃ r rp info src tile band, GaiaFile p r rp ∧
        Described p (gaiaPlace tdir p.band rp r) info src tile band := by
  have hstart : prepTile env p fs = (FM.lift (getGaiaPath p.table p.tilename "v1".toList) >>= fun gaia =>
      if p.clean = true then p.cleanUp else prepMake env p gaia) fs := by
    unfold prepTile
    rw [hpre]
    rfl
  rw [hstart]
  cases hg : getGaiaPath p.table p.tilename "v1".toList with
  | error e =>
    rw [FM.lift_error]
    constructor
    · intro hr
      cases hr
    · rintro ⟨r, rp, info, src, tile, band, hr, -⟩
      have hne : r.filename ≠ [] := by
        obtain ⟨mid, e⟩ := hr.row.2
        rw [e]
        simp
      obtain ⟨g, hgt⟩ : ∃ g, '/' :: g = pathText (rp ++ [String.ofList r.filename]) := by
        rw [pathText_snoc, ← hr.dir]
        exact ⟨_, rfl⟩
      rw [(getGaiaPath_iff h g).2 ⟨r, rp, hr, hgt⟩] at hg
      cases hg
  | ok g =>
    rw [FM.lift_ok, hclean, if_neg (by simp)]
    obtain ⟨r, rp, hr, hgt⟩ := (getGaiaPath_iff h g).1 hg
    obtain ⟨-, hd, hdir, -⟩ := prep_gaia h hr hgt
    obtain ⟨x, hx⟩ := harch r rp g hr hgt
    obtain ⟨d1, d2⟩ := hdirs r rp hr
    have hmk : osMakedirsOk env (splitPath (pyDirname (pyJoin p.sourceDir g))) fs = ⟨[], fs, .ok ()⟩ := by
      unfold osMakedirsOk
      rw [FM.get_bind, hdir, d1]
      rfl
    obtain ⟨s1, s2⟩ := writeSlow_succeeds (env := env) (d := x) d1 d2
    have hdown : (downloadArchiveFile env p.archive p.netOk g p.sourceDir fs).out = .ok () ∧
        (downloadArchiveFile env p.archive p.netOk g p.sourceDir fs).fs.dirs = fs.dirs := by
      unfold downloadArchiveFile
      rw [FM.bind_def, hmk, hx, hd, hnet]
      exact ⟨s1, s2⟩
    unfold prepMake
    rw [FM.bind_def, hdown.1]
    dsimp only
    rw [FM.bind_def, (hdl _).1]
    dsimp only
    have huniq : ∀ r' rp', GaiaFile p r' rp' → r' = r ∧ rp' = rp := by
      intro r' rp' hr'
      obtain ⟨pre, post, e, hno⟩ := hr.first
      obtain ⟨pre', post', e', hno'⟩ := hr'.first
      have hrr : r' = r := by
        rw [e] at e'
        rcases List.append_eq_append_iff.1 e' with ⟨a, ha, hb⟩ | ⟨a, ha, hb⟩
        · cases a with
          | nil => exact (List.cons.inj hb).1.symm
          | cons y a =>
            cases hb
            exact absurd hr.row (hno' r (by rw [ha]; simp))
        · cases a with
          | nil => exact (List.cons.inj hb).1
          | cons y a =>
            cases hb
            exact absurd hr'.row (hno r' (by rw [ha]; simp))
      subst hrr
      refine ⟨rfl, ?_⟩
      rw [← splitPath_pathText hr'.plain, ← splitPath_pathText hr.plain, ← hr.dir, ← hr'.dir]
    cases hi : prepInfo p g with
    | error e =>
      rw [FM.lift_error]
      constructor
      · intro hc
        cases hc
      · rintro ⟨r', rp', info, src, tile, band, hr', hdesc⟩
        obtain ⟨rfl, rfl⟩ := huniq r' rp' hr'
        rw [(described_iff h hr hgt info src).2 ⟨tile, band, hdesc⟩] at hi
        cases hi
    | ok d =>
      obtain ⟨info, src⟩ := d
      obtain ⟨tile, band, hdesc⟩ := (described_iff h hr hgt info src).1 hi
      rw [FM.lift_ok]
      refine ⟨fun _ => ⟨r, rp, info, src, tile, band, hr, hdesc⟩, fun _ => ?_⟩
      have hdd : (p.download (downloadArchiveFile env p.archive p.netOk g p.sourceDir fs).fs).fs.dirs = fs.dirs :=
        (hdl _).2.trans hdown.2
      unfold dumpInfo
      have hm : ∀ st : FS D, st.dirs = fs.dirs →
          makedirFromfile env (splitPath p.output) st = ⟨[], st, .ok ()⟩ := by
        intro st hst
        unfold makedirFromfile tryMakedir
        rw [FM.get_bind, if_pos]
        · rfl
        · rw [FS.exists, hst, prep_output h, FPath.dir, hout.1, Bool.or_true]
      rw [FM.bind_def, hm _ hdd, hdump, prep_output h]
      exact (writeSlow_succeeds (by rw [hdd]; exact hout.1) (by rw [hdd]; exact hout.2)).1

/-- **C112** The descriptions of different tiles and bands, and of different configurations, are in
different places. -/
theorem C112_own_place (p p' : Prep A D) (meds tdir tdir' : FPath) (conf conf' : PyStr)
    (h : PrepAt p meds tdir conf) (h' : PrepAt p' meds tdir' conf')
    (he : splitPath p.output = splitPath p'.output) :
    conf = conf' ∧ p.tilename = p'.tilename ∧ p.band = p'.band := by
  rw [prep_output h, prep_output h', infoPlace, infoPlace, List.append_cancel_left_eq] at he
  simp only [List.cons.injEq, String.ofList_inj, and_true, true_and, List.append_cancel_right_eq] at he
  obtain ⟨h1, h2⟩ := he
  have h3 : p.tilename ++ '_' :: p.band = p'.tilename ++ '_' :: p'.band := by simpa using h2
  obtain ⟨h4, h5⟩ := split_first h3 h.tile.2.1 h'.tile.2.1
  exact ⟨h1, h4, h5⟩

/-- **C112** Without a Piff campaign in the configuration, although the description does not need one, no
description is ever written. -/
theorem C112_no_campaign (env : FsEnv D) (p : Prep A D) (fs : FS D) (hclean : p.clean = false)
    (hc : p.piffCampaign = none) : (prepTile env p fs).out ≠ .ok () := by
  intro hok
  unfold prepTile at hok
  obtain ⟨_, -, h1, -⟩ := FM.ok_inv hok
  obtain ⟨g, -, h2, -⟩ := FM.ok_inv h1
  rw [hclean, if_neg (by simp)] at h2
  obtain ⟨_, -, h3, -⟩ := FM.ok_inv h2
  obtain ⟨_, -, h4, -⟩ := FM.ok_inv h3
  obtain ⟨d, h5, -, -⟩ := FM.ok_inv h4
  have h6 : prepInfo p g = .ok d := h5
  unfold prepInfo at h6
  obtain ⟨i, -, h6⟩ := bind_eq_ok.1 h6
  rw [hc] at h6
  cases h6

end Pizza
