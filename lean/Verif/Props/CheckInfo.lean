import Verif.Spec.CheckInfo
import Verif.Lemmas.Basic
import Mathlib.Data.List.Dedup

/-!
`check_info` accepts exactly the consistent descriptions (C78).
-/

namespace Pizza

theorem lookup_ok {α : Type} {o : Option α} {a : α} : lookup o = .ok a ↔ o = some a := by
  cases o <;> simp [lookup]

theorem lookup_some {α : Type} (a : α) : lookup (some a) = .ok a := rfl

theorem lookup_none {α : Type} : lookup (none : Option α) = .error .keyError := rfl

theorem nonNull_iff {paths : String → Option (Option PyStr)} {key : String} {p : PyStr} :
    nonNull paths key = some p ↔ HasPath paths key p := by
  unfold nonNull HasPath
  constructor
  · intro h
    split at h
    · rename_i c l hl
      obtain rfl := Option.some.inj h
      exact ⟨hl, by simp⟩
    · cases h
  · rintro ⟨h, hp⟩
    cases p with
    | nil => exact absurd rfl hp
    | cons c l => rw [h]

theorem nonNull_none {paths : String → Option (Option PyStr)} {key : String} :
    nonNull paths key = none ↔ ∀ p, ¬ HasPath paths key p := by
  constructor
  · intro h p hp
    rw [nonNull_iff.2 hp] at h
    cases h
  · intro h
    cases hn : nonNull paths key with
    | none => rfl
    | some p => exact absurd (nonNull_iff.1 hn) (h p)

theorem takeWhile_spec {α : Type} (q : α → Bool) (l : List α) :
    (∀ x ∈ l.takeWhile q, q x = true) ∧
    (l = l.takeWhile q ∨ ∃ x r, q x = false ∧ l = l.takeWhile q ++ x :: r) := by
  refine ⟨fun x hx => ?_, ?_⟩
  · have := List.all_takeWhile (p := q) (l := l)
    rw [List.all_eq_true] at this
    exact this x hx
  induction l with
  | nil => simp
  | cons a l ih =>
    by_cases ha : q a = true
    · rw [List.takeWhile_cons_of_pos ha]
      rcases ih with h | ⟨x, r, hx, h⟩
      · left; rw [← h]
      · right; exact ⟨x, r, hx, by rw [List.cons_append, ← h]⟩
    · rw [List.takeWhile_cons_of_neg ha]
      right
      exact ⟨a, l, by simpa using ha, rfl⟩

theorem pyBasename_isBase (p : PyStr) : IsBase p (pyBasename p) := by
  obtain ⟨h1, h2⟩ := takeWhile_spec (fun c : Char => decide (c ≠ '/')) p.reverse
  refine ⟨fun h => ?_, ?_⟩
  · have := h1 '/' (by simpa [pyBasename] using h)
    simp at this
  · rcases h2 with h | ⟨x, r, hx, h⟩
    · left
      rw [pyBasename, ← h, List.reverse_reverse]
    · right
      refine ⟨r.reverse, ?_⟩
      have := congrArg List.reverse h
      rw [List.reverse_reverse] at this
      have hx' : x = '/' := by simpa using hx
      rw [hx'] at this
      simpa [pyBasename] using this

theorem append_sep_unique {α : Type} {c : α} {a b r s : List α} (ha : c ∉ a) (hb : c ∉ b)
    (h : a ++ c :: r = b ++ c :: s) : a = b := by
  induction a generalizing b with
  | nil =>
    cases b with
    | nil => rfl
    | cons y b =>
      simp only [List.nil_append, List.cons_append, List.cons.injEq] at h
      exact absurd (by simp [h.1]) hb
  | cons x a ih =>
    cases b with
    | nil =>
      simp only [List.nil_append, List.cons_append, List.cons.injEq] at h
      exact absurd (by simp [h.1]) ha
    | cons y b =>
      simp only [List.cons_append, List.cons.injEq] at h
      obtain ⟨rfl, h⟩ := h
      rw [ih (fun hm => ha (List.mem_cons_of_mem _ hm)) (fun hm => hb (List.mem_cons_of_mem _ hm)) h]

theorem isBase_unique {p a b : PyStr} (ha : IsBase p a) (hb : IsBase p b) : a = b := by
  obtain ⟨ha, h1⟩ := ha
  obtain ⟨hb, h2⟩ := hb
  rcases h1 with rfl | ⟨q, rfl⟩
  · rcases h2 with h | ⟨q, h⟩
    · exact h
    · exact absurd (by simp [h]) ha
  · rcases h2 with h | ⟨q', h⟩
    · exact absurd (by simp [← h]) hb
    · have := congrArg List.reverse h
      simp only [List.reverse_append, List.reverse_cons, List.append_assoc, List.singleton_append] at this
      have := append_sep_unique (by simpa using ha) (by simpa using hb) this
      simpa using this

theorem beforeUnderscore_isTile (b : PyStr) : IsTile b (beforeUnderscore b) := by
  obtain ⟨h1, h2⟩ := takeWhile_spec (fun c : Char => decide (c ≠ '_')) b
  refine ⟨fun h => ?_, ?_⟩
  · have := h1 '_' h
    simp at this
  · rcases h2 with h | ⟨x, r, hx, h⟩
    · exact Or.inl h
    · right
      have hx' : x = '_' := by simpa using hx
      exact ⟨r, hx' ▸ h⟩

theorem isTile_unique {b t u : PyStr} (ht : IsTile b t) (hu : IsTile b u) : t = u := by
  obtain ⟨ht, h1⟩ := ht
  obtain ⟨hu, h2⟩ := hu
  rcases h1 with rfl | ⟨q, rfl⟩
  · rcases h2 with h | ⟨q, h⟩
    · exact h
    · exact absurd (by simp [h]) ht
  · rcases h2 with h | ⟨q', h⟩
    · exact absurd (by simp [← h]) hu
    · exact append_sep_unique ht hu h

theorem isBase_iff {p b : PyStr} : IsBase p b ↔ b = pyBasename p :=
  ⟨fun h => isBase_unique h (pyBasename_isBase p), fun h => h ▸ pyBasename_isBase p⟩

theorem isTile_iff {b t : PyStr} : IsTile b t ↔ t = beforeUnderscore b :=
  ⟨fun h => isTile_unique h (beforeUnderscore_isTile b), fun h => h ▸ beforeUnderscore_isTile b⟩

/-- A list without duplicates has one element iff there is something and all are the same. -/
theorem dedup_single {α : Type} [DecidableEq α] (l : List α) (a : α) :
    ((l.dedup.length ≤ 1) ∧ l.dedup.head? = some a) ↔ (l ≠ [] ∧ ∀ x ∈ l, x = a) := by
  constructor
  · rintro ⟨h1, h2⟩
    have hd : l.dedup = [a] := by
      cases hl : l.dedup with
      | nil => simp [hl] at h2
      | cons b m =>
        rw [hl] at h1 h2
        have hm : m = [] := List.length_eq_zero_iff.1 (by simp only [List.length_cons] at h1; omega)
        simp only [List.head?_cons, Option.some.injEq] at h2
        rw [hm, h2]
    refine ⟨fun h => by simp [h] at hd, fun x hx => ?_⟩
    have := List.mem_dedup.2 hx
    rw [hd] at this
    simpa using this
  · rintro ⟨h1, h2⟩
    have hd : l.dedup = [a] := by
      have hn := List.nodup_dedup l
      have hall : ∀ x ∈ l.dedup, x = a := fun x hx => h2 x (List.mem_dedup.1 hx)
      cases hl : l.dedup with
      | nil =>
        cases l with
        | nil => exact absurd rfl h1
        | cons b m =>
          have : b ∈ (b :: m).dedup := List.mem_dedup.2 (by simp)
          rw [hl] at this
          simp at this
      | cons b m =>
        rw [hl] at hall hn
        have hb : b = a := hall b (by simp)
        cases m with
        | nil => rw [hb]
        | cons c m =>
          have hc : c = a := hall c (by simp)
          rw [hb, hc] at hn
          simp at hn
    simp [hd]

theorem mapM_sum_zero {α : Type} (f : α → Except Err Nat) (l : List α) :
    (∃ ns, l.mapM f = .ok ns ∧ ns.sum = 0) ↔ ∀ a ∈ l, f a = .ok 0 := by
  induction l with
  | nil => simp [List.mapM_nil, pure, Except.pure]
  | cons a l ih =>
    rw [List.mapM_cons]
    cases ha : f a with
    | error e => simp [bind, Except.bind, ha]
    | ok n =>
      simp only [bind, Except.bind, List.mem_cons, forall_eq_or_imp, ha, Except.ok.injEq]
      rw [← ih]
      cases hl : l.mapM f with
      | error e => simp
      | ok ns =>
        simp only [pure, Except.pure, Except.ok.injEq, exists_eq_left', List.sum_cons]
        constructor
        · intro h; exact ⟨by omega, by omega⟩
        · rintro ⟨h, h'⟩; omega

theorem seErrors_zero {band : PyStr} {ii : CheckSrc} :
    seErrors band ii = .ok 0 ↔ ∃ e c, ii.expnum = some e ∧ ii.ccdnum = some c ∧
      ∀ key p b, HasPath ii.paths key p → IsBase p b → key ∈ seKeys →
      ∃ r, b = "D".toList ++ decimalPad 8 e ++ "_".toList ++ band ++ "_c".toList ++
        decimalPad 2 c ++ "_".toList ++ r := by
  unfold seErrors
  cases he : ii.expnum with
  | none => simp [lookup, bind, Except.bind]
  | some e =>
    cases hc : ii.ccdnum with
    | none => simp [lookup, bind, Except.bind]
    | some c =>
      simp only [lookup, bind, Except.bind, pure, Except.pure, Except.ok.injEq, Option.some.injEq,
        exists_and_left, exists_eq_left', List.length_eq_zero_iff, List.filter_eq_nil_iff]
      constructor
      · intro h key p b hp hb hk
        have := h p (List.mem_filterMap.2 ⟨key, hk, nonNull_iff.2 hp⟩)
        simp only [pyStartsWith, Bool.not_eq_true', Bool.not_eq_false, List.isPrefixOf_iff_prefix] at this
        obtain ⟨r, hr⟩ := this
        refine ⟨r, ?_⟩
        rw [isBase_iff.1 hb, ← hr]
        simp [ccdSlug]
      · intro h p hp
        obtain ⟨key, hk, hp⟩ := List.mem_filterMap.1 hp
        obtain ⟨r, hr⟩ := h key p (pyBasename p) (nonNull_iff.1 hp) (pyBasename_isBase p) hk
        simp only [pyStartsWith, Bool.not_eq_true', Bool.not_eq_false, List.isPrefixOf_iff_prefix]
        refine ⟨r, ?_⟩
        rw [hr]
        simp [ccdSlug]

theorem headErrors_zero {tile band : PyStr} {ii : CheckSrc} {c : Nat} (hc : ii.ccdnum = some c) :
    headErrors tile band ii = .ok 0 ↔ ∀ p b, HasPath ii.paths "head_path" p → IsBase p b →
    (∃ r, b = tile ++ r) ∧
    ∃ r, b = r ++ "_".toList ++ band ++ "_c".toList ++ decimalPad 2 c ++ "_scamp.ohead".toList := by
  unfold headErrors
  cases hn : nonNull ii.paths "head_path" with
  | none =>
    simp only [pure, Except.pure, true_iff]
    intro p b hp
    exact absurd hp (nonNull_none.1 hn p)
  | some p =>
    simp only [hc, lookup, bind, Except.bind, pure, Except.pure, Except.ok.injEq, Nat.add_eq_zero_iff,
      ite_eq_left_iff, Nat.one_ne_zero, imp_false, Bool.not_eq_true, Bool.not_eq_false]
    have hp := nonNull_iff.1 hn
    simp only [pyStartsWith, pyEndsWith, List.isPrefixOf_iff_prefix, List.isSuffixOf_iff_suffix]
    constructor
    · rintro ⟨⟨r, hr⟩, ⟨s, hs⟩⟩ p' b hp' hb
      have : p' = p := by
        have h1 := hp.1
        rw [hp'.1] at h1
        simpa using h1
      subst this
      rw [isBase_iff.1 hb]
      exact ⟨⟨r, hr.symm⟩, ⟨s, by rw [← hs]; simp [scampSlug]⟩⟩
    · intro h
      obtain ⟨⟨r, hr⟩, ⟨s, hs⟩⟩ := h p _ hp (pyBasename_isBase p)
      exact ⟨⟨r, hr.symm⟩, ⟨s, by rw [hs]; simp [scampSlug]⟩⟩

theorem tileErrors_zero {tile : PyStr} {ii : CheckSrc} :
    tileErrors tile ii = .ok 0 ↔ ii.tilename = some tile := by
  unfold tileErrors
  cases ht : ii.tilename with
  | none => simp [lookup, bind, Except.bind]
  | some t => simp [lookup, bind, Except.bind, pure, Except.pure]

theorem endErrors_zero {info : CheckInfo} {key : String} {band : PyStr} {ends : List String} :
    endErrors info key (ends.map fun x => '_' :: band ++ x.toList) = 0 ↔
      ∀ p, HasPath info.paths key p → EndsFor band ends p := by
  unfold endErrors
  cases hn : nonNull info.paths key with
  | none =>
    simp only [true_iff]
    intro p hp
    exact absurd hp (nonNull_none.1 hn p)
  | some p =>
    have hp := nonNull_iff.1 hn
    simp only [ite_eq_left_iff, Nat.one_ne_zero, imp_false, not_not,
      List.any_eq_true, List.mem_map, exists_exists_and_eq_and, pyEndsWith, List.isSuffixOf_iff_suffix]
    constructor
    · rintro ⟨e, he, ⟨q, hq⟩⟩ p' hp'
      have : p' = p := by
        have h1 := hp.1
        rw [hp'.1] at h1
        simpa using h1
      subst this
      exact ⟨e, he, q, by rw [← hq]; simp⟩
    · intro h
      obtain ⟨e, he, q, hq⟩ := h p hp
      exact ⟨e, he, q, by rw [hq]; simp⟩

theorem mapM_bands (b : PyStr) (l : List CheckSrc) :
    (∃ bs, (l.mapM fun ii => lookup ii.band) = .ok bs ∧ ∀ x ∈ bs, x = b) ↔ ∀ ii ∈ l, ii.band = some b := by
  induction l with
  | nil => simp [List.mapM_nil, pure, Except.pure]
  | cons a l ih =>
    rw [List.mapM_cons]
    cases ha : a.band with
    | none => simp [lookup_none, bind, Except.bind, ha]
    | some x =>
      simp only [List.mem_cons, forall_eq_or_imp, ha, Option.some.injEq]
      rw [← ih]
      simp only [lookup_some, bind, Except.bind]
      cases hl : l.mapM fun ii => lookup ii.band with
      | error e => simp
      | ok bs => simp [pure, Except.pure]

theorem checkBands_zero {info : CheckInfo} {band : PyStr} :
    checkBands info = .ok (0, band) ↔ info.band = some band ∧ ∀ ii ∈ info.srcs, ii.band = some band := by
  unfold checkBands
  cases hb : info.band with
  | none => simp [lookup_none, bind, Except.bind]
  | some b =>
    simp only [lookup_some, bind, Except.bind, Option.some.injEq]
    have key' := mapM_bands b info.srcs
    cases hl : info.srcs.mapM fun ii => lookup ii.band with
    | error e =>
      rw [hl] at key'
      simp only [reduceCtorEq, false_and, exists_false, false_iff] at key'
      simp only [reduceCtorEq, false_iff]
      rintro ⟨rfl, h⟩
      exact key' h
    | ok bs =>
      rw [hl] at key'
      simp only [Except.ok.injEq, exists_eq_left'] at key'
      simp only [pure, Except.pure, Except.ok.injEq, Prod.mk.injEq, ite_eq_right_iff, Nat.one_ne_zero,
        imp_false, Nat.not_lt]
      have hd : (b :: bs).dedup.length ≤ 1 ↔ ∀ x ∈ bs, x = b := by
        constructor
        · intro h x hx
          obtain ⟨y, hy⟩ : ∃ y, (b :: bs).dedup.head? = some y := by
            cases hz : (b :: bs).dedup with
            | nil =>
              have : b ∈ (b :: bs).dedup := List.mem_dedup.2 (by simp)
              rw [hz] at this; simp at this
            | cons y m => exact ⟨y, rfl⟩
          have := ((dedup_single _ y).1 ⟨h, hy⟩).2
          rw [this x (by simp [hx]), this b (by simp)]
        · intro h
          exact ((dedup_single (b :: bs) b).2 ⟨by simp, by simpa using h⟩).1
      rw [hd, key']
      constructor
      · rintro ⟨h, rfl⟩; exact ⟨rfl, h⟩
      · rintro ⟨rfl, h⟩; exact ⟨h, rfl⟩

/-- Everything `check_info` computes and finds no error. -/
theorem checkInfo_ok (info : CheckInfo) : checkInfo info = .ok () ↔ ∃ tile band,
    ((tileNames info).length ≤ 1 ∧ (tileNames info).head? = some tile) ∧ info.scale = some 1 ∧
    checkBands info = .ok (0, band) ∧
    (∀ x ∈ coaddEnds band, endErrors info x.1 x.2 = 0) ∧
    (∀ ii ∈ info.srcs, seErrors band ii = .ok 0) ∧
    (∀ ii ∈ info.srcs, tileErrors tile ii = .ok 0) ∧
    (∀ ii ∈ info.srcs, headErrors tile band ii = .ok 0) := by
  constructor
  · intro h
    unfold checkInfo at h
    cases h1 : tileMessage info with
    | error e => simp [h1, bind, Except.bind] at h
    | ok n1 =>
    cases h2 : popTile info with
    | error e => simp [h1, h2, bind, Except.bind] at h
    | ok tile =>
    cases h3 : lookup info.scale with
    | error e => simp [h1, h2, h3, bind, Except.bind] at h
    | ok sc =>
    cases h4 : checkBands info with
    | error e => simp [h1, h2, h3, h4, bind, Except.bind] at h
    | ok nb =>
    obtain ⟨n3, band⟩ := nb
    cases h5 : info.srcs.mapM (seErrors band) with
    | error e => simp [h1, h2, h3, h4, h5, bind, Except.bind] at h
    | ok n5 =>
    cases h6 : info.srcs.mapM (tileErrors tile) with
    | error e => simp [h1, h2, h3, h4, h5, h6, bind, Except.bind] at h
    | ok n6 =>
    cases h7 : info.srcs.mapM (headErrors tile band) with
    | error e => simp [h1, h2, h3, h4, h5, h6, h7, bind, Except.bind] at h
    | ok n7 =>
    simp only [h1, h2, h3, h4, h5, h6, h7, bind, Except.bind] at h
    by_cases hz : n1 + (if sc ≠ 1 then 1 else 0) + n3 +
        ((coaddEnds band).map fun x => endErrors info x.1 x.2).sum + n5.sum + n6.sum + n7.sum > 0
    · rw [if_pos hz] at h
      cases h
    · simp only [gt_iff_lt, Nat.not_lt, Nat.le_zero, Nat.add_eq_zero_iff] at hz
      obtain ⟨⟨⟨⟨⟨⟨z1, z2⟩, z3⟩, z4⟩, z5⟩, z6⟩, z7⟩ := hz
      subst z1 z3
      refine ⟨tile, band, ⟨?_, lookup_ok.1 h2⟩, ?_, rfl, ?_, (mapM_sum_zero _ _).1 ⟨n5, h5, z5⟩,
        (mapM_sum_zero _ _).1 ⟨n6, h6, z6⟩, (mapM_sum_zero _ _).1 ⟨n7, h7, z7⟩⟩
      · by_contra hlt
        unfold tileMessage at h1
        rw [if_pos (by omega)] at h1
        cases hm : coaddKeys.mapM fun k => lookup (info.paths k) with
        | error e => simp [hm, bind, Except.bind] at h1
        | ok l => simp [hm, bind, Except.bind, pure, Except.pure] at h1
      · rw [lookup_ok.1 h3]
        congr 1
        by_contra hs
        simp [hs] at z2
      · intro x hx
        have := List.sum_eq_zero_iff.1 z4
        exact this _ (List.mem_map.2 ⟨x, hx, rfl⟩)
  · rintro ⟨tile, band, ⟨t1, t2⟩, hs, hb, he, h5, h6, h7⟩
    obtain ⟨n5, e5, z5⟩ := (mapM_sum_zero _ _).2 h5
    obtain ⟨n6, e6, z6⟩ := (mapM_sum_zero _ _).2 h6
    obtain ⟨n7, e7, z7⟩ := (mapM_sum_zero _ _).2 h7
    have z4 : ((coaddEnds band).map fun x => endErrors info x.1 x.2).sum = 0 := by
      rw [List.sum_eq_zero_iff]
      intro n hn
      obtain ⟨x, hx, rfl⟩ := List.mem_map.1 hn
      exact he x hx
    have e1 : tileMessage info = .ok 0 := by
      unfold tileMessage
      rw [if_neg (by omega)]
      rfl
    simp [checkInfo, e1, popTile, lookup_ok.2 t2, lookup_ok.2 hs, hb, e5, e6, e7, z4, z5, z6, z7, bind,
      Except.bind]

/-- **C78** `check_info` returns normally iff the description is consistent for some tile and band. -/
theorem C78_check_info (info : CheckInfo) :
    checkInfo info = .ok () ↔ ∃ tile band, Consistent info tile band := by
  rw [checkInfo_ok]
  refine exists_congr fun tile => exists_congr fun band => ?_
  -- tile names
  have ht : ((tileNames info).length ≤ 1 ∧ (tileNames info).head? = some tile) ↔
      (∃ key ∈ coaddKeys, ∃ p, HasPath info.paths key p) ∧
      ∀ key ∈ coaddKeys, ∀ p b, HasPath info.paths key p → IsBase p b → IsTile b tile := by
    unfold tileNames
    rw [dedup_single]
    refine and_congr ?_ ?_
    · rw [Ne, List.map_eq_nil_iff, List.filterMap_eq_nil_iff]
      push Not
      refine exists_congr fun key => and_congr_right fun _ => ?_
      rw [Ne, nonNull_none]
      push Not
      rfl
    · constructor
      · intro h key hk p b hp hb
        rw [isTile_iff, isBase_iff.1 hb]
        exact (h _ (List.mem_map.2 ⟨p, List.mem_filterMap.2 ⟨key, hk, nonNull_iff.2 hp⟩, rfl⟩)).symm
      · intro h x hx
        obtain ⟨p, hp, rfl⟩ := List.mem_map.1 hx
        obtain ⟨key, hk, hp⟩ := List.mem_filterMap.1 hp
        exact (isTile_iff.1 (h key hk p _ (nonNull_iff.1 hp) (pyBasename_isBase p))).symm
  rw [ht, checkBands_zero]
  have hends : (∀ x ∈ coaddEnds band, endErrors info x.1 x.2 = 0) ↔
      (∀ p, HasPath info.paths "bmask_path" p → EndsFor band [".fits.fz", ".fits"] p) ∧
      (∀ p, HasPath info.paths "cat_path" p → EndsFor band ["_cat.fits"] p) ∧
      (∀ p, HasPath info.paths "image_path" p → EndsFor band [".fits.fz", ".fits"] p) ∧
      (∀ p, HasPath info.paths "psf_path" p → EndsFor band ["_psfcat.psf"] p) ∧
      (∀ p, HasPath info.paths "seg_path" p → EndsFor band ["_segmap.fits", "_segmap.fits.fz"] p) := by
    simp only [← endErrors_zero, List.map_cons, List.map_nil]
    simp [coaddEnds]
  rw [hends]
  constructor
  · rintro ⟨⟨a1, a2⟩, a3, ⟨a4, a5⟩, ⟨e1, e2, e3, e4, e5⟩, a6, a7, a8⟩
    refine ⟨a3, a4, a1, a2, e3, e1, e2, e4, e5, fun ii hi => ?_⟩
    obtain ⟨e, c, b1, b2, b3⟩ := seErrors_zero.1 (a6 ii hi)
    exact ⟨e, c, b1, b2, a5 ii hi, tileErrors_zero.1 (a7 ii hi), b3,
      (headErrors_zero b2).1 (a8 ii hi)⟩
  · rintro ⟨c1, c2, c3, c4, c5, c6, c7, c8, c9, c10⟩
    refine ⟨⟨c3, c4⟩, c1, ⟨c2, fun ii hi => ?_⟩, ⟨c6, c7, c5, c8, c9⟩, fun ii hi => ?_, fun ii hi => ?_,
      fun ii hi => ?_⟩
    · obtain ⟨e, c, h⟩ := c10 ii hi
      exact h.sameBand
    · obtain ⟨e, c, h⟩ := c10 ii hi
      exact seErrors_zero.2 ⟨e, c, h.exp, h.ccd, h.slug⟩
    · obtain ⟨e, c, h⟩ := c10 ii hi
      exact tileErrors_zero.2 h.sameTile
    · obtain ⟨e, c, h⟩ := c10 ii hi
      exact (headErrors_zero h.ccd).2 h.head

/-- **C78** The tile and the band are determined. -/
theorem C78_unique (info : CheckInfo) (t t' b b' : PyStr) (h : Consistent info t b)
    (h' : Consistent info t' b') : t = t' ∧ b = b' := by
  refine ⟨?_, Option.some.inj (h.ownBand.symm.trans h'.ownBand)⟩
  obtain ⟨key, hk, p, hp⟩ := h.present
  exact isTile_unique (h.oneTile key hk p _ hp (pyBasename_isBase p)) (h'.oneTile key hk p _ hp (pyBasename_isBase p))

/-- A dictionary of paths. -/
def exPaths (l : List (String × String)) : String → Option (Option PyStr) :=
  fun k => (l.find? fun x => x.1 == k).map fun x => some x.2.toList

/-- A tile with one source. -/
def exInfo (scale : ℚ) (se : String) : CheckInfo where
  paths := exPaths [("image_path", "/a/DES0_r1_r.fits.fz"), ("psf_path", "/a/DES0_r1_r_psfcat.psf")]
  scale := some scale
  band := some ['r']
  srcs := [⟨exPaths [("image_path", se), ("head_path", "/h/DES0_r1_D12_r_c03_scamp.ohead")],
    some ['r'], some "DES0".toList, some 12, some 3⟩]

example : checkInfo (exInfo 1 "/b/D00000012_r_c03_r1.fits.fz") = .ok () := by decide +kernel

example : checkInfo (exInfo 2 "/b/D00000012_r_c03_r1.fits.fz") = .error .runtimeError := by decide +kernel

example : checkInfo (exInfo 1 "/b/D00000012_r_c04_r1.fits.fz") = .error .runtimeError := by decide +kernel

/-- `C78_unique` on the first of these. -/
example : ∃ t b, Consistent (exInfo 1 "/b/D00000012_r_c03_r1.fits.fz") t b ∧
    ∀ t' b', Consistent (exInfo 1 "/b/D00000012_r_c03_r1.fits.fz") t' b' → t = t' ∧ b = b' := by
  obtain ⟨t, b, h⟩ := (C78_check_info (exInfo 1 "/b/D00000012_r_c03_r1.fits.fz")).1 (by decide +kernel)
  exact ⟨t, b, h, fun t' b' h' => C78_unique _ t t' b b' h h'⟩

end Pizza
