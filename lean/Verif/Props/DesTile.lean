import Verif.Spec.DesTile
import Verif.Props.CheckInfo
import Verif.Props.DesInfo
import Verif.Lemmas.SEObject

/-!
Property C102: the description of a DES tile.
-/

namespace Pizza

variable {A : Type}

theorem piffRows_append (rows : List QaRow) (d : PyStr → Option QaRow) (name : PyStr) :
    rows.foldl (fun (d : PyStr → Option QaRow) r => Function.update d r.filename (some r)) d name =
      ((rows.reverse.find? fun r => decide (r.filename = name)).or (d name)) := by
  induction rows generalizing d with
  | nil => simp
  | cons r rows ih =>
    rw [List.foldl_cons, ih, List.reverse_cons, List.find?_append]
    cases h : rows.reverse.find? fun r => decide (r.filename = name) with
    | some x => simp
    | none =>
      by_cases hn : r.filename = name
      · subst hn; simp
      · simp [hn, Function.update_of_ne (Ne.symm hn)]

theorem piffRows_iff (rows : List QaRow) (name : PyStr) (row : QaRow) :
    piffRows rows name = some row ↔ IsLastRow rows name row := by
  unfold piffRows
  rw [piffRows_append, Option.or_none, List.find?_eq_some_iff_append]
  simp only [decide_eq_true_eq]
  constructor
  · rintro ⟨h, as, bs, he, hn⟩
    refine ⟨bs.reverse, as.reverse, ?_, h, ?_⟩
    · have := congrArg List.reverse he
      simpa using this
    · intro r hr
      have := hn r (by simpa using hr)
      simpa using this
  · rintro ⟨pre, post, he, h, hn⟩
    refine ⟨h, post.reverse, pre.reverse, by rw [he]; simp, ?_⟩
    intro r hr
    simpa using hn r (by simpa using hr)

theorem isLastRow_ne_nil {rows : List QaRow} {name : PyStr} {row : QaRow} (h : IsLastRow rows name row) :
    rows.length ≠ 0 := by
  obtain ⟨pre, post, rfl, _⟩ := h
  simp

theorem scaleOf_iff {v w : TVal A} :
    scaleOf v = .ok w ↔ ∃ m, IsNum v m ∧ w = .num ((10 : ℝ) ^ ((0.4 : ℝ) * (30 - m))) := by
  unfold scaleOf IsNum zpScale
  cases v <;> simp [eq_comm]

theorem piffWanted_iff {d : TDict A} {campaign : Option PyStr} {v : TVal A} {c : PyStr} :
    piffWanted d campaign = some (v, c) ↔ WantsPiff d campaign v c := by
  unfold piffWanted WantsPiff
  split <;> simp_all; aesop

theorem baseOf_iff {v : TVal A} {b : PyStr} :
    baseOf v = .ok b ↔ ∃ path, v = .str path ∧ IsBase path b := by
  unfold baseOf
  cases v <;> simp [isBase_iff, eq_comm]

theorem addPiffInfo_iff (db : TileDb A) (campaign : Option PyStr) (old new : TDict A) :
    addPiffInfo db campaign old = .ok new ↔
      (∀ v c, WantsPiff old campaign v c → ∃ path base e row, v = .str path ∧ IsBase path base ∧
        old "expnum" = some e ∧ IsLastRow (db.piffQa e c) base row ∧
        new = old.put "piff_info" (.piffInfo row)) ∧
      ((¬ ∃ v c, WantsPiff old campaign v c) → new = old) := by
  unfold addPiffInfo
  cases h : piffWanted old campaign with
  | none =>
    have hno : ¬ ∃ v c, WantsPiff old campaign v c := by
      rintro ⟨v, c, hw⟩
      rw [← piffWanted_iff, h] at hw
      simp at hw
    constructor
    · rintro he
      simp only [Except.ok.injEq] at he
      exact ⟨fun v c hw => absurd ⟨v, c, hw⟩ hno, fun _ => he.symm⟩
    · rintro ⟨_, he⟩
      rw [he hno]
  | some vc =>
    obtain ⟨v, c⟩ := vc
    have hw := piffWanted_iff.1 h
    have hu : ∀ v' c', WantsPiff old campaign v' c' → v' = v ∧ c' = c := by
      intro v' c' hw'
      have := (piffWanted_iff.2 hw').symm.trans h
      simpa using this
    simp only [bind_eq_ok, pure_eq_ok, baseOf_iff, TDict.item, lookup_ok]
    constructor
    · rintro ⟨b, ⟨path, hv, hb⟩, e, he, d, hd, r, hr, hn⟩
      unfold getPiffPsfInfo at hd
      split at hd
      · simp at hd
      · simp only [Except.ok.injEq] at hd
        subst hd
        refine ⟨?_, fun hno => absurd ⟨v, c, hw⟩ hno⟩
        intro v' c' hw'
        obtain ⟨rfl, rfl⟩ := hu v' c' hw'
        exact ⟨path, b, e, r, hv, hb, he, (piffRows_iff _ _ _).1 hr, hn.symm⟩
    · rintro ⟨h1, _⟩
      obtain ⟨path, b, e, r, hv, hb, he, hr, hn⟩ := h1 v c hw
      refine ⟨b, ⟨path, hv, hb⟩, e, he, piffRows (db.piffQa e c), ?_, r, (piffRows_iff _ _ _).2 hr, hn.symm⟩
      unfold getPiffPsfInfo
      rw [if_neg (isLastRow_ne_nil hr)]

/-- The source with all but the Piff information. -/
def srcBase (old : TDict A) (p q s : TVal A) : TDict A :=
  ((((((((((old.put "image_shape" (.shape 4096 2048)).put "image_flags" (.nat 0)).put "image_ext"
    (.str "sci".toList)).put "weight_path" p).put "weight_ext" (.str "wgt".toList)).put "bmask_path" p).put
    "bmask_ext" (.str "msk".toList)).put "bkg_ext" (.str "sci".toList)).put "position_offset"
    (.nat 1)).put "psfex_path" q).put "scale" s

theorem addSrcInfo_eq (db : TileDb A) (campaign : Option PyStr) (old new : TDict A) :
    addSrcInfo db campaign old = .ok new ↔ ∃ p q v s, old "image_path" = some p ∧
      old "psf_path" = some q ∧ old "magzp" = some v ∧ scaleOf v = .ok s ∧
      addPiffInfo db campaign (srcBase old p q s) = .ok new := by
  unfold addSrcInfo
  simp only [bind_eq_ok, TDict.item, lookup_ok]
  constructor
  · rintro ⟨p, hp, p', hp', q, hq, v, hv, s, hs, h⟩
    simp [TDict.put, Function.update] at hp hp' hq hv
    have : p' = p := by
      rw [hp] at hp'; simpa using hp'.symm
    subst this
    exact ⟨p', q, v, s, hp, hq, hv, hs, h⟩
  · rintro ⟨p, q, v, s, hp, hq, hv, hs, h⟩
    refine ⟨p, ?_, p, ?_, q, ?_, v, ?_, s, hs, h⟩ <;>
      simpa [TDict.put, Function.update] using ‹_›

theorem srcBase_wants (old : TDict A) (p q s : TVal A) (campaign : Option PyStr) (v : TVal A) (c : PyStr) :
    WantsPiff (srcBase old p q s) campaign v c ↔ WantsPiff old campaign v c := by
  simp [WantsPiff, srcBase, TDict.put, Function.update]

theorem srcBase_rest (old : TDict A) (p q s : TVal A) (k : String) (hk : k ∉ srcKeys) :
    srcBase old p q s k = old k := by
  simp only [srcKeys, List.mem_cons, List.not_mem_nil, or_false, not_or] at hk
  simp [srcBase, TDict.put, Function.update, hk]

/-- **C102** The description of a source is completed exactly as specified: the loop body returns `new`
for `old` iff `new` is the finished description of `old`. -/
theorem C102_source (db : TileDb A) (campaign : Option PyStr) (old new : TDict A) :
    addSrcInfo db campaign old = .ok new ↔ SrcDone db campaign old new := by
  rw [addSrcInfo_eq]
  constructor
  · rintro ⟨p, q, v, s, hp, hq, hv, hs, h⟩
    obtain ⟨m, hm, rfl⟩ := scaleOf_iff.1 hs
    obtain ⟨h1, h2⟩ := (addPiffInfo_iff _ _ _ _).1 h
    simp only [srcBase_wants] at h1 h2
    have hkeys : ∀ k, k ≠ "piff_info" → new k = srcBase old p q
        (.num ((10 : ℝ) ^ ((0.4 : ℝ) * (30 - m)))) k := by
      intro k hk
      by_cases hw : ∃ v c, WantsPiff old campaign v c
      · obtain ⟨v, c, hw⟩ := hw
        obtain ⟨_, _, _, row, _, _, _, _, rfl⟩ := h1 v c hw
        simp [TDict.put, Function.update, hk]
      · rw [h2 hw]
    refine ⟨?_, ?_, ?_, ?_, ?_, ?_, ?_, ⟨p, hp, ?_, ?_⟩, ⟨q, hq, ?_⟩, ⟨v, m, hv, hm, ?_⟩, ?_, ?_, ?_⟩
    all_goals try (rw [hkeys _ (by decide)]; simp [srcBase, TDict.put, Function.update])
    · intro v c hw
      obtain ⟨path, base, e, row, hv, hb, he, hr, rfl⟩ := h1 v c hw
      rw [srcBase_rest _ _ _ _ _ (by decide)] at he
      exact ⟨path, base, e, row, hv, hb, he, hr, by simp [TDict.put]⟩
    · intro hw
      rw [h2 hw, srcBase_rest _ _ _ _ _ (by decide)]
    · intro k hk hk'
      rw [hkeys k hk', srcBase_rest _ _ _ _ _ hk]
  · intro h
    obtain ⟨p, hp, hp1, hp2⟩ := h.paths
    obtain ⟨q, hq, hq1⟩ := h.psf
    obtain ⟨v, m, hv, hm, hs⟩ := h.scale
    refine ⟨p, q, v, .num ((10 : ℝ) ^ ((0.4 : ℝ) * (30 - m))), hp, hq, hv, scaleOf_iff.2 ⟨m, hm, rfl⟩, ?_⟩
    have hkeys : ∀ k, k ≠ "piff_info" → new k = srcBase old p q
        (.num ((10 : ℝ) ^ ((0.4 : ℝ) * (30 - m)))) k := by
      intro k hk
      by_cases hk' : k ∈ srcKeys
      · simp only [srcKeys, List.mem_cons, List.not_mem_nil, or_false] at hk'
        rcases hk' with rfl | rfl | rfl | rfl | rfl | rfl | rfl | rfl | rfl | rfl | rfl
        · rw [h.shape]; simp [srcBase, TDict.put, Function.update]
        · rw [h.flags]; simp [srcBase, TDict.put, Function.update]
        · rw [h.imageExt]; simp [srcBase, TDict.put, Function.update]
        · rw [hp1]; simp [srcBase, TDict.put, Function.update]
        · rw [h.weightExt]; simp [srcBase, TDict.put, Function.update]
        · rw [hp2]; simp [srcBase, TDict.put, Function.update]
        · rw [h.bmaskExt]; simp [srcBase, TDict.put, Function.update]
        · rw [h.bkgExt]; simp [srcBase, TDict.put, Function.update]
        · rw [h.offset]; simp [srcBase, TDict.put, Function.update]
        · rw [hq1]; simp [srcBase, TDict.put, Function.update]
        · rw [hs]; simp [srcBase, TDict.put, Function.update]
      · rw [h.rest k hk' hk, srcBase_rest _ _ _ _ _ hk']
    rw [addPiffInfo_iff]
    simp only [srcBase_wants]
    constructor
    · intro v' c hw
      obtain ⟨path, base, e, row, hv', hb, he, hr, hn⟩ := h.piff v' c hw
      refine ⟨path, base, e, row, hv', hb, ?_, hr, ?_⟩
      · rw [srcBase_rest _ _ _ _ _ (by decide)]; exact he
      · funext k
        by_cases hk : k = "piff_info"
        · subst hk; rw [hn]; simp [TDict.put]
        · rw [hkeys k hk]; simp [TDict.put, Function.update, hk]
    · intro hw
      funext k
      by_cases hk : k = "piff_info"
      · subst hk; rw [h.noPiff hw, srcBase_rest _ _ _ _ _ (by decide)]
      · rw [hkeys k hk]

theorem mapM_forall₂ {α β : Type} (f : α → Except Err β) (l : List α) (out : List β) :
    l.mapM f = .ok out ↔ List.Forall₂ (fun a b => f a = .ok b) l out := by
  induction l generalizing out with
  | nil =>
    simp only [List.mapM_nil, pure_eq_ok]
    constructor
    · rintro rfl; exact .nil
    · intro h; cases h; rfl
  | cons a l ih =>
    simp only [List.mapM_cons, bind_eq_ok, pure_eq_ok]
    constructor
    · rintro ⟨b, hb, bs, hbs, rfl⟩
      exact .cons hb ((ih bs).1 hbs)
    · intro h
      cases h with
      | cons hb hbs => exact ⟨_, hb, _, (ih _).2 hbs, rfl⟩

/-- The coadd with all but the geometry. -/
def coaddBase (old : TDict A) (p : TVal A) : TDict A :=
  ((((((((((old.put "position_offset" (.nat 1)).put "image_ext" (.str "sci".toList)).put "weight_path"
    p).put "weight_ext" (.str "wgt".toList)).put "bmask_path" p).put "bmask_ext" (.str "msk".toList)).put
    "seg_ext" (.str "sci".toList)).put "magzp" (.num 30)).put "scale" (.num 1)).put "image_shape"
    (.shape 10000 10000)).put "image_flags" (.nat 0)

theorem addExtra_eq (db : TileDb A) (campaign : Option PyStr) (info info' : TDict A)
    (src src' : List (TDict A)) :
    addExtraTileInfo db campaign info src = .ok (info', src') ↔ ∃ p t, info "image_path" = some p ∧
      info "tilename" = some t ∧ updateGeom (db.geom t) (coaddBase info p) = .ok info' ∧
      src.mapM (addSrcInfo db campaign) = .ok src' := by
  unfold addExtraTileInfo
  simp only [bind_eq_ok, TDict.item, lookup_ok, pure_eq_ok, Prod.mk.injEq]
  constructor
  · rintro ⟨p, hp, p', hp', t, ht, i, hi, s, hs, rfl, rfl⟩
    simp [TDict.put, Function.update] at hp hp' ht
    have : p' = p := by
      rw [hp] at hp'; simpa using hp'.symm
    subst this
    exact ⟨p', t, hp, ht, hi, hs⟩
  · rintro ⟨p, t, hp, ht, hi, hs⟩
    refine ⟨p, ?_, p, ?_, t, ?_, info', hi, src', hs, rfl, rfl⟩ <;>
      simpa [TDict.put, Function.update] using ‹_›

theorem updateGeom_iff (db : TileDb A) (old new : TDict A) (p t : TVal A) (hp : old "image_path" = some p)
    (ht : old "tilename" = some t) :
    updateGeom (db.geom t) (coaddBase old p) = .ok new ↔ CoaddDone db old new := by
  constructor
  · intro h
    unfold updateGeom at h
    cases hg : db.geom t with
    | nil => simp [hg] at h
    | cons g l =>
      simp only [hg, Except.ok.injEq] at h
      subst h
      refine ⟨?_, ?_, ?_, ?_, ?_, ⟨p, hp, ?_, ?_⟩, ?_, ?_, ?_, ?_, ⟨t, g, l, ht, hg, ?_, ?_, ?_, ?_, ?_⟩, ?_⟩
      all_goals try (simp [coaddBase, TDict.put, Function.update]; done)
      intro k hk
      simp only [coaddInfoKeys, List.mem_cons, List.not_mem_nil, or_false, not_or] at hk
      simp [coaddBase, TDict.put, Function.update, hk]
  · intro h
    obtain ⟨p', hp', hp1, hp2⟩ := h.paths
    obtain rfl : p' = p := by rw [hp] at hp'; simpa using hp'.symm
    obtain ⟨t', g, l, ht', hg, g1, g2, g3, g4, g5⟩ := h.geom
    obtain rfl : t' = t := by rw [ht] at ht'; simpa using ht'.symm
    simp only [updateGeom, hg, Except.ok.injEq]
    funext k
    by_cases hk : k ∈ coaddInfoKeys
    · simp only [coaddInfoKeys, List.mem_cons, List.not_mem_nil, or_false] at hk
      rcases hk with rfl | rfl | rfl | rfl | rfl | rfl | rfl | rfl | rfl | rfl | rfl | rfl | rfl | rfl | rfl | rfl
      · rw [h.offset]; simp [coaddBase, TDict.put, Function.update]
      · rw [h.imageExt]; simp [coaddBase, TDict.put, Function.update]
      · rw [hp1]; simp [coaddBase, TDict.put, Function.update]
      · rw [h.weightExt]; simp [coaddBase, TDict.put, Function.update]
      · rw [hp2]; simp [coaddBase, TDict.put, Function.update]
      · rw [h.bmaskExt]; simp [coaddBase, TDict.put, Function.update]
      · rw [h.segExt]; simp [coaddBase, TDict.put, Function.update]
      · rw [h.magzp]; simp [coaddBase, TDict.put, Function.update]
      · rw [h.scale]; simp [coaddBase, TDict.put, Function.update]
      · rw [h.shape]; simp [coaddBase, TDict.put, Function.update]
      · rw [h.flags]; simp [coaddBase, TDict.put, Function.update]
      · rw [g1]; simp [TDict.put, Function.update]
      · rw [g2]; simp [TDict.put, Function.update]
      · rw [g3]; simp [TDict.put, Function.update]
      · rw [g4]; simp [TDict.put, Function.update]
      · rw [g5]; simp [TDict.put, Function.update]
    · rw [h.rest k hk]
      simp only [coaddInfoKeys, List.mem_cons, List.not_mem_nil, or_false, not_or] at hk
      simp [coaddBase, TDict.put, Function.update, hk]

/-- **C102** The description of the tile is completed exactly as specified: the call returns normally
with the given dicts iff the coadd and every source have their finished description, in order. -/
theorem C102_tile_info (db : TileDb A) (campaign : Option PyStr) (info info' : TDict A)
    (src src' : List (TDict A)) :
    addExtraTileInfo db campaign info src = .ok (info', src') ↔
      CoaddDone db info info' ∧ List.Forall₂ (SrcDone db campaign) src src' := by
  rw [addExtra_eq]
  have hm : src.mapM (addSrcInfo db campaign) = .ok src' ↔ List.Forall₂ (SrcDone db campaign) src src' := by
    rw [mapM_forall₂]
    exact ⟨fun h => h.imp fun _ _ => (C102_source _ _ _ _).1, fun h => h.imp fun _ _ => (C102_source _ _ _ _).2⟩
  constructor
  · rintro ⟨p, t, hp, ht, hi, hs⟩
    exact ⟨(updateGeom_iff db info info' p t hp ht).1 hi, hm.1 hs⟩
  · rintro ⟨hc, hs⟩
    obtain ⟨p, hp, _⟩ := hc.paths
    obtain ⟨t, g, l, ht, _⟩ := hc.geom
    exact ⟨p, t, hp, ht, (updateGeom_iff db info info' p t hp ht).2 hc, hm.2 hs⟩

theorem srcDone_again {db : TileDb A} {campaign : Option PyStr} {old new : TDict A}
    (h : SrcDone db campaign old new) : SrcDone db campaign new new := by
  have k1 : new "image_path" = old "image_path" := h.rest _ (by decide) (by decide)
  have k2 : new "psf_path" = old "psf_path" := h.rest _ (by decide) (by decide)
  have k3 : new "magzp" = old "magzp" := h.rest _ (by decide) (by decide)
  have k4 : new "expnum" = old "expnum" := h.rest _ (by decide) (by decide)
  have k5 : new "piff_path" = old "piff_path" := h.rest _ (by decide) (by decide)
  have kw : ∀ v c, WantsPiff new campaign v c ↔ WantsPiff old campaign v c := by
    intro v c; simp [WantsPiff, k5]
  refine ⟨h.shape, h.flags, h.imageExt, h.weightExt, h.bmaskExt, h.bkgExt, h.offset, ?_, ?_, ?_, ?_, ?_, ?_⟩
  · rw [k1]; exact h.paths
  · rw [k2]; exact h.psf
  · rw [k3]; exact h.scale
  · intro v c hw
    rw [k4]; exact h.piff v c ((kw v c).1 hw)
  · intro _; rfl
  · intro _ _ _; rfl

/-- **C102** Completing a finished description changes nothing. -/
theorem C102_idempotent (db : TileDb A) (campaign : Option PyStr) (info info' : TDict A)
    (src src' : List (TDict A)) (h : addExtraTileInfo db campaign info src = .ok (info', src')) :
    addExtraTileInfo db campaign info' src' = .ok (info', src') := by
  rw [C102_tile_info] at h ⊢
  obtain ⟨hc, hs⟩ := h
  have k1 : info' "image_path" = info "image_path" := hc.rest _ (by decide)
  have k2 : info' "tilename" = info "tilename" := hc.rest _ (by decide)
  refine ⟨⟨hc.offset, hc.imageExt, hc.weightExt, hc.bmaskExt, hc.segExt, by rw [k1]; exact hc.paths, hc.magzp,
    hc.scale, hc.shape, hc.flags, by rw [k2]; exact hc.geom, fun _ _ => rfl⟩, ?_⟩
  clear hc k1 k2
  induction hs with
  | nil => exact .nil
  | cons h _ ih => exact .cons (srcDone_again h) ih

theorem isLastRow_unique {rows : List QaRow} {name : PyStr} {r r' : QaRow} (h : IsLastRow rows name r)
    (h' : IsLastRow rows name r') : r = r' := by
  rw [← piffRows_iff] at h h'
  simpa using h.symm.trans h'

theorem srcDone_adds {db : TileDb A} {campaign : Option PyStr} {cfg : FlagCfg} {ccd : Option (TVal A) → ℤ}
    {old new : TDict A} (h : SrcDone db campaign old new) (hnone : old "piff_info" = none) (k : Nat) :
    Adds cfg (flagView ccd new) k ↔ MustFlag db campaign cfg ccd old k := by
  have kc : new "ccdnum" = old "ccdnum" := h.rest _ (by decide) (by decide)
  constructor
  · intro ha
    cases ha with
    | ccd l h1 h2 => exact .ccd l h1 (by simpa [flagView, kc] using h2)
    | piff c p k h1 h2 h3 =>
      by_cases hw : ∃ v c, WantsPiff old campaign v c
      · obtain ⟨v, camp, hw⟩ := hw
        obtain ⟨path, base, e, row, rfl, hb, he, hr, hn⟩ := h.piff v camp hw
        simp only [flagView, hn, Option.some.injEq] at h2
        subst h2
        exact .piff c path camp base e row k h1 hw.1 hw.2.2 hb he hr h3
      · have := h.noPiff hw
        rw [hnone] at this
        simp [flagView, this] at h2
  · intro hm
    cases hm with
    | ccd l h1 h2 => exact .ccd l h1 (by simpa [flagView, kc] using h2)
    | piff cuts path c base e row k h1 h2 h3 h4 h5 h6 h7 =>
      obtain ⟨path', base', e', row', hv, hb, he, hr, hn⟩ := h.piff (.str path) c ⟨h2, by simp, h3⟩
      simp only [TVal.str.injEq] at hv
      subst hv
      obtain rfl := isBase_unique h4 hb
      obtain rfl : e = e' := by rw [h5] at he; simpa using he
      obtain rfl := isLastRow_unique h6 hr
      exact .piff cuts row.qa k h1 (by simp [flagView, hn]) h7

/-- **C102** Flagging after completing: if the sources bring no QA information of their own, the flags of
a source afterwards are exactly those that its QA row and its CCD number give it; flags it had before are
gone. -/
theorem C102_flags (db : TileDb A) (campaign : Option PyStr) (info info' : TDict A)
    (src src' : List (TDict A)) (ccd : Option (TVal A) → ℤ) (cfg : FlagCfg)
    (out : List (FlagSrc (TDict A))) (hnone : ∀ ii ∈ src, ii "piff_info" = none)
    (h : addExtraTileInfo db campaign info src = .ok (info', src'))
    (hf : flagDataInInfo (some cfg) (src'.map (flagView ccd)) = (out, none)) :
    List.Forall₂ (fun ii jj => ∀ k, jj.imageFlags.testBit k = true ↔ MustFlag db campaign cfg ccd ii k)
      src out := by
  have hs := ((C102_tile_info db campaign info info' src src').1 h).2
  have ho := C79_flags cfg _ _ hf
  clear h hf
  induction hs generalizing out with
  | nil =>
    cases ho
    exact .nil
  | @cons ii jj l l' hij _ ih =>
    rw [List.map_cons] at ho
    cases ho with
    | cons h1 h2 =>
      refine .cons ?_ (ih _ (fun x hx => hnone x (by simp [hx])) h2)
      intro k
      rw [h1.2 k, srcDone_adds hij (hnone ii (by simp))]
      simp [flagView, hij.flags]

/-- A tile. -/
def exTileInfo : TDict Unit := fun k =>
  if k = "image_path" then some (.str "DES0001_r.fits".toList)
  else if k = "tilename" then some (.str "DES0001".toList) else none

/-- A source with a Piff model. -/
def exPiffTileSrc : TDict Unit := fun k =>
  if k = "image_path" then some (.str "/d/im.fits".toList)
  else if k = "psf_path" then some (.str "/d/psf.fits".toList)
  else if k = "piff_path" then some (.str "/d/m.piff".toList)
  else if k = "expnum" then some (.nat 7)
  else if k = "magzp" then some (.nat 30)
  else if k = "image_flags" then some (.nat 12) else none

/-- A data base with two rows for the model, the second with a flag. -/
def exTileDb : TileDb Unit :=
  { piffQa := fun _ _ =>
      [⟨7, 1, "m.piff".toList, ⟨0, none, none, none, 0, none, none⟩⟩,
       ⟨7, 1, "m.piff".toList, ⟨1, none, none, none, 0, none, none⟩⟩,
       ⟨7, 2, "n.piff".toList, ⟨0, none, none, none, 0, none, none⟩⟩]
    geom := fun _ => [⟨"N".toList, 0, 1, 0, 1⟩] }

/-- The call returns for this tile, and the source must get flag bit 0, although it had other flags. -/
theorem exTile_completed : (∃ r, addExtraTileInfo exTileDb (some "Y6".toList) exTileInfo [exPiffTileSrc] = .ok r) ∧
    (∀ ii ∈ [exPiffTileSrc], ii "piff_info" = none) ∧
    MustFlag exTileDb (some "Y6".toList) ⟨some ⟨none, none, none, none⟩, none⟩ (fun _ => 3) exPiffTileSrc 0 := by
  have hrow : IsLastRow (exTileDb.piffQa (.nat 7) "Y6".toList) "m.piff".toList
      ⟨7, 1, "m.piff".toList, ⟨1, none, none, none, 0, none, none⟩⟩ :=
    ⟨[⟨7, 1, "m.piff".toList, ⟨0, none, none, none, 0, none, none⟩⟩],
      [⟨7, 2, "n.piff".toList, ⟨0, none, none, none, 0, none, none⟩⟩], rfl, rfl, by simp⟩
  have hbase : IsBase "/d/m.piff".toList "m.piff".toList := isBase_iff.2 (by decide)
  refine ⟨?_, by simp [exPiffTileSrc], .piff _ "/d/m.piff".toList "Y6".toList "m.piff".toList (.nat 7) _ 0 rfl
    (by simp [exPiffTileSrc]) rfl hbase (by simp [exPiffTileSrc]) hrow (.desdm (by decide))⟩
  have h1 : ∃ new, addSrcInfo exTileDb (some "Y6".toList) exPiffTileSrc = .ok new := by
    simp only [addSrcInfo_eq]
    refine ⟨(srcBase exPiffTileSrc (.str "/d/im.fits".toList) (.str "/d/psf.fits".toList)
        (.num (zpScale (30 : Nat)))).put "piff_info" (.piffInfo
        ⟨7, 1, "m.piff".toList, ⟨1, none, none, none, 0, none, none⟩⟩),
      .str "/d/im.fits".toList, .str "/d/psf.fits".toList, .nat 30, _, by simp [exPiffTileSrc],
      by simp [exPiffTileSrc], by simp [exPiffTileSrc], rfl, ?_⟩
    rw [addPiffInfo_iff]
    simp only [srcBase_wants]
    refine ⟨?_, fun hno => absurd ⟨.str "/d/m.piff".toList, "Y6".toList, by simp [exPiffTileSrc], by simp, rfl⟩ hno⟩
    rintro v c ⟨hv, _, hc⟩
    simp only [exPiffTileSrc] at hv
    simp only [Option.some.injEq] at hc
    subst hc
    refine ⟨"/d/m.piff".toList, _, .nat 7, _, by simpa [eq_comm] using hv, hbase, ?_, hrow, rfl⟩
    rw [srcBase_rest _ _ _ _ _ (by decide)]
    simp [exPiffTileSrc]
  obtain ⟨new, h1⟩ := h1
  refine ⟨(_, [new]), (addExtra_eq _ _ _ _ _ _).2 ⟨.str "DES0001_r.fits".toList, .str "DES0001".toList,
    by simp [exTileInfo], by simp [exTileInfo], rfl, ?_⟩⟩
  rw [mapM_forall₂]
  exact .cons h1 .nil

/-- `C102_flags` and `C102_idempotent` for this tile: the completed source gets exactly the flags it must get, and
completing it again changes nothing. -/
example : ∃ info' src' out, addExtraTileInfo exTileDb (some "Y6".toList) exTileInfo [exPiffTileSrc] = .ok (info', src') ∧
    addExtraTileInfo exTileDb (some "Y6".toList) info' src' = .ok (info', src') ∧
    flagDataInInfo (some ⟨none, none⟩) (src'.map (flagView fun _ => 3)) = (out, none) ∧
    List.Forall₂ (fun ii jj => ∀ k, jj.imageFlags.testBit k = true ↔
      MustFlag exTileDb (some "Y6".toList) ⟨none, none⟩ (fun _ => 3) ii k) [exPiffTileSrc] out := by
  obtain ⟨⟨info', src'⟩, h⟩ := exTile_completed.1
  have hret := (C79_returns (some ⟨none, none⟩) (src'.map (flagView fun _ => 3))).2 (.inr ⟨_, rfl, by
    rintro ii - ⟨⟨c, p, k, hc, -⟩, -⟩
    cases hc⟩)
  exact ⟨info', src', _, h, C102_idempotent _ _ _ _ _ _ h, Prod.ext rfl hret,
    C102_flags _ _ _ _ _ _ _ _ _ exTile_completed.2.1 h (Prod.ext rfl hret)⟩

end Pizza
