import Mathlib.Analysis.SpecialFunctions.Log.Base
import Verif.Lemmas.Calibrated
import Verif.Lemmas.MakeSwap
import Verif.Props.MakeProc
import Verif.Props.NoiseImage
import Verif.Spec.Calibrated

/-! C121: of the SE files only the calibrated fluxes, the calibrated weights and the masks matter. -/

namespace Pizza

section
variable {A σ S P W ρ : Type} {w w' : ProcWorld A σ S P} {t t' : Tile A S P} {e e' : Entry P}

theorem foldl_max_mul {k : ℚ} (hk : 0 < k) (l : List ℚ) (a : ℚ) :
    (l.map (k * ·)).foldl max (k * a) = k * l.foldl max a := by
  induction l generalizing a with
  | nil => rfl
  | cons b l ih =>
    rw [List.map_cons, List.foldl_cons, List.foldl_cons, ← mul_max_of_nonneg _ _ hk.le]
    exact ih _

theorem maxPositive_mul {k : ℚ} (hk : 0 < k) (a b : Img ℚ) (hr : b.nrow = a.nrow) (hc : b.ncol = a.ncol)
    (h : ∀ r c, b.px r c = k * a.px r c) : maxPositive b = (maxPositive a).map (k * ·) := by
  unfold maxPositive
  rw [hr, hc]
  have h1 : ((List.range a.nrow).flatMap fun r => (List.range a.ncol).map fun c => b.px r c) =
      ((List.range a.nrow).flatMap fun r => (List.range a.ncol).map fun c => a.px r c).map (k * ·) := by
    rw [List.map_flatMap]
    congr 1
    funext r
    rw [List.map_map]
    congr 1
    funext c
    exact h r c
  rw [h1, List.filter_map]
  have h2 : ((fun v : ℚ => decide (0 < v)) ∘ fun x => k * x) = fun v => decide (0 < v) := by
    funext v
    simp [mul_pos_iff_of_pos_left hk]
  rw [h2]
  generalize (List.flatMap _ _).filter _ = l
  cases l with
  | nil => rfl
  | cons x l =>
    show Except.ok _ = Except.ok _
    rw [foldl_max_mul hk]

theorem SameFlux.noise (h : SameFlux w w' e e') (hw : w' = { w with files := w'.files, arrays := w'.arrays })
    (seed : Nat) : freshNoise w' e' seed = freshNoise w e seed := by
  have z : w'.zpScale = w.zpScale := by rw [hw]
  have m : w'.memNoise = w.memNoise := by rw [hw]
  unfold freshNoise
  rw [z, m]
  rcases h.weight with ⟨x, h1, h2⟩ | ⟨a, b, h1, h2, h3⟩
  · rw [h1, h2]
  rw [h1, h2]
  simp only
  have hq := h.weights a b h1 h2
  have s1 := h.scale
  have s2 := h.scale'
  obtain ⟨d1, d2⟩ := asNum_dims a
  obtain ⟨d3, d4⟩ := asNum_dims b
  have hr : b.asNum.nrow = a.asNum.nrow := by rw [d1, d3, h3]
  have hc : b.asNum.ncol = a.asNum.ncol := by rw [d2, d4, h3]
  generalize w.zpScale e.magzp = s at *
  generalize w.zpScale e'.magzp = s' at *
  have hk : 0 < s' ^ 2 / s ^ 2 := by positivity
  have hp : ∀ r c, b.asNum.px r c = s' ^ 2 / s ^ 2 * a.asNum.px r c := by
    intro r c
    have := hq r c
    field_simp at this ⊢
    linarith
  rw [maxPositive_mul hk a.asNum b.asNum hr hc hp, hr, hc]
  cases maxPositive a.asNum with
  | error x => rfl
  | ok top =>
    simp only [Except.map]
    congr 2
    congr 1
    funext r c
    rw [hp]
    simp only [mul_pos_iff_of_pos_left hk]
    split <;> field_simp

theorem SameFlux.maskEq (h : SameFlux w w' e e') (ht : t' = { t with entries := t'.entries }) :
    freshMask w' t' e' = freshMask w t e := by
  have h1 : t'.tapeBumps = t.tapeBumps := by rw [ht]
  have h2 : e'.src = e.src := by rw [h.rest]
  unfold freshMask
  rw [h.mask, h1, h2]

theorem SameFlux.cut (h : SameFlux w w' e e') (hw : w' = { w with files := w'.files, arrays := w'.arrays })
    (ht : t' = { t with entries := t'.entries }) (B : Bounds ℤ) (o : SEObj) (x : Option Err)
    (ho : ({} : SEObj).setSlice (freshReads w t e) (w.zpScale e.magzp) B = (o, x)) :
    ∃ o', ({} : SEObj).setSlice (freshReads w' t' e') (w'.zpScale e'.magzp) B = (o', x) ∧ (x = none → o' = o) := by
  have z : w'.zpScale = w.zpScale := by rw [hw]
  have hn : (freshReads w' t' e').noises = (freshReads w t e).noises := by
    show e'.noiseSeeds.mapM (freshNoise w' e') = e.noiseSeeds.mapM (freshNoise w e)
    rw [funext (h.noise hw), show e'.noiseSeeds = e.noiseSeeds by rw [h.rest]]
  have hm : (freshReads w' t' e').bmask = (freshReads w t e).bmask := h.maskEq ht
  rw [z]
  unfold SEObj.setSlice at ho ⊢
  simp only at ho ⊢
  rw [hn, hm]
  split
  · rename_i hb
    rw [if_pos hb] at ho
    cases ho
    exact ⟨_, rfl, fun h => rfl⟩
  rename_i hb
  rw [if_neg hb] at ho
  have i1 : (freshReads w t e).image = (w.original e.image).map Arr.asNum := rfl
  have i2 : (freshReads w' t' e').image = (w'.original e'.image).map Arr.asNum := rfl
  have b1 : (freshReads w t e).bkg = (w.original e.bkg).map Arr.asNum := rfl
  have b2 : (freshReads w' t' e').bkg = (w'.original e'.bkg).map Arr.asNum := rfl
  have w1 : (freshReads w t e).weight = (w.original e.weight).map Arr.asNum := rfl
  have w2 : (freshReads w' t' e').weight = (w'.original e'.weight).map Arr.asNum := rfl
  rw [i1, b1, w1] at ho
  rw [i2, b2, w2]
  rcases h.image with ⟨y, h1, h2⟩ | ⟨im, im', h1, h2, h3⟩
  · rw [h1] at ho
    rw [h2]
    cases ho
    exact ⟨_, rfl, fun h => by cases h⟩
  rw [h1] at ho
  rw [h2]
  rcases h.bkg with ⟨y, h4, h5⟩ | ⟨bk, bk', h4, h5, h6⟩
  · rw [h4] at ho
    rw [h5]
    cases ho
    exact ⟨_, rfl, fun h => by cases h⟩
  rw [h4] at ho
  rw [h5]
  simp only [Except.map] at ho ⊢
  have hflux := h.flux im bk im' bk' h1 h4 h2 h5
  have e1 : im'.asNum.nrow = im.asNum.nrow := by rw [(asNum_dims im').1, (asNum_dims im).1, h3]
  have e2 : im'.asNum.ncol = im.asNum.ncol := by rw [(asNum_dims im').2, (asNum_dims im).2, h3]
  have e3 : bk'.asNum.nrow = bk.asNum.nrow := by rw [(asNum_dims bk').1, (asNum_dims bk).1, h6]
  have e4 : bk'.asNum.ncol = bk.asNum.ncol := by rw [(asNum_dims bk').2, (asNum_dims bk).2, h6]
  rw [e1, e2, e3, e4]
  split
  · rename_i hsh
    rw [if_pos hsh] at ho
    cases ho
    exact ⟨_, rfl, fun h => by cases h⟩
  rename_i hsh
  rw [if_neg hsh] at ho
  cases hbm : (freshReads w t e).bmask with
  | error y =>
    rw [hbm] at ho
    cases ho
    exact ⟨_, rfl, fun h => by cases h⟩
  | ok bm =>
  rw [hbm] at ho
  simp only at ho ⊢
  rcases h.weight with ⟨y, h7, h8⟩ | ⟨wt, wt', h7, h8, h9⟩
  · rw [h7] at ho
    rw [h8]
    cases ho
    exact ⟨_, rfl, fun h => by cases h⟩
  rw [h7] at ho
  rw [h8]
  simp only at ho ⊢
  have hwt := h.weights wt wt' h7 h8
  have e5 : wt'.asNum.nrow = wt.asNum.nrow := by rw [(asNum_dims wt').1, (asNum_dims wt).1, h9]
  have e6 : wt'.asNum.ncol = wt.asNum.ncol := by rw [(asNum_dims wt').2, (asNum_dims wt).2, h9]
  cases hns : (freshReads w t e).noises with
  | error y =>
    rw [hns] at ho
    cases ho
    exact ⟨_, rfl, fun h => by cases h⟩
  | ok ns =>
  rw [hns] at ho
  cases ho
  refine ⟨_, rfl, fun _ => ?_⟩
  have k1 : ∀ r0 r1 c0 c1, ((⟨im.asNum.nrow, im.asNum.ncol, fun r c => im'.asNum.px r c - bk'.asNum.px r c⟩ : Img ℚ).slice
      r0 r1 c0 c1).map (· * w.zpScale e'.magzp) =
      ((⟨im.asNum.nrow, im.asNum.ncol, fun r c => im.asNum.px r c - bk.asNum.px r c⟩ : Img ℚ).slice
      r0 r1 c0 c1).map (· * w.zpScale e.magzp) := by
    intro r0 r1 c0 c1
    unfold Img.slice Img.map
    simp only [hflux]
  have k2 : ∀ r0 r1 c0 c1, (wt'.asNum.slice r0 r1 c0 c1).map (· / w.zpScale e'.magzp ^ 2) =
      (wt.asNum.slice r0 r1 c0 c1).map (· / w.zpScale e.magzp ^ 2) := by
    intro r0 r1 c0 c1
    unfold Img.slice Img.map
    simp only [hwt, e5, e6]
  rw [k1, k2]

theorem SameFlux.sameCut (h : SameFlux w w' e e') (hw : w' = { w with files := w'.files, arrays := w'.arrays })
    (ht : t' = { t with entries := t'.entries }) (ra dec raPsf decPsf : ℚ) :
    SameCut (freshSrc w t ra dec raPsf decPsf e) (freshSrc w' t' ra dec raPsf decPsf e') := by
  have hst : (freshSrc w' t' ra dec raPsf decPsf e').strip = (freshSrc w t ra dec raPsf decPsf e).strip := by
    unfold freshSrc freshFlag
    rw [hw, ht, h.rest]
    cases (seInit w.disk e.src e.offset t.wcs t.psf).out <;> rfl
  refine ⟨hst, fun B o x ho => ?_⟩
  have hi : (seInit w'.disk e'.src e'.offset t'.wcs t'.psf).out = (seInit w.disk e.src e.offset t.wcs t.psf).out := by
    rw [hw, ht, h.rest]
  cases hc : (seInit w.disk e.src e.offset t.wcs t.psf).out with
  | error y =>
    rw [hc] at hi
    have q : ∀ (w : ProcWorld A σ S P) (t : Tile A S P) (e : Entry P),
        (seInit w.disk e.src e.offset t.wcs t.psf).out = .error y →
        (freshSrc w t ra dec raPsf decPsf e).reads = (Src.named e.imageId).reads ∧
        (freshSrc w t ra dec raPsf decPsf e).scale = (Src.named e.imageId).scale := by
      intro w t e h
      unfold freshSrc
      rw [h]
      exact ⟨rfl, rfl⟩
    obtain ⟨q1, q2⟩ := q w t e hc
    obtain ⟨q3, q4⟩ := q w' t' e' hi
    rw [q1, q2] at ho
    rw [q3, q4]
    exact ⟨o, ho, fun _ => rfl⟩
  | ok con =>
    rw [hc] at hi
    have q : ∀ (w : ProcWorld A σ S P) (t : Tile A S P) (e : Entry P),
        (seInit w.disk e.src e.offset t.wcs t.psf).out = .ok con →
        (freshSrc w t ra dec raPsf decPsf e).reads = freshReads w t e ∧
        (freshSrc w t ra dec raPsf decPsf e).scale = w.zpScale e.magzp := by
      intro w t e h
      unfold freshSrc
      rw [h]
      exact ⟨rfl, rfl⟩
    obtain ⟨q1, q2⟩ := q w t e hc
    obtain ⟨q3, q4⟩ := q w' t' e' hi
    rw [q1, q2] at ho
    rw [q3, q4]
    exact h.cut hw ht B o x ho

/-- **C121** Two descriptions of a tile with other files, backgrounds, units and zero points, but the same calibrated
fluxes, calibrated weights and masks, have the same slices, with or without outlier rejection: the same pixels in all planes,
the same weights and epochs, or the same error. -/
theorem C121_slice (h : SameSky w w' t t') (i seed : Nat) :
    coaddSingleSlice (freshEnv w' t') i seed = coaddSingleSlice (freshEnv w t) i seed := by
  have hw := h.world
  have ht := h.tile
  refine coaddSingleSlice_strip (freshEnv w t) (freshEnv w' t') ?_ (fun ra dec a b => ?_) i seed
  · have h1 : freshEnv w' t' = { freshEnv w' t with sources := (freshEnv w' t').sources } := by
      unfold freshEnv
      rw [ht]
    rw [h1]
    have h2 : freshEnv w' t = { freshEnv w t with sources := (freshEnv w' t).sources } := by
      unfold freshEnv
      rw [hw]
    rw [h2]
  · show List.Forall₂ SameCut (t.entries.map _) (t'.entries.map _)
    rw [List.forall₂_map_left_iff, List.forall₂_map_right_iff]
    exact h.entries.imp fun e e' he => he.sameCut hw ht ra dec a b

/-- **C121** The same in processes that have done anything before. -/
theorem C121_process {U U' : Tile A S P → Prop} (h : SameSky w w' t t') (ho : Orderly w U) (ho' : Orderly w' U') (hU : U t)
    (hU' : U' t') (sizes sizes' : CacheId → Nat) (count count' : Nat) (ops ops' : List (ProcOp A S P)) (hops : OpsIn U ops)
    (hops' : OpsIn U' ops') (i seed : Nat) :
    (coaddSingleSliceP w' t' i seed (procRun w' (Proc.fresh sizes' w'.arrays count') ops')).1 =
      (coaddSingleSliceP w t i seed (procRun w (Proc.fresh sizes w.arrays count) ops)).1 := by
  rw [C113_slice ho sizes count ops hops t hU, C113_slice ho' sizes' count' ops' hops' t' hU', C121_slice h]

theorem SameFlux.withSeeds (h : SameFlux w w' e e') (s : SrcSeeds) : SameFlux w w' (e.withSeeds s) (e'.withSeeds s) where
  rest := by rw [h.rest]; rfl
  scale := h.scale
  scale' := h.scale'
  image := h.image
  bkg := h.bkg
  weight := h.weight
  mask := h.mask
  flux := h.flux
  weights := h.weights

theorem forall₂_zipWith_seeds {l l' : List (Entry P)} (h : List.Forall₂ (SameFlux w w') l l') (s : List SrcSeeds) :
    List.Forall₂ (SameFlux w w') (List.zipWith Entry.withSeeds l s) (List.zipWith Entry.withSeeds l' s) := by
  induction h generalizing s with
  | nil => exact .nil
  | cons h _ ih =>
    cases s with
    | nil => exact .nil
    | cons s l => exact .cons (h.withSeeds s) (ih l)

theorem SameSkyCall.work {q q' : MakeP A σ S P W ρ} (h : SameSkyCall q q') : SameWork q.fresh q'.fresh := by
  have hlen : q'.args.srcs.length = q.args.srcs.length := by rw [q.same, q'.same, h.sky.entries.length_eq]
  have hw := h.sky.world
  have ht := h.sky.tile
  have hs : q'.fresh.slice = q.fresh.slice := by
    have : ∀ (w w' : ProcWorld A σ S P) (t t' : Tile A S P), w' = { w with files := w'.files, arrays := w'.arrays } →
        t' = { t with entries := t'.entries } → { freshEnv w' t' with sources := fun _ _ _ _ => [], objects := [] } =
        { freshEnv w t with sources := fun _ _ _ _ => [], objects := [] } := by
      intro w w' t t' h1 h2
      unfold freshEnv
      rw [h1, h2]
    exact this _ _ _ _ hw ht
  have hplan : q'.plan.slice = q.plan.slice := by
    have : ∀ (w w' : ProcWorld A σ S P) (t t' : Tile A S P), w' = { w with files := w'.files, arrays := w'.arrays } →
        t' = { t with entries := t'.entries } → planEnv w' t' = planEnv w t := by
      intro w w' t t' h1 h2
      unfold planEnv
      rw [h1, h2]
    exact this _ _ _ _ hw ht
  refine ⟨?_, hlen, fun objs i seed => ?_⟩
  · have h1 : q'.fresh = { q'.args with slice := q'.fresh.slice, sourcesOf := q'.fresh.sourcesOf } := rfl
    rw [h1, hs, h.args]
    rfl
  · rw [q.env_eq, q'.env_eq]
    refine C121_slice ⟨hw, ?_, ?_⟩ i seed
    · unfold MakeP.tileFor Tile.prepared
      generalize List.zipWith Entry.withSeeds q'.tile.entries _ = l
      rw [ht]
    · have hseeds : seedsFor q'.plan objs = seedsFor q.plan objs := by
        unfold seedsFor
        rw [hplan]
        show makeSeeds q'.args.rand q'.args.randState objs.length q'.args.srcs.length _ =
          makeSeeds q.args.rand q.args.randState objs.length q.args.srcs.length _
        rw [hlen, h.args]
      show List.Forall₂ _ (List.zipWith Entry.withSeeds q.tile.entries (seedsFor q.plan objs).srcs)
        (List.zipWith Entry.withSeeds q'.tile.entries (seedsFor q'.plan objs).srcs)
      rw [hseeds]
      exact forall₂_zipWith_seeds h.sky.entries _

theorem prepare_objects {m m' : MakeIn A σ S W ρ} (hs : m'.slice = m.slice)
    (hm : m' = { m with srcs := m'.srcs, json := m'.json, slice := m'.slice, sourcesOf := m'.sourcesOf }) {p p' : Prepared}
    (hp : prepare m = .ok p) (hp' : prepare m' = .ok p') : p'.objects = p.objects := by
  unfold prepare at hp hp'
  obtain ⟨_, _, hp⟩ := bind_eq_ok.1 hp
  obtain ⟨_, _, hp⟩ := bind_eq_ok.1 hp
  obtain ⟨a, a1, hp⟩ := bind_eq_ok.1 hp
  obtain ⟨b, b1, hp⟩ := bind_eq_ok.1 hp
  obtain ⟨_, _, hp'⟩ := bind_eq_ok.1 hp'
  obtain ⟨_, _, hp'⟩ := bind_eq_ok.1 hp'
  obtain ⟨a', a1', hp'⟩ := bind_eq_ok.1 hp'
  obtain ⟨b', b1', hp'⟩ := bind_eq_ok.1 hp'
  have e1 : imageWidth m' = imageWidth m := by rw [hm]; rfl
  rw [e1, a1] at a1'
  cases a1'
  rw [hs, show m'.central = m.central by rw [hm], show m'.buffer = m.buffer by rw [hm], show m'.psfBox = m.psfBox by rw [hm],
    show m'.jac = m.jac by rw [hm], b1] at b1'
  cases b1'
  rw [← Except.ok.inj hp, ← Except.ok.inj hp']

/-- **C121** Whole calls for two such descriptions of a tile write the same files with the same errors, but for what
they write about their inputs. -/
theorem C121_call {q q' : MakeP A σ S P W ρ} (h : SameSkyCall q q') {p p' : Prepared} (hp : prepare q.fresh = .ok p)
    (hp' : prepare q'.fresh = .ok p') {ss : List Section} {r : Option Err} (hb : FitsBody q.fresh p ss r) :
    ∃ ss', FitsBody q'.fresh p' ss' r ∧ List.Forall₂ SameButDescription ss ss' := by
  have hw := h.work
  have e0 : q'.fresh.slice = q.fresh.slice := by rw [hw.rest]
  refine hb.swap hw (prepare_objects e0 ?_ hp hp')
  rw [e0]
  exact hw.rest

/-- **C121** Also in processes that have done anything before. -/
theorem C121_process_call {U : Tile A S P → Prop} {q q' : MakeP A σ S P W ρ} (h : SameSkyCall q q') {p p' : Prepared}
    (hp : prepare q.fresh = .ok p) (hp' : prepare q'.fresh = .ok p') (ho : Orderly w U) (hq : q.Within w U)
    {st st' : Proc P} (hst : Reached w U st) {ss : List Section} {r : Option Err} (hb : FitsBodyP q p st ss r st') :
    ∃ ss', FitsBody q'.fresh p' ss' r ∧ List.Forall₂ SameButDescription ss ss' :=
  C121_call h hp hp' (C116_call ho q hq p st st' hst ss r hb)

/-- **C121** Adding the same to an image and its background changes nothing. -/
theorem C121_background (hs : w.zpScale e.magzp ≠ 0)
    (hr : e' = { e with image := e'.image, bkg := e'.bkg }) (hwt : w'.original e.weight = w.original e.weight)
    (hm : w'.original e.bmask = w.original e.bmask) (a b a' b' : Arr) (ha : w.original e.image = .ok a)
    (hb : w.original e.bkg = .ok b) (ha' : w'.original e'.image = .ok a') (hb' : w'.original e'.bkg = .ok b')
    (hd : a'.dims = a.dims) (hd' : b'.dims = b.dims) (g : Nat → Nat → ℚ)
    (hg : ∀ r c, a'.asNum.px r c = a.asNum.px r c + g r c ∧ b'.asNum.px r c = b.asNum.px r c + g r c) :
    SameFlux w w' e e' := by
  have m : e'.magzp = e.magzp := by rw [hr]
  have k1 : e'.weight = e.weight := by rw [hr]
  have k2 : e'.bmask = e.bmask := by rw [hr]
  refine ⟨?_, hs, by rw [m]; exact hs, .inr ⟨_, _, ha, ha', hd.symm⟩, .inr ⟨_, _, hb, hb', hd'.symm⟩, ?_, by rw [k2, hm], ?_, ?_⟩
  · rw [m, k1, k2]; exact hr
  · rw [k1, hwt]
    cases w.original e.weight with
    | error x => exact .inl ⟨x, rfl, rfl⟩
    | ok x => exact .inr ⟨x, x, rfl, rfl, rfl⟩
  · intro a1 b1 a2 b2 h1 h2 h3 h4 r c
    rw [ha] at h1
    rw [hb] at h2
    rw [ha'] at h3
    rw [hb'] at h4
    cases h1; cases h2; cases h3; cases h4
    rw [(hg r c).1, (hg r c).2, m]
    ring
  · intro a1 a2 h1 h2 r c
    rw [k1, hwt, h1] at h2
    cases h2
    rw [m]

/-- **C121** Giving an SE image in other units, with its weights and its zero point, changes nothing. -/
theorem C121_units (f : ℚ) (hs : w.zpScale e'.magzp ≠ 0) (hf : f ≠ 0)
    (hz : w.zpScale e'.magzp * f = w.zpScale e.magzp)
    (hr : e' = { e with magzp := e'.magzp, image := e'.image, bkg := e'.bkg, weight := e'.weight })
    (hm : w'.original e.bmask = w.original e.bmask) (a b v a' b' v' : Arr)
    (ha : w.original e.image = .ok a) (hb : w.original e.bkg = .ok b) (hv : w.original e.weight = .ok v)
    (ha' : w'.original e'.image = .ok a') (hb' : w'.original e'.bkg = .ok b') (hv' : w'.original e'.weight = .ok v')
    (hd : a'.dims = a.dims) (hd' : b'.dims = b.dims) (hdv : v'.dims = v.dims)
    (hg : ∀ r c, a'.asNum.px r c = f * a.asNum.px r c ∧ b'.asNum.px r c = f * b.asNum.px r c ∧
      v'.asNum.px r c = v.asNum.px r c / f ^ 2) :
    SameFlux w w' e e' := by
  have k2 : e'.bmask = e.bmask := by rw [hr]
  refine ⟨?_, by rw [← hz]; exact mul_ne_zero hs hf, hs, .inr ⟨_, _, ha, ha', hd.symm⟩, .inr ⟨_, _, hb, hb', hd'.symm⟩,
    .inr ⟨_, _, hv, hv', hdv.symm⟩, by rw [k2, hm], ?_, ?_⟩
  · rw [k2]; exact hr
  · intro a1 b1 a2 b2 h1 h2 h3 h4 r c
    rw [ha] at h1
    rw [hb] at h2
    rw [ha'] at h3
    rw [hb'] at h4
    cases h1; cases h2; cases h3; cases h4
    rw [(hg r c).1, (hg r c).2.1, ← hz]
    ring
  · intro a1 a2 h1 h2 r c
    rw [hv] at h1
    rw [hv'] at h2
    cases h1; cases h2
    rw [(hg r c).2.2, ← hz]
    field_simp

end

/-- **C121** The zero point of an image multiplied by a factor is larger by 2.5 times the decimal logarithm of the factor. -/
theorem C121_zero_point (m f : ℝ) (hf : 0 < f) : zpScale (m + 5 / 2 * Real.logb 10 f) * f = zpScale m := by
  unfold zpScale
  have h1 : (0.4 : ℝ) * (30 - (m + 5 / 2 * Real.logb 10 f)) = 0.4 * (30 - m) - Real.logb 10 f := by ring
  rw [h1, Real.rpow_sub (by norm_num), Real.rpow_logb (by norm_num) (by norm_num) hf]
  field_simp

/-- `C121_zero_point`: counts that are twice as large. -/
example : zpScale (30 + 5 / 2 * Real.logb 10 2) * 2 = zpScale 30 := C121_zero_point 30 2 (by norm_num)

end Pizza
