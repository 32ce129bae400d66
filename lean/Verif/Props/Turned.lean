import Verif.Spec.Turned
import Verif.Lemmas.Moved
import Verif.Lemmas.ProcessSlice
import Verif.Props.Process

/-! C158: turning the sky in right ascension changes no slice; right ascension 0/360 is not a special place. -/

namespace Pizza

section
variable {A σ S P : Type} {δ : ℚ}

theorem wrapFin_turned {d d' : ℚ} (k : ℤ) (h : d' = d + 360 * k) (hn : ∀ j : ℤ, d ≠ 180 + 360 * j) : wrapFin d' = wrapFin d := by
  obtain ⟨h1, h2, ⟨j, hj⟩, -, -, -⟩ := wrapFin_spec d
  refine wrapFin_unique (k := k - j) (abs_lt.2 ⟨lt_of_le_of_ne h1 fun e => ?_, lt_of_le_of_ne h2 fun e => ?_⟩) ?_
  · exact hn (-1 - j) (by push_cast; linarith)
  · exact hn (-j) (by push_cast; linarith)
  · rw [h, hj]
    push_cast
    ring

theorem wrapDiff_turned {a a' b b' : ℚ} (ha : TurnedRa δ a a') (hb : TurnedRa δ b b') (hn : ¬ TurnedRa 180 b a) :
    wrapFin (a' - b') = wrapFin (a - b) := by
  obtain ⟨k, rfl⟩ := ha
  obtain ⟨l, rfl⟩ := hb
  refine wrapFin_turned (k - l) (by push_cast; ring) fun j e => hn ⟨j, by linarith⟩

/-- **C158** Pixel areas. -/
theorem C158_area (f f' : ℚ → ℚ → ℚ × ℚ) (h : TurnedMap δ f f') (hn : NotHalf f) (cosd : ℚ → ℚ) (x y : ℚ) :
    computeWcsArea true f' cosd x y 1 = computeWcsArea true f cosd x y 1 := by
  unfold computeWcsArea
  simp only [h.dec, if_true]
  rw [wrapDiff_turned (h.ra _ _) (h.ra _ _) (hn x y).1, wrapDiff_turned (h.ra _ _) (h.ra _ _) (hn x y).2]

/-- **C158** Jacobians. -/
theorem C158_jacobian (f f' : ℚ → ℚ → ℚ × ℚ) (h : TurnedMap δ f f') (hn : NotHalf f) (cosd : ℚ → ℚ) (x y : ℚ) :
    getJacobian f' cosd x y 1 = getJacobian f cosd x y 1 := by
  unfold getJacobian
  simp only [h.dec]
  rw [wrapDiff_turned (h.ra _ _) (h.ra _ _) (hn x y).1, wrapDiff_turned (h.ra _ _) (h.ra _ _) (hn x y).2]

/-- **C158** The table of slices. -/
theorem C158_objects (f f' : ℚ → ℚ → ℚ × ℚ) (h : TurnedMap δ f f') (hn : NotHalf f) (cosd : ℚ → ℚ) (c b width p : ℤ) (off : ℚ) :
    BothOk (List.Forall₂ (TurnedRow δ)) (buildObjectData c b width p f (fun x y => getJacobian f cosd x y 1) off)
      (buildObjectData c b width p f' (fun x y => getJacobian f' cosd x y 1) off) := by
  unfold buildObjectData
  cases buildSliceLocations c b width with
  | error e => exact .error e
  | ok l =>
    refine .ok _ _ ?_
    rw [List.forall₂_iff_get]
    refine ⟨by simp, fun i h1 h2 => ?_⟩
    simp only [List.get_eq_getElem, List.getElem_mapIdx]
    refine ⟨h.ra _ _, ?_⟩
    simp only [h.dec, C158_jacobian f f' h hn]

theorem areaInterp_turned (f f' : ℚ → ℚ → ℚ × ℚ) (h : TurnedMap δ f f') (hn : NotHalf f) (spl : Spline) (cosd : ℚ → ℚ) (nrow ncol delta : Nat)
    (off : ℚ) : getWcsAreaInterp spl true f' cosd nrow ncol delta off = getWcsAreaInterp spl true f cosd nrow ncol delta off := by
  unfold getWcsAreaInterp
  simp only [C158_area f f' h hn]

theorem fwd0_turned {o o' : WcsObj} (h : TurnedWcs δ o o') (off : ℚ) :
    TurnedMap δ (SEWcs.fwd0 ⟨o.fwd, o.inv, off⟩) (SEWcs.fwd0 ⟨o'.fwd, o'.inv, off⟩) ∧ NotHalf (SEWcs.fwd0 ⟨o.fwd, o.inv, off⟩) := by
  refine ⟨⟨fun x y => h.fwd.ra _ _, fun x y => h.fwd.dec _ _⟩, fun x y => ?_⟩
  have := h.notHalf (x + off) (y + off)
  rw [show x + off - 1 = x - 1 + off by ring, show x + off + 1 = x + 1 + off by ring, show y + off - 1 = y - 1 + off by ring,
    show y + off + 1 = y + 1 + off by ring] at this
  exact this

theorem image2sky_grid (o : SEWcs) (l : List (ℚ × ℚ)) : o.image2sky (.arr (l.map Prod.snd)) (.arr (l.map Prod.fst)) =
    .ok (.arr ((l.map fun p => o.fwd0 p.2 p.1).map Prod.fst), .arr ((l.map fun p => o.fwd0 p.2 p.1).map Prod.snd)) := by
  have e : List.zipWith o.fwd0 (l.map Prod.snd) (l.map Prod.fst) = l.map fun p => o.fwd0 p.2 p.1 := by
    induction l with
    | nil => rfl
    | cons a l ih => simp only [List.map_cons, List.zipWith_cons_cons, ih]
  unfold SEWcs.image2sky coordCall broadcast
  simp [Arg.ndim, Arg.flat, e, ok_bind, pure, Except.pure]

theorem inverse_turned {o o' : WcsObj} (h : TurnedWcs δ o o') {g g' : ℚ → ℚ → ℚ × ℚ} (hg : TurnedInv δ g g') (fit : Fit) (off off' : ℚ)
    (nrow ncol delta : Nat) :
    getWcsInverse fit g' off ⟨o'.fwd, o'.inv, off'⟩ nrow ncol delta = getWcsInverse fit g off ⟨o.fwd, o.inv, off'⟩ nrow ncol delta := by
  have hf := (fwd0_turned h off').1
  have e : ∀ l : List (ℚ × ℚ), List.zipWith g' ((l.map fun p => SEWcs.fwd0 ⟨o'.fwd, o'.inv, off'⟩ p.2 p.1).map Prod.fst)
      ((l.map fun p => SEWcs.fwd0 ⟨o'.fwd, o'.inv, off'⟩ p.2 p.1).map Prod.snd) =
      List.zipWith g ((l.map fun p => SEWcs.fwd0 ⟨o.fwd, o.inv, off'⟩ p.2 p.1).map Prod.fst)
      ((l.map fun p => SEWcs.fwd0 ⟨o.fwd, o.inv, off'⟩ p.2 p.1).map Prod.snd) := by
    intro l
    induction l with
    | nil => rw [List.map_nil, List.map_nil, List.map_nil, List.map_nil]; rfl
    | cons p l ih =>
      simp only [List.map_cons, List.zipWith_cons_cons]
      rw [ih, hf.dec, hg _ _ _ (hf.ra p.2 p.1)]
  unfold getWcsInverse
  simp only [image2sky_grid, ok_bind, Arg.flat, e]

/-- What the constructor makes of a turned image. -/
structure TurnedCon (δ : ℚ) (c c' : SEConstructed P) : Prop where
  rest : c' = { c with wcs := c'.wcs, raCcd := c'.raCcd }
  wcs : TurnedWcs δ c.wcs c'.wcs
  celestial : c.celestial = true
  ra : TurnedRa δ c.raCcd c'.raCcd

theorem seWcs_turned {w w' : ProcWorld A σ S P} {t t' : Tile A S P} (h : TurnedSky δ w w' t t') (info : SESource P) :
    BothOk (TurnedWcs δ) (seWcs w.disk info t.wcs).out (seWcs w'.disk info t'.wcs).out := by
  have hr := h.request
  generalize t.wcs = r at hr
  generalize t'.wcs = r' at hr
  cases hr with
  | object o o' ho => exact .ok _ _ ho
  | named s hs =>
    unfold seWcs
    simp only [if_neg hs]
    split
    · simp only [Reads.out_bind]
      cases (Reads.key info.imagePath).out with
      | error e => exact .error e
      | ok p =>
      cases (Reads.key info.imageExt).out with
      | error e => exact .error e
      | ok x => exact h.imageWcs p x
    split
    · simp only [Reads.out_bind]
      cases (Reads.key info.headPath).out with
      | error e => exact .error e
      | ok q =>
      cases (Reads.key info.imagePath).out with
      | error e => exact .error e
      | ok p =>
      cases (Reads.key info.imageExt).out with
      | error e => exact .error e
      | ok x => exact h.headWcs q p x
    split
    · simp only [Reads.out_bind]
      cases (Reads.key info.piffPath).out with
      | error e => exact .error e
      | ok p =>
      cases (Reads.key info.ccdnum).out with
      | error e => exact .error e
      | ok n =>
        have := h.piff p n
        simp only [ok_bind]
        show BothOk _ ((w.disk.piff p n) >>= _) ((w'.disk.piff p n) >>= _)
        generalize w.disk.piff p n = a at this
        generalize w'.disk.piff p n = b at this
        cases this with
        | error e => exact .error e
        | ok a b g => exact .ok _ _ g.2
    · exact .error _

theorem sePsf_turned {w w' : ProcWorld A σ S P} {t t' : Tile A S P} (h : TurnedSky δ w w' t t') (info : SESource P) (r : Req P) :
    (sePsf w'.disk info r).out = (sePsf w.disk info r).out := by
  cases r with
  | object m => rfl
  | named s =>
    have e : w'.disk.psfex = w.disk.psfex := by rw [h.disk]
    unfold sePsf
    simp only
    split
    · rfl
    split
    · rw [e]
    split
    · simp only [Reads.out_bind]
      cases (Reads.key info.piffPath).out with
      | error e => rfl
      | ok p =>
      cases (Reads.key info.ccdnum).out with
      | error e => rfl
      | ok n =>
        have := h.piff p n
        simp only [ok_bind]
        show ((w'.disk.piff p n) >>= _) = ((w.disk.piff p n) >>= _)
        generalize w.disk.piff p n = a at this
        generalize w'.disk.piff p n = b at this
        cases this with
        | error e => rfl
        | ok a b g =>
          simp only [ok_bind]
          rw [g.1]
    · rfl

theorem bounds_turned {toUV : ℚ → ℚ → ℚ → ℚ → ℚ × ℚ}
    (hu : ∀ ra ra' dec ra0 ra0' dec0, TurnedRa δ ra ra' → TurnedRa δ ra0 ra0' → toUV ra' dec ra0' dec0 = toUV ra dec ra0 dec0)
    (cosArc : ℚ → ℚ) (nrow ncol nGrid : Nat) (f f' : ℚ → ℚ → ℚ × ℚ) (h : TurnedMap δ f f') (off buffer : ℚ) :
    BothOk (fun b b' => b'.1 = b.1 ∧ TurnedRa δ b.2.1 b'.2.1 ∧ b'.2.2 = b.2.2) (roughSkyBoundsCel toUV cosArc nrow ncol nGrid f off buffer)
      (roughSkyBoundsCel toUV cosArc nrow ncol nGrid f' off buffer) := by
  unfold roughSkyBoundsCel
  by_cases h0 : nrow = 0 ∨ ncol = 0 ∨ nGrid = 0
  · rw [if_pos h0, if_pos h0]
    exact .error _
  rw [if_neg h0, if_neg h0]
  have e : ∀ p : ℚ × ℚ, toUV (f' (p.2 + off) (p.1 + off)).1 (f' (p.2 + off) (p.1 + off)).2
      (f' (((ncol : ℚ) - 1) / 2 + off) (((nrow : ℚ) - 1) / 2 + off)).1 (f' (((ncol : ℚ) - 1) / 2 + off) (((nrow : ℚ) - 1) / 2 + off)).2 =
      toUV (f (p.2 + off) (p.1 + off)).1 (f (p.2 + off) (p.1 + off)).2
      (f (((ncol : ℚ) - 1) / 2 + off) (((nrow : ℚ) - 1) / 2 + off)).1 (f (((ncol : ℚ) - 1) / 2 + off) (((nrow : ℚ) - 1) / 2 + off)).2 := by
    intro p
    rw [h.dec, h.dec]
    exact hu _ _ _ _ _ _ (h.ra _ _) (h.ra _ _)
  simp only [List.map_map, Function.comp_def, e]
  cases qmin? ((gridPoints nrow ncol nGrid).map fun p => cosArc (toUV (f (p.2 + off) (p.1 + off)).1 (f (p.2 + off) (p.1 + off)).2
      (f (((ncol : ℚ) - 1) / 2 + off) (((nrow : ℚ) - 1) / 2 + off)).1 (f (((ncol : ℚ) - 1) / 2 + off) (((nrow : ℚ) - 1) / 2 + off)).2).2) with
  | error e => exact .error e
  | ok a =>
  cases qmin? ((gridPoints nrow ncol nGrid).map fun p => (toUV (f (p.2 + off) (p.1 + off)).1 (f (p.2 + off) (p.1 + off)).2
      (f (((ncol : ℚ) - 1) / 2 + off) (((nrow : ℚ) - 1) / 2 + off)).1 (f (((ncol : ℚ) - 1) / 2 + off) (((nrow : ℚ) - 1) / 2 + off)).2).1) with
  | error e => exact .error e
  | ok b =>
  cases qmax? ((gridPoints nrow ncol nGrid).map fun p => (toUV (f (p.2 + off) (p.1 + off)).1 (f (p.2 + off) (p.1 + off)).2
      (f (((ncol : ℚ) - 1) / 2 + off) (((nrow : ℚ) - 1) / 2 + off)).1 (f (((ncol : ℚ) - 1) / 2 + off) (((nrow : ℚ) - 1) / 2 + off)).2).1) with
  | error e => exact .error e
  | ok c =>
  cases qmin? ((gridPoints nrow ncol nGrid).map fun p => (toUV (f (p.2 + off) (p.1 + off)).1 (f (p.2 + off) (p.1 + off)).2
      (f (((ncol : ℚ) - 1) / 2 + off) (((nrow : ℚ) - 1) / 2 + off)).1 (f (((ncol : ℚ) - 1) / 2 + off) (((nrow : ℚ) - 1) / 2 + off)).2).2) with
  | error e => exact .error e
  | ok d =>
  cases qmax? ((gridPoints nrow ncol nGrid).map fun p => (toUV (f (p.2 + off) (p.1 + off)).1 (f (p.2 + off) (p.1 + off)).2
      (f (((ncol : ℚ) - 1) / 2 + off) (((nrow : ℚ) - 1) / 2 + off)).1 (f (((ncol : ℚ) - 1) / 2 + off) (((nrow : ℚ) - 1) / 2 + off)).2).2) with
  | error e => exact .error e
  | ok g => exact .ok _ _ ⟨rfl, h.ra _ _, h.dec _ _⟩

theorem seInit_turned {w w' : ProcWorld A σ S P} {t t' : Tile A S P} (h : TurnedSky δ w w' t t') (info : SESource P) (off : ℚ) :
    BothOk (TurnedCon δ) (seInit w.disk info off t.wcs t.psf).out (seInit w'.disk info off t'.wcs t'.psf).out := by
  have e1 : t'.psf = t.psf := by rw [h.tile]
  have e2 : seShape w'.disk info = seShape w.disk info := by rw [h.disk]; rfl
  have e3 : w'.disk.skyBounds = w.disk.skyBounds := by rw [h.disk]
  have hw := seWcs_turned h info
  unfold seInit
  simp only [Reads.out_bind]
  rw [e1, e2, e3, sePsf_turned h]
  have hr := h.request
  generalize t.wcs = r at hr hw ⊢
  generalize t'.wcs = r' at hr hw ⊢
  generalize (seWcs w.disk info r).out = a at hw
  generalize (seWcs w'.disk info r').out = a' at hw
  cases hw with
  | error e => exact .error e
  | ok o o' ho =>
  simp only [ok_bind]
  cases (sePsf w.disk info t.psf).out with
  | error e => exact .error e
  | ok m =>
  simp only [ok_bind]
  cases (seShape w.disk info).out with
  | error e => exact .error e
  | ok sh =>
  simp only [ok_bind]
  split
  · exact .error _
  have c1 : o.initCelestial = true := by
    unfold WcsObj.initCelestial
    rcases ho.celestial with hc | hc <;> simp [hc]
  have c2 : o'.initCelestial = true := by
    unfold WcsObj.initCelestial
    rw [ho.cls]
    rcases ho.celestial with hc | hc <;> simp [hc]
  have v1 : o.evaluable off = .ok fun x y => o.fwd (x + off) (y + off) := by
    unfold WcsObj.evaluable
    rcases ho.celestial with hc | hc <;> simp [hc]
  have v2 : o'.evaluable off = .ok fun x y => o'.fwd (x + off) (y + off) := by
    unfold WcsObj.evaluable
    rw [ho.cls]
    rcases ho.celestial with hc | hc <;> simp [hc]
  simp only [Reads.out_bind, Reads.ofExcept, v1, v2, ok_bind, c1, c2]
  obtain ⟨cosArc, nGrid, buffer, hb⟩ := h.bounds
  rw [hb, hb]
  have g := bounds_turned h.toUV cosArc sh.1 sh.2 nGrid _ _ (fwd0_turned ho off).1 0 buffer
  change BothOk _ (roughSkyBoundsCel w.toUV cosArc sh.1 sh.2 nGrid (fun x y => o.fwd (x + off) (y + off)) 0 buffer)
    (roughSkyBoundsCel w.toUV cosArc sh.1 sh.2 nGrid (fun x y => o'.fwd (x + off) (y + off)) 0 buffer) at g
  generalize roughSkyBoundsCel w.toUV cosArc sh.1 sh.2 nGrid (fun x y => o.fwd (x + off) (y + off)) 0 buffer = b at g
  generalize roughSkyBoundsCel w.toUV cosArc sh.1 sh.2 nGrid (fun x y => o'.fwd (x + off) (y + off)) 0 buffer = b' at g
  cases g with
  | error e => exact .error e
  | ok b b' g => exact .ok _ _ ⟨by rw [g.1, g.2.2]; cases hr <;> rfl, ho, rfl, g.2.1⟩

theorem freshSrc_turned {w w' : ProcWorld A σ S P} {t t' : Tile A S P} (h : TurnedSky δ w w' t t') (e : Entry P) {ra ra' raPsf raPsf' : ℚ}
    (dec decPsf : ℚ) (hr : TurnedRa δ ra ra') (hp : TurnedRa δ raPsf raPsf') :
    freshSrc w' t' ra' dec raPsf' decPsf e = freshSrc w t ra dec raPsf decPsf e := by
  have hi := seInit_turned h e.src e.offset
  have w1 : w'.toUV = w.toUV := by rw [h.world]
  have w2 : w'.zpScale = w.zpScale := by rw [h.world]
  have w3 : w'.psfKind = w.psfKind := by rw [h.world]
  have w4 : w'.setupDim = w.setupDim := by rw [h.world]
  have w5 : w'.drawPsf = w.drawPsf := by rw [h.world]
  have w6 : w'.fit = w.fit := by rw [h.world]
  have w7 : w'.spl = w.spl := by rw [h.world]
  have w8 : w'.cosd = w.cosd := by rw [h.world]
  have w9 : w'.tGrid = w.tGrid := by rw [h.world]
  have t1 : t'.kwargs = t.kwargs := by rw [h.tile]
  have t2 : t'.offset = t.offset := by rw [h.tile]
  have t3 : t'.seDelta = t.seDelta := by rw [h.tile]
  have t4 : t'.coaddDelta = t.coaddDelta := by rw [h.tile]
  have t5 : t'.shape = t.shape := by rw [h.tile]
  have t6 : t'.celestial = t.celestial := by rw [h.tile]
  have t7 : t'.piffCheck = t.piffCheck := by rw [h.tile]
  have hreads : freshReads w' t' e = freshReads w t e := by
    rw [h.world, h.tile]
    rfl
  have hflag : ∀ p, freshFlag w' t' e p = freshFlag w t e p := by
    intro p
    unfold freshFlag
    rw [t7, w3, t1, w9]
    split
    · split
      · rename_i p n _ _
        have := h.piff p n
        generalize w.disk.piff p n = a at this
        generalize w'.disk.piff p n = b at this
        cases this with
        | error e => rfl
        | ok a b g =>
          simp only [ok_bind]
          rw [g.1]
      · rfl
    · rfl
  unfold freshSrc
  generalize (seInit w.disk e.src e.offset t.wcs t.psf).out = a at hi
  generalize (seInit w'.disk e.src e.offset t'.wcs t'.psf).out = a' at hi
  cases hi with
  | error x => rfl
  | ok c c' hc =>
  have k1 : c'.shape = c.shape := by rw [hc.rest]
  have k2 : c'.psf = c.psf := by rw [hc.rest]
  have k3 : c'.wcsType = c.wcsType := by rw [hc.rest]
  have k4 : c'.celestial = c.celestial := by rw [hc.rest]
  have k5 : c'.skyBnds = c.skyBnds := by rw [hc.rest]
  have k6 : c'.decCcd = c.decCcd := by rw [hc.rest]
  have i1 : SEWcs.inv0 ⟨c'.wcs.fwd, c'.wcs.inv, e.offset⟩ ra' dec = SEWcs.inv0 ⟨c.wcs.fwd, c.wcs.inv, e.offset⟩ ra dec := by
    simp only [SEWcs.inv0, hc.wcs.inv _ _ _ hr]
  have i2 : SEWcs.inv0 ⟨c'.wcs.fwd, c'.wcs.inv, e.offset⟩ raPsf' decPsf = SEWcs.inv0 ⟨c.wcs.fwd, c.wcs.inv, e.offset⟩ raPsf decPsf := by
    simp only [SEWcs.inv0, hc.wcs.inv _ _ _ hp]
  have cel : ∀ o : WcsObj, (o.cls = .esutil ∨ o.cls = .galsimCelestial) → o.isCelestial = true := by
    intro o ho
    unfold WcsObj.isCelestial
    rcases ho with ho | ho <;> simp [ho]
  have ct : ccdContainsCel w.toUV c.celestial (c.skyBnds, c'.raCcd, c.decCcd) ra' dec =
      ccdContainsCel w.toUV c.celestial (c.skyBnds, c.raCcd, c.decCcd) ra dec := by
    unfold ccdContainsCel
    rw [if_pos hc.celestial, if_pos hc.celestial]
    simp only [h.toUV _ _ dec _ _ c.decCcd hr hc.ra]
  have hl : buildLookups w.fit w.spl ⟨⟨c'.wcs.fwd, c'.wcs.inv, e.offset⟩, c'.wcs.isCelestial, c.shape.1, c.shape.2, t'.fwd, t'.inv, t.celestial,
        t.offset, t.shape.1, t.shape.2, w.cosd⟩ t.seDelta t.coaddDelta =
      buildLookups w.fit w.spl ⟨⟨c.wcs.fwd, c.wcs.inv, e.offset⟩, c.wcs.isCelestial, c.shape.1, c.shape.2, t.fwd, t.inv, t.celestial,
        t.offset, t.shape.1, t.shape.2, w.cosd⟩ t.seDelta t.coaddDelta := by
    unfold buildLookups
    simp only [cel _ hc.wcs.celestial, cel _ (hc.wcs.cls ▸ hc.wcs.celestial), h.celestial]
    rw [inverse_turned hc.wcs h.inv, areaInterp_turned _ _ (fwd0_turned hc.wcs e.offset).1 (fwd0_turned hc.wcs e.offset).2,
      areaInterp_turned _ _ h.fwd h.notHalf]
  simp only [w1, w2, w3, w4, w5, w6, w7, w8, t1, t2, t3, t4, t5, t6, k1, k2, k3, k4, k5, k6, hreads, hflag, i1, i2, ct, hl,
    h.psfSize _ _ _ _ _ _ hc.wcs, inverse_turned hc.wcs h.inv]
  have hd : w.drawPsf c.psf c'.wcs c.wcsType e.offset t.kwargs e.src.ccdnum = w.drawPsf c.psf c.wcs c.wcsType e.offset t.kwargs e.src.ccdnum :=
    funext₂ fun x y => h.psfDraw _ _ _ _ _ _ _ _ _ hc.wcs
  rw [hd]

theorem gaiaFor_turned {w w' : ProcWorld A σ S P} {t t' : Tile A S P} (h : TurnedSky δ w w' t t') (row : ObjRow) (r : ℚ) :
    gaiaFor (freshEnv w' t') { row with ra := r } = gaiaFor (freshEnv w t) row := by
  have w1 : w'.draw = w.draw := by rw [h.world]
  have w2 : w'.pow10 = w.pow10 := by rw [h.world]
  have w3 : w'.f4 = w.f4 := by rw [h.world]
  have t1 : t'.gaiaPath = t.gaiaPath := by rw [h.tile]
  have t2 : t'.gaiaCfg = t.gaiaCfg := by rw [h.tile]
  have t3 : t'.offset = t.offset := by rw [h.tile]
  unfold gaiaFor freshEnv
  simp only [w1, w2, w3, t1, t2, t3]
  cases t.gaiaPath with
  | none => rfl
  | some path =>
  cases t.gaiaCfg with
  | none => rfl
  | some g =>
  simp only [Option.map_some]
  have hg := h.gaia path
  generalize w.gaia path = a at hg
  generalize w'.gaia path = a' at hg
  cases hg with
  | error e => rfl
  | ok l l' hl =>
  simp only [ok_bind]
  have e : (addGaiaRadius w.pow10 w.f4 (readGaiaStars t'.inv t.offset l') g.maxMag g.coeffs).map
      (fun s => (⟨s.1.x - (⌊row.origStartCol⌋ : ℤ), s.1.y - (⌊row.origStartRow⌋ : ℤ), s.2⟩ : Circle)) =
      (addGaiaRadius w.pow10 w.f4 (readGaiaStars t.inv t.offset l) g.maxMag g.coeffs).map
      (fun s => (⟨s.1.x - (⌊row.origStartCol⌋ : ℤ), s.1.y - (⌊row.origStartRow⌋ : ℤ), s.2⟩ : Circle)) := by
    unfold addGaiaRadius readGaiaStars
    induction hl with
    | nil => rw [List.map_nil, List.map_nil]
    | cons hs _ ih =>
      rename_i a b _ _ _
      simp only [List.map_cons, List.filterMap_cons, hs.2.2, hs.2.1, h.inv _ _ _ hs.1]
      cases a.mag with
      | none => exact ih
      | some m =>
        by_cases hm : m ≤ g.maxMag
        · simp only [if_pos hm, List.map_cons]
          rw [ih]
        · simp only [if_neg hm]
          exact ih
  unfold buildGaiaStarMask
  simp only [e]

/-- **C158** Turning the whole sky in right ascension changes nothing in a slice. -/
theorem C158_slice (w w' : ProcWorld A σ S P) (t t' : Tile A S P) (h : TurnedSky δ w w' t t') (i seed : Nat) :
    coaddSingleSlice (freshEnv w' t') i seed = coaddSingleSlice (freshEnv w t) i seed := by
  have w1 : w'.ext = w.ext := by rw [h.world]
  have w2 : w'.seeded = w.seeded := by rw [h.world]
  have t1 : t'.cfg = t.cfg := by rw [h.tile]
  have t2 : t'.nExtra = t.nExtra := by rw [h.tile]
  have t3 : t'.offset = t.offset := by rw [h.tile]
  have t4 : t'.entries = t.entries := by rw [h.tile]
  unfold coaddSingleSlice
  show (do
      let row ← objRow t'.objects i
      let lay ← coaddPsfLayout t'.fwd t'.inv row.ra row.dec row.psfBoxSize t'.offset
      let gaia ← gaiaFor (freshEnv w' t') row
      let inp ← buildSliceInputs w'.ext (cfgFor (freshEnv w' t') row gaia)
        (t'.entries.map (freshSrc w' t' row.ra row.dec lay.raPsf lay.decPsf)) (w'.seeded seed)
      coaddChosen (freshEnv w' t') row lay i inp) = (do
      let row ← objRow t.objects i
      let lay ← coaddPsfLayout t.fwd t.inv row.ra row.dec row.psfBoxSize t.offset
      let gaia ← gaiaFor (freshEnv w t) row
      let inp ← buildSliceInputs w.ext (cfgFor (freshEnv w t) row gaia)
        (t.entries.map (freshSrc w t row.ra row.dec lay.raPsf lay.decPsf)) (w.seeded seed)
      coaddChosen (freshEnv w t) row lay i inp)
  have ho : (t.objects[i]? = none ∧ t'.objects[i]? = none) ∨ ∃ r r', t.objects[i]? = some r ∧ t'.objects[i]? = some r' ∧ TurnedRow δ r r' := by
    have hl := h.objects.length_eq
    by_cases hi : i < t.objects.length
    · exact .inr ⟨_, _, List.getElem?_eq_getElem hi, List.getElem?_eq_getElem (hl ▸ hi), List.Forall₂.get h.objects hi (hl ▸ hi)⟩
    · exact .inl ⟨List.getElem?_eq_none (by omega), List.getElem?_eq_none (by omega)⟩
  unfold objRow
  rcases ho with ⟨e1, e2⟩ | ⟨row, row', e1, e2, hrow⟩
  · rw [e1, e2]
    rfl
  rw [e1, e2]
  simp only [ok_bind]
  obtain ⟨hra, hrest⟩ := hrow
  generalize row'.ra = r at hra hrest
  subst hrest
  simp only [t3, t4, w1, w2]
  have hlay : BothOk (fun l l' => TurnedRa δ l.raPsf l'.raPsf ∧ l' = { l with raPsf := l'.raPsf })
      (coaddPsfLayout t.fwd t.inv row.ra row.dec row.psfBoxSize t.offset) (coaddPsfLayout t'.fwd t'.inv r row.dec row.psfBoxSize t.offset) := by
    unfold coaddPsfLayout
    simp only [h.inv _ _ _ hra]
    split
    · exact .error _
    · exact .ok _ _ ⟨h.fwd.ra _ _, by simp only [h.fwd.dec]⟩
  generalize coaddPsfLayout t.fwd t.inv row.ra row.dec row.psfBoxSize t.offset = a at hlay
  generalize coaddPsfLayout t'.fwd t'.inv r row.dec row.psfBoxSize t.offset = a' at hlay
  cases hlay with
  | error e => rfl
  | ok lay lay' hl =>
  obtain ⟨hp, hl⟩ := hl
  generalize lay'.raPsf = q at hp hl
  subst hl
  simp only [ok_bind]
  rw [gaiaFor_turned h]
  cases gaiaFor (freshEnv w t) row with
  | error e => rfl
  | ok g =>
  simp only [ok_bind]
  have hc : cfgFor (freshEnv w' t') { row with ra := r } g = cfgFor (freshEnv w t) row g := by
    unfold cfgFor freshEnv
    simp only [t1]
  have hs : (t.entries.map (freshSrc w' t' r row.dec q lay.decPsf)) = t.entries.map (freshSrc w t row.ra row.dec lay.raPsf lay.decPsf) :=
    List.map_congr_left fun e _ => freshSrc_turned h e row.dec lay.decPsf hra hp
  rw [hc, hs]
  cases buildSliceInputs w.ext (cfgFor (freshEnv w t) row g) (t.entries.map (freshSrc w t row.ra row.dec lay.raPsf lay.decPsf)) (w.seeded seed) with
  | error e => rfl
  | ok inp =>
  simp only [ok_bind]
  have hx : (freshEnv w' t').nExtra = (freshEnv w t).nExtra := t2
  have hy : (freshEnv w' t').ext = (freshEnv w t).ext := w1
  have hz : resampleEpoch { row with ra := r } { lay with raPsf := q } = resampleEpoch row lay := rfl
  unfold coaddChosen
  rw [hx, hy, hz]

/-- **C158** The same in processes that have done anything before. -/
theorem C158_process {U U' : Tile A S P → Prop} (w w' : ProcWorld A σ S P) (t t' : Tile A S P) (h : TurnedSky δ w w' t t') (ho : Orderly w U)
    (ho' : Orderly w' U') (hU : U t) (hU' : U' t') (sizes sizes' : CacheId → Nat) (count count' : Nat) (ops ops' : List (ProcOp A S P))
    (hops : OpsIn U ops) (hops' : OpsIn U' ops') (i seed : Nat) :
    (coaddSingleSliceP w' t' i seed (procRun w' (Proc.fresh sizes' w'.arrays count') ops')).1 =
      (coaddSingleSliceP w t i seed (procRun w (Proc.fresh sizes w.arrays count) ops)).1 := by
  rw [C113_slice ho sizes count ops hops t hU, C113_slice ho' sizes' count' ops' hops' t' hU']
  exact C158_slice w w' t t' h i seed

end
end Pizza
