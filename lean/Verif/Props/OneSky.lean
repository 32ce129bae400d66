import Verif.Spec.OneSky
import Verif.Props.PixelLaw
import Verif.Props.Masked

/-!
Property C122: coadd pixels without defects are the values of one function of the position on the coadd, whatever the
slice, its size, the seed and the configuration.
-/

namespace Pizza

variable {A σ S P : Type}

/-! ### the arrays of a used epoch -/

/-- Without rejection of outliers and without symmetrisation, the weight and the mask of a used epoch are windows of
the files. -/
theorem used_raw {x : Ext A σ} {c : BuildCfg A} {srcs : List Src} {rng : σ} {out : Inputs}
    (hx : Sane x c srcs) (h : buildSliceInputs x c srcs rng = .ok out) (hro : c.rejectOutliers = false)
    (hsym : c.symmetrize = .off) {e : Epoch} (he : e ∈ out.slices) :
    ∃ (y0 x0 : Nat) (bm : Img (BitVec 32)) (wt w : Img ℚ) (b : Img (BitVec 32)),
      e.obj.yStart = some (y0 : ℤ) ∧ e.obj.xStart = some (x0 : ℤ) ∧ e.obj.boxSize = some (sliceSide c : ℤ) ∧
      e.src.reads.bmask = .ok bm ∧ e.src.reads.weight = .ok wt ∧
      e.obj.weight = some w ∧ e.obj.bmask = some b ∧ w.Sq (sliceSide c) ∧
      ∀ i < sliceSide c, ∀ j < sliceSide c,
        w.px i j = wt.px (y0 + i) (x0 + j) / e.src.scale ^ 2 ∧ b.px i j = bm.px (y0 + i) (x0 + j) := by
  obtain ⟨hmem, hpass, _, d, w0, g, w, b, w', b', im', ns', pm, q, a1, a2, a3, a4, a5, _⟩ :=
    used_epoch x c srcs rng out hx h e he
  obtain ⟨col, row, im, bkg, bm, wt, ns, r1, r2, r3, r4, r5, r6, r7⟩ := a1.reads
  obtain ⟨col', row', psf, px, py, p1, p2, p3, p4, _⟩ :=
    buildSliceInputs_place hx h e (List.mem_append_left _ he)
  cases r1.symm.trans p1
  obtain ⟨_, _, _, col', row', p1', hin⟩ := hpass
  cases r1.symm.trans p1'
  obtain ⟨side, B, hB, s1, s2, _, _, s3, _⟩ :=
    C07_slice_bounds col row c.fracBuffer c.boxSize (by linarith [hx.frac]) (by have := hx.box; omega)
  have hn := sliceSide_pos hx.box hx.frac
  have hside : side = sliceSide c := by
    rw [hn.2, ← s2, ← hB]; simp only [computeSliceBounds]; ring
  rw [hB] at p2 p3 p4 r7
  have q1 := hin B.rowmin B.colmin B hB le_rfl (by omega) le_rfl (by omega)
  obtain ⟨w1, w2, w3, w4⟩ := hx.shape _ hmem
  have hcon : ccdContainsBounds e.src.nrow e.src.ncol B c.edgeBuffer = true := by
    rw [C08_contains_iff _ _ _ _ (by omega) (by omega)]
    exact fun i j => hin i j B hB
  obtain ⟨d', t1, t2, t3, t4, _, t5, t6, _, _⟩ :=
    C08_set_slice ⟨im, ⟨e.src.nrow, e.src.ncol, bkg.px⟩, bm, wt, ns⟩ e.src.nrow e.src.ncol e.src.scale B
      c.edgeBuffer (w1 _ r2) ⟨rfl, rfl⟩ (w2 _ r4) (w3 _ r5) (w4 _ r6) (by omega) (by omega) hcon
  have hd : d = d' := by
    have : setSlice ⟨im, ⟨e.src.nrow, e.src.ncol, bkg.px⟩, bm, wt, ns⟩ e.src.scale B =
        setSlice ⟨im, bkg, bm, wt, ns⟩ e.src.scale B := rfl
    rw [this, r7] at t1
    exact Except.ok.inj t1
  subst hd
  obtain ⟨y0, hy0⟩ := Int.eq_ofNat_of_zero_le (show 0 ≤ B.rowmin by omega)
  obtain ⟨x0, hx0⟩ := Int.eq_ofNat_of_zero_le (show 0 ≤ B.colmin by omega)
  have hbox : d.boxSize = (sliceSide c : ℤ) := by rw [t4]; omega
  rw [hbox, hy0, hx0] at t5 t6
  have hs := a1.sym
  rw [hsym, a1.weight hro] at hs
  obtain ⟨rfl, rfl⟩ := Prod.mk.inj (Except.ok.inj hs)
  exact ⟨y0, x0, bm, wt, d.weight, d.bmask, by rw [p3, hy0], by rw [p2, hx0], by rw [p4]; congr 1; omega, r4, r5, a4,
    a5, a2, fun i hi j hj => ⟨isWindow_px t5 i hi j hj, isWindow_px t6 i hi j hj⟩⟩

theorem Interleave.sublist {α : Type} {l a b : List α} (h : Interleave l a b) : a.Sublist l := by
  induction h with
  | nil => exact .refl _
  | left x _ ih => exact ih.cons_cons x
  | right x _ ih => exact ih.cons x

/-- The sources of the used epochs, in the order of the sources. -/
theorem used_sublist {x : Ext A σ} {c : BuildCfg A} {srcs : List Src} {rng : σ} {out : Inputs}
    (hx : Sane x c srcs) (h : buildSliceInputs x c srcs rng = .ok out) :
    (out.slices.map Epoch.src).Sublist srcs := by
  classical
  obtain ⟨h1, h2, _⟩ := C46_accounted x c srcs rng out hx h
  by_cases hp : ∃ s ∈ srcs, s.Passes c ∧ s.psfFlag = .ok false
  · exact (h1 hp).sublist.trans List.filter_sublist
  · rw [(h2 hp).1]
    exact List.nil_sublist _

/-- The rows with flags 0 are those of the used epochs, with their weights. -/
theorem used_rows {x : Ext A σ} {c : BuildCfg A} {srcs : List Src} {rng : σ} {out : Inputs} (hx : Sane x c srcs)
    (hfw : ∀ im v, x.fwhm im = .ok v → 0 < v) (h : buildSliceInputs x c srcs rng = .ok out) {id : ℤ}
    {rows : List EpochRow} (hr : makeEpochsInfo id out.weights out.slices out.notUsed out.flags = .ok rows) :
    List.Forall₂ EpochRow.Records (rows.filter fun e => decide (e.flags = 0)) out.slices ∧
      (rows.filter fun e => decide (e.flags = 0)).map EpochRow.weight = out.weights := by
  obtain ⟨rows', h1, h2, _, _, _, _, h3⟩ := C64_slice x c srcs rng out hx (fun _ => hfw) h id
  have hw := (C49_weights x c srcs rng out hx (fun _ => hfw) h).1
  obtain ⟨a, b, c1, la, lb, ha, hb⟩ := C64_rows id out.weights out.slices out.notUsed out.flags hw
    (C46_accounted x c srcs rng out hx h).2.2.2 fun e he => (buildSliceInputs_place hx h e he).placed
  rw [hr] at h1 c1
  cases h1
  rw [filter_eq_take _ rows out.slices.length fun k hk => by
    rw [decide_eq_true_iff]; exact (h3 k hk).1]
  rw [Except.ok.inj c1, ← la, List.take_left]
  constructor
  · rw [List.forall₂_iff_get]
    exact ⟨la, fun k k1 k2 => (ha k k1 k2 (by omega)).2.2.2⟩
  · apply List.ext_getElem (by rw [List.length_map, la, hw])
    intro k k1 k2
    rw [List.getElem_map]
    exact (ha k (by simpa using k1) (by omega) k2).2.2.1

/-! ### from the files -/

theorem freshSrc_ok {w : ProcWorld A σ S P} {t : Tile A S P} {ra dec a b : ℚ} {e : Entry P}
    (h : (freshSrc w t ra dec a b e).init = .ok ()) :
    ∃ con, (seInit w.disk e.src e.offset t.wcs t.psf).out = .ok con ∧
      (freshSrc w t ra dec a b e).nrow = con.shape.1 ∧ (freshSrc w t ra dec a b e).ncol = con.shape.2 ∧
      (freshSrc w t ra dec a b e).reads = freshReads w t e ∧
      (freshSrc w t ra dec a b e).scale = w.zpScale e.magzp ∧
      (freshSrc w t ra dec a b e).imageId = e.imageId ∧
      (freshSrc w t ra dec a b e).lookups = buildLookups w.fit w.spl ⟨⟨con.wcs.fwd, con.wcs.inv, e.offset⟩,
        con.wcs.isCelestial, con.shape.1, con.shape.2, t.fwd, t.inv, t.celestial,
        t.offset, t.shape.1, t.shape.2, w.cosd⟩ t.seDelta t.coaddDelta := by
  unfold freshSrc at h ⊢
  cases hc : (seInit w.disk e.src e.offset t.wcs t.psf).out with
  | error x => rw [hc] at h; cases h
  | ok con => exact ⟨con, rfl, rfl, rfl, rfl, rfl, rfl, rfl⟩

theorem mapsTo_unique {w : ProcWorld A σ S P} {t : Tile A S P} {e : Entry P} {lk lk' : Lookups} {n m n' m' : Nat}
    (h : MapsTo w t e lk n m) (h' : MapsTo w t e lk' n' m') : lk = lk' ∧ n = n' ∧ m = m' := by
  obtain ⟨con, a1, a2, a3, a4⟩ := h
  obtain ⟨con', b1, b2, b3, b4⟩ := h'
  cases a1.symm.trans b1
  exact ⟨Except.ok.inj (a4.symm.trans b4), a2.trans b2.symm, a3.trans b3.symm⟩

/-- The flux at a position is determined. -/
theorem skyFlux_unique {sinc : ℚ → ℚ} {w : ProcWorld A σ S P} {t : Tile A S P} {u v : ℚ} {e : Entry P} {f f' : ℚ}
    (h : SkyFlux sinc w t u v e f) (h' : SkyFlux sinc w t u v e f') : f = f' := by
  obtain ⟨lk, n, m, im, bkg, x, y, a1, a2, a3, a4, a5⟩ := h
  obtain ⟨lk', n', m', im', bkg', x', y', b1, b2, b3, b4, b5⟩ := h'
  obtain ⟨rfl, rfl, rfl⟩ := mapsTo_unique a1 b1
  cases a2.symm.trans b2
  cases a3.symm.trans b3
  cases a4.symm.trans b4
  rw [a5, b5]

theorem skyNoise_unique {sinc : ℚ → ℚ} {w : ProcWorld A σ S P} {t : Tile A S P} {k : Nat} {u v : ℚ} {e : Entry P}
    {f f' : ℚ} (h : SkyNoise sinc w t k u v e f) (h' : SkyNoise sinc w t k u v e f') : f = f' := by
  obtain ⟨lk, n, m, s, a, x, y, a1, a2, a3, a4, a5⟩ := h
  obtain ⟨lk', n', m', s', a', x', y', b1, b2, b3, b4, b5⟩ := h'
  obtain ⟨rfl, rfl, rfl⟩ := mapsTo_unique a1 b1
  cases a2.symm.trans b2
  cases a3.symm.trans b3
  cases a4.symm.trans b4
  rw [a5, b5]

theorem map_eq_ok {α β : Type} {f : α → β} {x : Except Err α} {b : β} (h : x.map f = .ok b) :
    ∃ a, x = .ok a ∧ f a = b := by
  cases x with
  | error e => cases h
  | ok a => exact ⟨a, rfl, Except.ok.inj h⟩

theorem mapM_getElem {α β : Type} {f : α → Except Err β} {l : List α} {out : List β} (h : l.mapM f = .ok out)
    {k : Nat} {b : β} (hb : out[k]? = some b) : ∃ a, l[k]? = some a ∧ f a = .ok b := by
  induction l generalizing out k with
  | nil =>
    cases h
    simp at hb
  | cons a l ih =>
    rw [List.mapM_cons] at h
    obtain ⟨y, h1, h⟩ := bind_eq_ok.1 h
    obtain ⟨ys, h2, h⟩ := bind_eq_ok.1 h
    cases h
    cases k with
    | zero =>
      simp only [List.getElem?_cons_zero, Option.some.injEq] at hb
      exact ⟨a, rfl, by rw [h1, hb]⟩
    | succ k =>
      simp only [List.getElem?_cons_succ] at hb ⊢
      exact ih h2 hb

section
variable {w : ProcWorld A σ S P} {t : Tile A S P}

/-- What is known of a used epoch of an entry. -/
structure UsedFor (w : ProcWorld A σ S P) (t : Tile A S P) (cfg : BuildCfg A) (ep : Epoch) (e : Entry P) : Prop where
  imageId : ep.src.imageId = e.imageId
  con : ∃ con, (seInit w.disk e.src e.offset t.wcs t.psf).out = .ok con ∧
      ep.src.nrow = con.shape.1 ∧ ep.src.ncol = con.shape.2 ∧
      ep.src.lookups = buildLookups w.fit w.spl ⟨⟨con.wcs.fwd, con.wcs.inv, e.offset⟩,
        con.wcs.isCelestial, con.shape.1, con.shape.2, t.fwd, t.inv, t.celestial,
        t.offset, t.shape.1, t.shape.2, w.cosd⟩ t.seDelta t.coaddDelta
  reads : ep.src.reads = freshReads w t e
  scale : ep.src.scale = w.zpScale e.magzp
  good : ∀ (er : EpochRow), er.Records ep → ∀ wt bm, w.original e.weight = .ok wt → freshMask w t e = .ok bm →
    ∀ r c : Nat, er.rowStart ≤ r → r < er.rowStart + er.boxSize → er.colStart ≤ c → c < er.colStart + er.boxSize →
      0 < wt.asNum.px r c → ¬ Carries (bm.px r c) (cfg.splineFlags ||| cfg.noiseFlags) → GoodPixel cfg ep r c
  image : ∃ im bkg, w.original e.image = .ok im ∧ w.original e.bkg = .ok bkg

theorem usedFor {cfg : BuildCfg A} {ra dec a b : ℚ} {rng : σ} {inp : Inputs}
    (hx : Sane w.ext cfg (t.entries.map (freshSrc w t ra dec a b)))
    (h : buildSliceInputs w.ext cfg (t.entries.map (freshSrc w t ra dec a b)) rng = .ok inp)
    (hro : cfg.rejectOutliers = false) (hsym : cfg.symmetrize = .off)
    (hz : ∀ e ∈ t.entries, w.zpScale e.magzp ≠ 0) :
    ∃ es, es.Sublist t.entries ∧ List.Forall₂ (UsedFor w t cfg) inp.slices es := by
  obtain ⟨es, hes, heq⟩ := List.sublist_map_iff.1 (used_sublist hx h)
  refine ⟨es, hes, ?_⟩
  rw [List.forall₂_iff_get]
  have hl : inp.slices.length = es.length := by
    have := congrArg List.length heq
    simpa using this
  refine ⟨hl, fun k k1 k2 => ?_⟩
  simp only [List.get_eq_getElem]
  have hsrc : (inp.slices[k]).src = freshSrc w t ra dec a b es[k] := by
    have := congrArg (fun l => l[k]?) heq
    simpa [k1, k2] using this
  have hmem := List.getElem_mem k1
  generalize inp.slices[k] = ep at hsrc hmem
  have hmem' : es[k] ∈ t.entries := hes.subset (List.getElem_mem k2)
  generalize es[k] = e at hsrc hmem'
  obtain ⟨_, ⟨_, hinit, _⟩, _⟩ := used_epoch _ _ _ _ _ hx h ep hmem
  rw [hsrc] at hinit
  obtain ⟨con, c1, c2, c3, c4, c5, c6, c7⟩ := freshSrc_ok hinit
  rw [← hsrc] at c2 c3 c4 c5 c6 c7
  obtain ⟨y0, x0, bm, wt, w', b', f1, f2, f3, f4, f5, f6, f7, f8, f9⟩ := used_raw hx h hro hsym hmem
  obtain ⟨_, _, im, bkg, _, _, _, _, _, _, _, g1, g2, _⟩ := used_window hx h hmem
  refine ⟨c6, ⟨con, c1, c2, c3, c7⟩, c4, c5, ?_, ?_⟩
  · intro er her wt' bm' hw hb r c r1 r2 r3 r4 hpos hcar
    have e1 := her.row
    have e2 := her.col
    have e3 := her.box
    rw [f1] at e1
    rw [f2] at e2
    rw [f3] at e3
    have e1 := (Option.some.inj e1).symm
    have e2 := (Option.some.inj e2).symm
    have e3 := (Option.some.inj e3).symm
    rw [c4] at f4 f5
    have hb' : bm' = bm := Except.ok.inj (hb.symm.trans f4)
    have hw' : wt'.asNum = wt := by
      have : (w.original e.weight).map Arr.asNum = .ok wt := f5
      rw [hw] at this
      exact Except.ok.inj this
    rw [hw'] at hpos
    rw [hb'] at hcar
    have hi : r - y0 < sliceSide cfg := by omega
    have hj : c - x0 < sliceSide cfg := by omega
    obtain ⟨p1, p2⟩ := f9 (r - y0) hi (c - x0) hj
    rw [show y0 + (r - y0) = r by omega, show x0 + (c - x0) = c by omega] at p1 p2
    refine ⟨x0, y0, w', b', f2, f1, f6, f7, r - y0, c - x0, by omega, by omega, by rw [f8.1]; exact hi,
      by rw [f8.2]; exact hj, ?_, by rw [p2]; exact hcar⟩
    rw [p1, c5]
    have := hz e hmem'
    positivity
  · rw [c4] at g1 g2
    obtain ⟨im', i1, _⟩ := map_eq_ok g1
    obtain ⟨bkg', i2, _⟩ := map_eq_ok g2
    exact ⟨im', bkg', i1, i2⟩

theorem UsedFor.value {cfg : BuildCfg A} {ep : Epoch} {e : Entry P} (h : UsedFor w t cfg ep e) {er : EpochRow}
    (her : er.Records ep) (sinc : ℚ → ℚ) {row : ObjRow} {y x : Nat}
    (hu : Undefected w t (cfg.splineFlags ||| cfg.noiseFlags) (x + row.origStartCol) (y + row.origStartRow) e er) :
    ∃ f, SkyFlux sinc w t (x + row.origStartCol) (y + row.origStartRow) e f ∧ CleanValue sinc cfg row y x ep f := by
  obtain ⟨con, c1, c2, c3, c7⟩ := h.con
  obtain ⟨im, bkg, i1, i2⟩ := h.image
  obtain ⟨lk, n, m, wt, bm, x', y', ⟨con', m1, m2, m3, m4⟩, u2, u3, u4, u5⟩ := hu
  cases c1.symm.trans m1
  rw [m4] at c7
  refine ⟨_, ⟨lk, n, m, im, bkg, x', y', ⟨con, m1, m2, m3, m4⟩, i1, i2, u4, rfl⟩, lk, im.asNum, bkg.asNum, x', y', c7,
    ?_, ?_, u4, ?_, ?_⟩
  · rw [h.reads]; show (w.original e.image).map _ = _; rw [i1]; rfl
  · rw [h.reads]; show (w.original e.bkg).map _ = _; rw [i2]; rfl
  · intro i j a1 a2 a3 a4
    obtain ⟨r, c, rfl, rfl, b1, b2, b3, b4, b5, b6⟩ := u5 i j a1 a2 a3 a4
    exact h.good er her wt bm u2 u3 r c b1 b2 b3 b4 b5 b6
  · unfold fluxAt calibrated
    rw [m2, m3, c2, c3, h.scale]

theorem UsedFor.noise {cfg : BuildCfg A} {ep : Epoch} {e : Entry P} (h : UsedFor w t cfg ep e) {er : EpochRow}
    (her : er.Records ep) (sinc : ℚ → ℚ) {row : ObjRow} {k y x : Nat} {ns : List (Img ℚ)}
    (hns : ep.src.reads.noises = .ok ns) (hk : k < ns.length)
    (hu : Undefected w t (cfg.splineFlags ||| cfg.noiseFlags) (x + row.origStartCol) (y + row.origStartRow) e er) :
    ∃ f, SkyNoise sinc w t k (x + row.origStartCol) (y + row.origStartRow) e f ∧
      CleanNoise sinc cfg row k y x ep f := by
  obtain ⟨con, c1, c2, c3, c7⟩ := h.con
  obtain ⟨lk, n, m, wt, bm, x', y', ⟨con', m1, m2, m3, m4⟩, u2, u3, u4, u5⟩ := hu
  cases c1.symm.trans m1
  rw [m4] at c7
  have hns' := hns
  rw [h.reads] at hns'
  obtain ⟨s, s1, s2⟩ := mapM_getElem (show e.noiseSeeds.mapM (freshNoise w e) = .ok ns from hns')
    (List.getElem?_eq_getElem hk)
  refine ⟨_, ⟨lk, n, m, s, ns[k], x', y', ⟨con, m1, m2, m3, m4⟩, s1, s2, u4, rfl⟩, lk, ns, ns[k], x', y', c7,
    hns, List.getElem?_eq_getElem hk, u4, ?_, ?_⟩
  · intro i j a1 a2 a3 a4
    obtain ⟨r, c, rfl, rfl, b1, b2, b3, b4, b5, b6⟩ := u5 i j a1 a2 a3 a4
    exact h.good er her wt bm u2 u3 r c b1 b2 b3 b4 b5 b6
  · unfold fluxAt
    rw [m2, m3, c2, c3]

end

theorem forall₂_choose {α β γ δ : Type} {R : α → β → Prop} {Q : γ → α → Prop} {U : β → γ → Prop} {F : β → δ → Prop}
    {G : α → δ → Prop} {as : List α} {bs : List β} {cs : List γ} (h1 : List.Forall₂ R as bs)
    (h2 : List.Forall₂ Q cs as) (h3 : List.Forall₂ U bs cs)
    (h : ∀ a b c, a ∈ as → R a b → Q c a → U b c → ∃ f, F b f ∧ G a f) :
    ∃ fs, List.Forall₂ F bs fs ∧ List.Forall₂ G as fs := by
  induction h1 generalizing cs with
  | nil => exact ⟨[], .nil, .nil⟩
  | @cons a b as bs hab _ ih =>
    cases h2 with
    | @cons c _ cs _ hca h2 =>
      cases h3 with
      | cons hbc h3 =>
        obtain ⟨f, f1, f2⟩ := h a b c (by simp) hab hca hbc
        obtain ⟨fs, g1, g2⟩ := ih h2 h3 fun a b c ha => h a b c (by simp [ha])
        exact ⟨f :: fs, .cons f1 g1, .cons f2 g2⟩

theorem forall₂_eq {α β : Type} {F : α → β → Prop} {as : List α} {bs bs' : List β} (h : List.Forall₂ F as bs)
    (h' : List.Forall₂ F as bs') (hu : ∀ a b b', F a b → F a b' → b = b') : bs = bs' := by
  induction h generalizing bs' with
  | nil => cases h'; rfl
  | cons h1 _ ih =>
    cases h' with
    | cons h1' h' => rw [hu _ _ _ h1 h1', ih h']

/-- C122: with symmetrisation of masks and rejection of outliers off, every pixel of a slice whose used images have no
defect near it is the weighted mean of the values that the SE images have at the position of the pixel on the coadd.
The value of an SE image depends on its files, on the WCSs and on that position, and on nothing else; the weights are
those of the table of epochs.  The noise images are made in the same way. -/
theorem C122_sky (w : ProcWorld A σ S P) (t : Tile A S P) (box psfBox : Nat)
    (hv : SoundEnv (freshEnv w t) box psfBox) (hro : t.cfg.rejectOutliers = false) (hsym : t.cfg.symmetrize = .off)
    (hz : ∀ e ∈ t.entries, w.zpScale e.magzp ≠ 0) (sinc : ℚ → ℚ) (hs : ∀ x, sincPade x = .ok (sinc x))
    (i seed : Nat) (r : SliceRes Flt EpochRow) (h : coaddSingleSlice (freshEnv w t) i seed = .ok r) :
    ∃ row es, t.objects[i]? = some row ∧ es.Sublist t.entries ∧
      List.Forall₂ (fun (e : Entry P) er => er.imageId = e.imageId) es (usedRows r) ∧
      (es = [] → r.pix = none) ∧
      (es ≠ [] → ((usedRows r).map EpochRow.weight).sum = 1 ∧ (∀ er ∈ usedRows r, 0 < er.weight) ∧
        ∃ p, r.pix = some p ∧ ∀ y < box, ∀ x < box, ∀ u v : ℚ,
          u = x + row.origStartCol → v = y + row.origStartRow →
          List.Forall₂ (Undefected w t (t.cfg.splineFlags ||| t.cfg.noiseFlags) u v) es (usedRows r) →
          (∃ fs, List.Forall₂ (SkyFlux sinc w t u v) es fs ∧ p.image[y * box + x]? =
            some (.fin (List.zipWith (· * ·) ((usedRows r).map EpochRow.weight) fs).sum)) ∧
          ∀ k < t.nExtra + 1, ∃ fs l, List.Forall₂ (SkyNoise sinc w t k u v) es fs ∧ p.noises[k]? = some l ∧
            l[y * box + x]? =
              some (.fin (List.zipWith (· * ·) ((usedRows r).map EpochRow.weight) fs).sum)) := by
  obtain ⟨_, row, lay, gaia, cfg, inp, h1, h2, h3, h4, h5, h6, h7, h8, h9⟩ := C93_slice _ box psfBox hv i seed r h
  have hr := List.mem_of_getElem? h1
  have hx := hv.sane hr gaia row.ra row.dec lay.raPsf lay.decPsf
  rw [← h4.eq] at hx
  have c1 : cfg.rejectOutliers = false := by rw [h4.eq]; exact hro
  have c2 : cfg.symmetrize = .off := by rw [h4.eq]; exact hsym
  have c3 : cfg.splineFlags = t.cfg.splineFlags := by rw [h4.eq]; rfl
  have c4 : cfg.noiseFlags = t.cfg.noiseFlags := by rw [h4.eq]; rfl
  obtain ⟨es, e1, e2⟩ := usedFor hx h5 c1 c2 hz
  obtain ⟨u1, u2⟩ := used_rows hx hv.fwhm h5 h7
  have hl := (C49_weights _ _ _ _ inp hx (fun _ => hv.fwhm) h5).1
  have hnil : es = [] ↔ inp.slices = [] := by
    rw [← List.length_eq_zero_iff, ← List.length_eq_zero_iff, e2.length_eq]
  refine ⟨row, es, h1, e1, ?_, fun hn => (h8 (hnil.1 hn)).2, fun hn => ?_⟩
  · rw [List.forall₂_iff_get] at u1 e2 ⊢
    refine ⟨e2.1.symm.trans u1.1.symm, fun k k1 k2 => ?_⟩
    have hk : k < inp.slices.length := by rw [e2.1]; exact k1
    exact (u1.2 k k2 hk).imageId.trans (e2.2 k hk k1).imageId
  · obtain ⟨w1, w2, p, ds, p1, p2, p3⟩ := h9 fun hn' => hn (hnil.2 hn')
    have p2' : List.Forall₂ (Contributes sinc cfg row box) inp.slices ds := by
      have hb : row.boxSize.toNat = box := by rw [(hv.rows row hr).1, Int.toNat_natCast]
      rw [List.forall₂_iff_get] at p2 ⊢
      refine ⟨p2.1, fun k hk1 hk2 => ?_⟩
      have := contributes hx h5 (List.getElem_mem hk1) sinc hs (p2.2 k hk1 hk2)
      rw [hb] at this
      exact this
    have u2' : (usedRows r).map EpochRow.weight = inp.weights := u2
    rw [u2', ← h6]
    refine ⟨w2, ?_, p, p1, fun y hy x hx' u v hu hvv hund => ?_⟩
    · intro er her
      apply w1
      rw [h6, ← u2']
      exact List.mem_map_of_mem her
    · subst hu
      subst hvv
      rw [← c3, ← c4] at hund
      constructor
      · obtain ⟨fs, f1, f2⟩ := forall₂_choose e2 u1 hund fun a b c _ hab hca hbc => hab.value hca sinc hbc
        refine ⟨fs, f1, ?_⟩
        obtain ⟨z, z1, z2⟩ := p3.image.2 y hy x hx'
        rw [z1, z2, mean_of (g := fun d => d.image.px y x) p2' f2 (h6 ▸ hl) w2 fun e d f a b =>
          clean_value hy hx' a b]
      · intro k hk
        have hns : ∀ ep ∈ inp.slices, ∃ ns, ep.src.reads.noises = .ok ns ∧ k < ns.length := by
          intro ep hep
          obtain ⟨_, _, _, _, ns, _, _, _, _, _, _, _, _, g3, _⟩ := used_window hx h5 hep
          refine ⟨ns, g3, ?_⟩
          rw [hv.noises _ _ _ _ _ (used_epoch _ _ _ _ _ hx h5 ep hep).1 ns g3]
          exact hk
        obtain ⟨fs, f1, f2⟩ := forall₂_choose e2 u1 hund fun a b c ha hab hca hbc => by
          obtain ⟨ns, n1, n2⟩ := hns a ha
          exact hab.noise hca sinc n1 n2 hbc
        obtain ⟨l, l1, l2⟩ := p3.noise k hk
        refine ⟨fs, l, f1, l1, ?_⟩
        obtain ⟨z, z1, z2⟩ := l2.2 y hy x hx'
        rw [z1, z2, mean_of (g := noisePx k y x) p2' f2 (h6 ▸ hl) w2 fun e d f a b => clean_noise hy hx' a b]

theorem nodup_sublist_eq {α : Type} {f : α → ℤ} {l a b : List α} (hl : (l.map f).Nodup) (ha : a.Sublist l)
    (hb : b.Sublist l) (h : a.map f = b.map f) : a = b := by
  have hinj : ∀ x ∈ l, ∀ y ∈ l, f x = f y → x = y := List.inj_on_of_nodup_map hl
  clear hl
  induction a generalizing b with
  | nil => cases b <;> simp_all
  | cons x a ih =>
    cases b with
    | nil => simp at h
    | cons y b =>
      simp only [List.map_cons, List.cons.injEq] at h
      rw [hinj x (ha.subset (by simp)) y (hb.subset (by simp)) h.1,
        ih ((List.sublist_cons_self _ _).trans ha) ((List.sublist_cons_self _ _).trans hb) h.2]

theorem SameGrid.mapsTo {w : ProcWorld A σ S P} {t t' : Tile A S P} (h : SameGrid t t') {e : Entry P} {lk : Lookups}
    {n m : Nat} (hm : MapsTo w t' e lk n m) : MapsTo w t e lk n m := by
  obtain ⟨con, a1, a2, a3, a4⟩ := hm
  rw [h.wcs, h.psf] at a1
  rw [h.fwd, h.inv, h.celestial, h.offset, h.shape, h.seDelta, h.coaddDelta] at a4
  exact ⟨con, a1, a2, a3, a4⟩

/-- C122: two slices that cover the same position of the coadd have the same pixels there, if they use the same SE
images with the same weights and these have no defects near it.  The slices can have different numbers, sizes and
seeds, and belong to tiles with other objects and other configurations, as long as the WCSs and the SE images are
the same. -/
theorem C122_overlap (w : ProcWorld A σ S P) (t t' : Tile A S P) (hg : SameGrid t t')
    (hid : (t.entries.map (·.imageId)).Nodup)
    (box psfBox box' psfBox' : Nat) (hv : SoundEnv (freshEnv w t) box psfBox)
    (hv' : SoundEnv (freshEnv w t') box' psfBox')
    (hro : t.cfg.rejectOutliers = false ∧ t'.cfg.rejectOutliers = false)
    (hsym : t.cfg.symmetrize = .off ∧ t'.cfg.symmetrize = .off) (hz : ∀ e ∈ t.entries, w.zpScale e.magzp ≠ 0)
    (i seed i' seed' : Nat) (r r' : SliceRes Flt EpochRow)
    (h : coaddSingleSlice (freshEnv w t) i seed = .ok r) (h' : coaddSingleSlice (freshEnv w t') i' seed' = .ok r')
    (hused : (usedRows r').map (·.imageId) = (usedRows r).map (·.imageId))
    (hw : (usedRows r').map EpochRow.weight = (usedRows r).map EpochRow.weight)
    (row row' : ObjRow) (hrow : t.objects[i]? = some row) (hrow' : t'.objects[i']? = some row')
    (y x y' x' : Nat) (hy : y < box) (hx : x < box) (hy' : y' < box') (hx' : x' < box') (u v : ℚ)
    (hu : u = x + row.origStartCol) (hvv : v = y + row.origStartRow)
    (hu' : u = x' + row'.origStartCol) (hvv' : v = y' + row'.origStartRow)
    (hund : ∀ e ∈ t.entries,
      (∀ er ∈ usedRows r, er.imageId = e.imageId →
        Undefected w t (t.cfg.splineFlags ||| t.cfg.noiseFlags) u v e er) ∧
      ∀ er ∈ usedRows r', er.imageId = e.imageId →
        Undefected w t' (t'.cfg.splineFlags ||| t'.cfg.noiseFlags) u v e er) :
    (r.pix = none ∧ r'.pix = none) ∨ ∃ p p', r.pix = some p ∧ r'.pix = some p' ∧
      (∃ z, p.image[y * box + x]? = some z ∧ p'.image[y' * box' + x']? = some z) ∧
      ∀ k, k < t.nExtra + 1 → k < t'.nExtra + 1 → ∃ l l' z, p.noises[k]? = some l ∧ p'.noises[k]? = some l' ∧
        l[y * box + x]? = some z ∧ l'[y' * box' + x']? = some z := by
  obtain ⟨ro, es, a1, a2, a3, a4, a5⟩ := C122_sky w t box psfBox hv hro.1 hsym.1 hz sincVal sincPade_eq i seed r h
  obtain ⟨ro', es', b1, b2, b3, b4, b5⟩ := C122_sky w t' box' psfBox' hv' hro.2 hsym.2
    (by rw [hg.entries]; exact hz) sincVal sincPade_eq i' seed' r' h'
  cases a1.symm.trans hrow
  cases b1.symm.trans hrow'
  rw [hg.entries] at b2
  have ids : ∀ {es : List (Entry P)} {rs : List EpochRow},
      List.Forall₂ (fun (e : Entry P) er => er.imageId = e.imageId) es rs →
        es.map (·.imageId) = rs.map (·.imageId) := by
    intro es rs h
    induction h with
    | nil => rfl
    | cons h1 _ ih => rw [List.map_cons, List.map_cons, h1, ih]
  have hes : es' = es := nodup_sublist_eq hid b2 a2 (by rw [ids b3, ids a3, hused])
  subst hes
  by_cases hn : es' = []
  · exact .inl ⟨a4 hn, b4 hn⟩
  · obtain ⟨_, _, p, p1, p2⟩ := a5 hn
    obtain ⟨_, _, p', q1, q2⟩ := b5 hn
    have U : List.Forall₂ (Undefected w t (t.cfg.splineFlags ||| t.cfg.noiseFlags) u v) es' (usedRows r) := by
      rw [List.forall₂_iff_get] at a3 ⊢
      exact ⟨a3.1, fun k k1 k2 => (hund _ (a2.subset (List.getElem_mem k1))).1 _ (List.getElem_mem k2) (a3.2 k k1 k2)⟩
    have U' : List.Forall₂ (Undefected w t' (t'.cfg.splineFlags ||| t'.cfg.noiseFlags) u v) es' (usedRows r') := by
      rw [List.forall₂_iff_get] at b3 ⊢
      exact ⟨b3.1, fun k k1 k2 => (hund _ (a2.subset (List.getElem_mem k1))).2 _ (List.getElem_mem k2) (b3.2 k k1 k2)⟩
    obtain ⟨⟨fs, f1, f2⟩, N⟩ := p2 y hy x hx u v hu hvv U
    obtain ⟨⟨fs', f1', f2'⟩, N'⟩ := q2 y' hy' x' hx' u v hu' hvv' U'
    refine .inr ⟨p, p', p1, q1, ⟨_, f2, ?_⟩, fun k k1 k2 => ?_⟩
    · have : fs' = fs := by
        refine forall₂_eq f1' (f1.imp fun e f hf => ?_) fun _ _ _ => skyFlux_unique
        obtain ⟨lk, n, m, im, bkg, x, y, c1, c2⟩ := hf
        exact ⟨lk, n, m, im, bkg, x, y, SameGrid.mapsTo ⟨hg.entries.symm, hg.wcs.symm, hg.psf.symm, hg.fwd.symm,
          hg.inv.symm, hg.celestial.symm, hg.offset.symm, hg.shape.symm, hg.seDelta.symm, hg.coaddDelta.symm⟩ c1, c2⟩
      rw [f2', hw, this]
    · obtain ⟨gs, l, g1, g2, g3⟩ := N k k1
      obtain ⟨gs', l', g1', g2', g3'⟩ := N' k k2
      refine ⟨l, l', _, g2, g2', g3, ?_⟩
      have : gs' = gs := by
        refine forall₂_eq g1' (g1.imp fun e f hf => ?_) fun _ _ _ => skyNoise_unique
        obtain ⟨lk, n, m, s, a, x, y, c1, c2⟩ := hf
        exact ⟨lk, n, m, s, a, x, y, SameGrid.mapsTo ⟨hg.entries.symm, hg.wcs.symm, hg.psf.symm, hg.fwd.symm,
          hg.inv.symm, hg.celestial.symm, hg.offset.symm, hg.shape.symm, hg.seDelta.symm, hg.coaddDelta.symm⟩ c1, c2⟩
      rw [g3', hw, this]

/-- C122: where only one image is used, its weight is 1 in every slice. -/
theorem C122_single (w : ProcWorld A σ S P) (t : Tile A S P) (box psfBox : Nat)
    (hv : SoundEnv (freshEnv w t) box psfBox) (i seed : Nat) (r : SliceRes Flt EpochRow)
    (h : coaddSingleSlice (freshEnv w t) i seed = .ok r) (er : EpochRow) (hu : usedRows r = [er]) : er.weight = 1 := by
  obtain ⟨_, row, lay, gaia, cfg, inp, h1, h2, h3, h4, h5, h6, h7, h8, h9⟩ := C93_slice _ box psfBox hv i seed r h
  have hx := hv.sane (List.mem_of_getElem? h1) gaia row.ra row.dec lay.raPsf lay.decPsf
  rw [← h4.eq] at hx
  obtain ⟨u1, u2⟩ := used_rows hx hv.fwhm h5 h7
  have hu1 := hu
  unfold usedRows at hu1
  rw [hu1] at u1 u2
  have hne : inp.slices ≠ [] := by
    intro hn
    rw [hn] at u1
    cases u1
  have := (h9 hne).2.1
  rw [h6, ← u2] at this
  simpa using this

end Pizza
