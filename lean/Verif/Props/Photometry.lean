import Verif.Spec.Photometry
import Verif.Props.PsfMoments
import Verif.Props.OneSky
import Verif.Props.WcsGrid

/-!
C151: sources keep their fluxes and positions.
-/

namespace Pizza

variable {A σ S P : Type}

/-- What an epoch with a source contributes to the pixels of the slice: the stamp as the pixels see it. -/
theorem source_value {x : Ext A σ} {c : BuildCfg A} {srcs : List Src} {rng : σ}
    {out : Inputs} (hx : Sane x c srcs) (h : buildSliceInputs x c srcs rng = .ok out) {e : Epoch} (he : e ∈ out.slices)
    (sinc : ℚ → ℚ) (hs : ∀ t, sincPade t = .ok (sinc t)) {row : ObjRow} {box : Nat} {d : EpochData}
    (hd : Contributes sinc c row box e d) {stamp : Img ℚ} {sx sy : ℤ} {a b : ℚ}
    (hsrc : ShowsSource c row box e stamp sx sy a b) :
    ∃ w, Displaced row.origStartCol row.origStartRow box w stamp sx sy a b ∧ ∀ r < box, ∀ cc < box,
      SeenPsf sinc w stamp sx sy (cc + row.origStartCol) (r + row.origStartRow) (d.image.px r cc) := by
  obtain ⟨w, im, bkg, a1, a2, a3, a4, a5⟩ := hsrc
  refine ⟨w, a4, fun r hr cc hc => ⟨fun hn => ?_, fun X Y hXY => ?_⟩⟩
  · rw [a4.toSe r hr cc hc] at hn
    cases hn
  have hXY' := hXY
  rw [a4.toSe r hr cc hc] at hXY'
  simp only [Option.some.injEq, Prod.mk.injEq] at hXY'
  obtain ⟨e1, e2⟩ := hXY'
  have hr' : (r : ℚ) + 1 ≤ box := by exact_mod_cast hr
  have hc' : (cc : ℚ) + 1 ≤ box := by exact_mod_cast hc
  have hr0 : (0 : ℚ) ≤ r := Nat.cast_nonneg r
  have hc0 : (0 : ℚ) ≤ cc := Nat.cast_nonneg cc
  have a6 : ∀ i j : ℤ, Y - 3 < i → i ≤ Y + 3 → X - 3 < j → j ≤ X + 3 →
      GoodPixel c e i j ∧ calibrated e.src im bkg i.toNat j.toNat = 1 * stampValue stamp sx sy i j := by
    intro i j h1 h2 h3 h4
    rw [one_mul]
    exact a5 i j (by linarith) (by linarith) (by linarith) (by linarith)
  obtain ⟨y0, x0, im', bkg', ns, q, f1, f2, f3, f4, f5, f6, f7, f8, f9, f10, f11, f12⟩ := used_window hx h he
  have hv := clean_value hr hc hd (f := fluxAt sinc e.src w X Y (cc + row.origStartCol) (r + row.origStartRow)
    (calibrated e.src im bkg)) ⟨w, im, bkg, X, Y, a1, a2, a3, hXY, fun i j h1 h2 h3 h4 => (a6 i j h1 h2 h3 h4).1, rfl⟩
  obtain ⟨w', b, im'', ns', g1, g2, g3, g4, g5, g6, g7, g8⟩ := used_good hx h he f9
  have hin : ∀ i j : ℤ, Y - 3 < i → i ≤ Y + 3 → X - 3 < j → j ≤ X + 3 →
      (0 ≤ i ∧ i < e.src.nrow) ∧ 0 ≤ j ∧ j < e.src.ncol := by
    intro i j h1 h2 h3 h4
    obtain ⟨x1, y1, w1, b1, k1, k2, k3, k4, i', j', k5, k6, k7, k8, -⟩ := (a6 i j h1 h2 h3 h4).1
    cases f2.symm.trans k1
    cases f1.symm.trans k2
    cases g1.symm.trans k3
    rw [g5.1] at k7
    rw [g5.2] at k8
    omega
  rw [hv, flux_star sinc hs e.src w stamp sx sy X Y _ _ 1 _ hin fun i j h1 h2 h3 h4 => (a6 i j h1 h2 h3 h4).2, one_mul]

/-- The moment of what the pixels see of a source. -/
theorem source_moment (sinc : ℚ → ℚ) (hs : ∀ t, sincPade t = .ok (sinc t)) {m : Moment} {x0 y0 : ℚ} {n : Nat} {w : Lookups}
    {stamp : Img ℚ} {sx sy : ℤ} {a b : ℚ} (hd : Displaced x0 y0 n w stamp sx sy a b) {q : Nat → Nat → ℚ}
    (hq : ∀ r < n, ∀ c < n, SeenPsf sinc w stamp sx sy (c + x0) (r + y0) (q r c)) {M B : ℚ}
    (hM : M = imageMoment m (sx - a) (sy - b) stamp.nrow stamp.ncol stamp.px)
    (hB : (∑ i ∈ Finset.range stamp.nrow, ∑ j ∈ Finset.range stamp.ncol, |stamp.px i j| *
      (0.0115 * |m.at (j + (sx - a)) (i + (sy - b))| + 0.022 * m.slope (j + (sx - a)) (i + (sy - b)) +
        0.0005 * (|m.kxx| + |m.kxy| + |m.kyy|))) ≤ B) :
    |imageMoment m x0 y0 n n q - M| ≤ B := by
  have := C150_seen sinc hs m _ _ n w stamp sx sy a b hd q hq
  rw [← hM] at this
  refine this.trans (le_trans (Finset.sum_le_sum fun i _ => Finset.sum_le_sum fun j _ => ?_) hB)
  refine mul_le_mul_of_nonneg_left ?_ (abs_nonneg _)
  have s2 := abs_nonneg m.kxx
  have s4 := abs_nonneg m.kyy
  linarith

/-- C151: the moments of the image of the slice are the means of those of the sources on the used SE images. -/
theorem C151_coadd (v : SliceEnv A σ S) (box psfBox : Nat) (hv : SoundEnv v box psfBox)
    (sinc : ℚ → ℚ) (hs : ∀ t, sincPade t = .ok (sinc t)) (i seed : Nat)
    (r : SliceRes Flt EpochRow) (h : coaddSingleSlice v i seed = .ok r) :
    ∃ row lay gaia cfg inp, v.objects[i]? = some row ∧
      coaddPsfLayout v.fwd v.inv row.ra row.dec row.psfBoxSize v.offset = .ok lay ∧
      StarMask v row gaia ∧ SliceCfg v row gaia cfg ∧
      buildSliceInputs v.ext cfg (v.sources row.ra row.dec lay.raPsf lay.decPsf)
        (v.seeded seed) = .ok inp ∧
      (inp.slices ≠ [] → ∃ p, ∃ f : Nat → Nat → ℚ, r.pix = some p ∧
        (∀ y < box, ∀ x < box, p.image[y * box + x]? = some (.fin (f y x))) ∧
        r.weights.length = inp.slices.length ∧ r.weights.sum = 1 ∧ ∀ (m : Moment) (Ms Bs : List ℚ),
          Ms.length = inp.slices.length → Bs.length = inp.slices.length →
          (∀ (k : Nat) e M B, inp.slices[k]? = some e → Ms[k]? = some M → Bs[k]? = some B → SourceMoment m (ShowsSource cfg row box e) M B) →
          |imageMoment m row.origStartCol row.origStartRow box box f - (List.zipWith (· * ·) r.weights Ms).sum| ≤
            (List.zipWith (· * ·) r.weights Bs).sum) := by
  obtain ⟨_, row, lay, gaia, cfg, inp, h1, h2, h3, h4, h5, h6, _, _, h8⟩ :=
    C93_slice v box psfBox hv i seed r h
  have hr := List.mem_of_getElem? h1
  have hx := hv.sane hr gaia row.ra row.dec lay.raPsf lay.decPsf
  rw [← h4.eq] at hx
  have hl := (C49_weights v.ext _ _ _ inp hx (fun _ => hv.fwhm) h5).1
  rw [← h6] at hl
  refine ⟨row, lay, gaia, cfg, inp, h1, h2, h3, h4, h5, fun hne => ?_⟩
  obtain ⟨hw, w2, p, ds, p1, p2, p3⟩ := h8 hne
  have hb : row.boxSize.toNat = box := by rw [(hv.rows row hr).1, Int.toNat_natCast]
  have hlen : inp.slices.length = ds.length := p2.length_eq
  refine ⟨p, fun y x => (List.zipWith (· * ·) r.weights (ds.map fun d => d.image.px y x)).sum, p1, ?_, hl, w2, ?_⟩
  · intro y hy x hx'
    obtain ⟨z, z1, z2⟩ := p3.image.2 y hy x hx'
    rw [z1, z2, mean_map _ (by rw [hl, hlen]) w2]
  · intro m Ms Bs hMs hBs hm
    have hMd : Ms.length = ds.length := by rw [hMs, hlen]
    have hBd : Bs.length = ds.length := by rw [hBs, hlen]
    have key : ∀ k (hk : k < ds.length), |imageMoment m row.origStartCol row.origStartRow box box
        (fun y x => ds[k].image.px y x) - Ms[k]'(hMd ▸ hk)| ≤ Bs[k]'(hBd ▸ hk) := by
      intro k hk
      have hk1 : k < inp.slices.length := by omega
      have hd := contributes hx h5 (List.getElem_mem hk1) sinc hs ((List.forall₂_iff_get.1 p2).2 k hk1 hk)
      rw [hb] at hd
      obtain ⟨stamp, sx, sy, a, b, g1, g2, g3⟩ := hm k inp.slices[k] (Ms[k]'(by omega)) (Bs[k]'(by omega))
        (List.getElem?_eq_getElem hk1) (List.getElem?_eq_getElem _) (List.getElem?_eq_getElem _)
      obtain ⟨w, k1, k2⟩ := source_value hx h5 (List.getElem_mem hk1) sinc hs hd g1
      exact source_moment sinc hs k1 k2 g2 g3
    have := weighted_moments m row.origStartCol row.origStartRow box (ds.map fun d y x => d.image.px y x) r.weights Ms Bs hw
      (by rw [List.length_map, hl, hlen]) (by rw [List.length_map, hMd]) (by rw [List.length_map, hBd])
      (fun k hk => by
        simp only [List.getElem_map]
        exact key k (by simpa using hk))
    simpa only [List.map_map, Function.comp_def] using this

/-- The flux and the position of a source, from the moments. -/
theorem source_along {E : Type} {x0 y0 : ℚ} {box : Nat} {f : Nat → Nat → ℚ} {ws : List ℚ} {es : List E}
    {shows : E → Img ℚ → ℤ → ℤ → ℚ → ℚ → Prop} (hl : ws.length = es.length) (hw : ws.sum = 1)
    (h : ∀ (m : Moment) (Ms Bs : List ℚ), Ms.length = es.length → Bs.length = es.length →
      (∀ (k : Nat) e M B, es[k]? = some e → Ms[k]? = some M → Bs[k]? = some B → SourceMoment m (shows e) M B) →
      |imageMoment m x0 y0 box box f - (List.zipWith (· * ·) ws Ms).sum| ≤ (List.zipWith (· * ·) ws Bs).sum)
    {α β ξ F D : ℚ} (hal : ∀ e ∈ es, SourceAlong (shows e) α β ξ F D) :
    |(∑ y ∈ Finset.range box, ∑ x ∈ Finset.range box, f y x) - F| ≤ 0.0115 * F ∧
      |∑ y ∈ Finset.range box, ∑ x ∈ Finset.range box, f y x * (α * (x + x0) + β * (y + y0) - ξ)| ≤
        F * (0.0115 * D + 0.022 * (|α| + |β|)) := by
  have mean : ∀ (m : Moment) (M B : ℚ), (∀ e ∈ es, SourceMoment m (shows e) M B) →
      |imageMoment m x0 y0 box box f - M| ≤ B := by
    intro m M B hm
    have := h m (List.replicate es.length M) (List.replicate es.length B) (by simp) (by simp)
      (fun k e M' B' e1 e2 e3 => by
        rw [List.getElem?_replicate] at e2 e3
        split_ifs at e2 e3
        cases e2
        cases e3
        exact hm e (List.mem_of_getElem? e1))
    rw [← hl] at this
    simpa only [sum_zipWith_replicate, hw, one_mul] using this
  refine ⟨?_, ?_⟩
  · have hat : ∀ x y, (⟨1, 0, 0, 0, 0, 0⟩ : Moment).at x y = 1 := fun x y => by simp [Moment.at]
    have hsl : ∀ x y, (⟨1, 0, 0, 0, 0, 0⟩ : Moment).slope x y = 0 := fun x y => by simp [Moment.slope]
    have := mean ⟨1, 0, 0, 0, 0, 0⟩ F (0.0115 * F) fun e he => by
      obtain ⟨stamp, sx, sy, a, b, e1, e2, e3, e4, e5⟩ := hal e he
      refine ⟨stamp, sx, sy, a, b, e1, ?_, le_of_eq ?_⟩
      · unfold imageMoment
        simp only [hat, mul_one]
        exact e3.symm
      · simp only [hat, hsl, abs_one, abs_zero, mul_one, mul_zero, add_zero, ← Finset.sum_mul]
        rw [Finset.sum_congr rfl fun i hi => Finset.sum_congr rfl fun j hj =>
          abs_of_nonneg (e2 i (Finset.mem_range.1 hi) j (Finset.mem_range.1 hj)), e3, mul_comm]
    unfold imageMoment at this
    simpa only [hat, mul_one] using this
  · have hat : ∀ x y, (⟨-ξ, α, β, 0, 0, 0⟩ : Moment).at x y = α * x + β * y - ξ := fun x y => by
      simp only [Moment.at]
      ring
    have hsl : ∀ x y, (⟨-ξ, α, β, 0, 0, 0⟩ : Moment).slope x y = |α| + |β| := fun x y => by simp [Moment.slope]
    have := mean ⟨-ξ, α, β, 0, 0, 0⟩ 0 (F * (0.0115 * D + 0.022 * (|α| + |β|))) fun e he => by
      obtain ⟨stamp, sx, sy, a, b, e1, e2, e3, e4, e5⟩ := hal e he
      refine ⟨stamp, sx, sy, a, b, e1, ?_, ?_⟩
      · unfold imageMoment
        simp only [hat, mul_sub, Finset.sum_sub_distrib, ← Finset.sum_mul, e3, e4, sub_self]
      · simp only [hat, hsl]
        rw [Finset.sum_congr rfl fun i hi => Finset.sum_congr rfl fun j hj => by
          rw [abs_of_nonneg (e2 i (Finset.mem_range.1 hi) j (Finset.mem_range.1 hj))]]
        simp only [abs_zero, add_zero, mul_zero, mul_add (stamp.px _ _), Finset.sum_add_distrib,
          mul_left_comm (stamp.px _ _) (0.0115 : ℚ), ← Finset.mul_sum, ← Finset.sum_mul, e3]
        linarith
    unfold imageMoment at this
    simpa only [hat, sub_zero] using this

/-- C151: if every used SE image shows the source with the same flux and the same centroid, it has this flux on the coadd to 1.15
per cent, and this centroid to 1.15 per cent of its size and 2.2 per cent of a pixel. -/
theorem C151_flux_and_position (v : SliceEnv A σ S) (box psfBox : Nat) (hv : SoundEnv v box psfBox)
    (sinc : ℚ → ℚ) (hs : ∀ t, sincPade t = .ok (sinc t)) (i seed : Nat)
    (r : SliceRes Flt EpochRow) (h : coaddSingleSlice v i seed = .ok r) :
    ∃ row lay gaia cfg inp, v.objects[i]? = some row ∧
      coaddPsfLayout v.fwd v.inv row.ra row.dec row.psfBoxSize v.offset = .ok lay ∧
      StarMask v row gaia ∧ SliceCfg v row gaia cfg ∧
      buildSliceInputs v.ext cfg (v.sources row.ra row.dec lay.raPsf lay.decPsf)
        (v.seeded seed) = .ok inp ∧
      (inp.slices ≠ [] → ∃ p, ∃ f : Nat → Nat → ℚ, r.pix = some p ∧
        (∀ y < box, ∀ x < box, p.image[y * box + x]? = some (.fin (f y x))) ∧
        ∀ α β ξ F D : ℚ, (∀ e ∈ inp.slices, SourceAlong (ShowsSource cfg row box e) α β ξ F D) →
          |(∑ y ∈ Finset.range box, ∑ x ∈ Finset.range box, f y x) - F| ≤ 0.0115 * F ∧
          |∑ y ∈ Finset.range box, ∑ x ∈ Finset.range box,
            f y x * (α * (x + row.origStartCol) + β * (y + row.origStartRow) - ξ)| ≤
              F * (0.0115 * D + 0.022 * (|α| + |β|))) := by
  obtain ⟨row, lay, gaia, cfg, inp, h1, h2, h3, h4, h5, h6⟩ := C151_coadd v box psfBox hv sinc hs i seed r h
  refine ⟨row, lay, gaia, cfg, inp, h1, h2, h3, h4, h5, fun hne => ?_⟩
  obtain ⟨p, f, p1, p2, w1, w2, p3⟩ := h6 hne
  refine ⟨p, f, p1, p2, fun α β ξ F D hal => ?_⟩
  exact source_along w1 w2 p3 hal

/-- What the files of an SE image with a source give for the pixels of the slice. -/
theorem file_seen {w : ProcWorld A σ S P} {t : Tile A S P} (sinc : ℚ → ℚ) (hs : ∀ x, sincPade x = .ok (sinc x)) {row : ObjRow}
    {box : Nat} {e : Entry P} {stamp : Img ℚ} {sx sy : ℤ} {a b : ℚ} (h : FileSource w t row box e stamp sx sy a b) :
    ∃ lk, Displaced row.origStartCol row.origStartRow box lk stamp sx sy a b ∧ ∀ y < box, ∀ x < box, ∀ f,
      SkyFlux sinc w t (x + row.origStartCol) (y + row.origStartRow) e f →
      SeenPsf sinc lk stamp sx sy (x + row.origStartCol) (y + row.origStartRow) f := by
  obtain ⟨lk, nrow, ncol, im, bkg, a1, a2, a3, a4, a5⟩ := h
  refine ⟨lk, a4, fun y hy x hx f hf => ?_⟩
  obtain ⟨lk', nrow', ncol', im', bkg', X, Y, b1, b2, b3, b4, rfl⟩ := hf
  cases a2.symm.trans b2
  cases a3.symm.trans b3
  have hlk : lk = lk' ∧ nrow = nrow' ∧ ncol = ncol' := by
    obtain ⟨d1, q1, rfl, rfl, q4⟩ := a1
    obtain ⟨d2, q1', rfl, rfl, q4'⟩ := b1
    cases q1.symm.trans q1'
    exact ⟨Except.ok.inj (q4.symm.trans q4'), rfl, rfl⟩
  obtain ⟨rfl, rfl, rfl⟩ := hlk
  refine ⟨fun hn => ?_, fun X' Y' hXY => ?_⟩
  · rw [b4] at hn
    cases hn
  rw [b4] at hXY
  simp only [Option.some.injEq, Prod.mk.injEq] at hXY
  obtain ⟨rfl, rfl⟩ := hXY
  rw [a4.toSe y hy x hx] at b4
  simp only [Option.some.injEq, Prod.mk.injEq] at b4
  obtain ⟨e1, e2⟩ := b4
  have hy' : (y : ℚ) + 1 ≤ box := by exact_mod_cast hy
  have hx' : (x : ℚ) + 1 ≤ box := by exact_mod_cast hx
  have hy0 : (0 : ℚ) ≤ y := Nat.cast_nonneg y
  have hx0 : (0 : ℚ) ≤ x := Nat.cast_nonneg x
  have a6 := fun (i j : ℤ) (h1 : Y - 3 < i) (h2 : i ≤ Y + 3) (h3 : X - 3 < j) (h4 : j ≤ X + 3) =>
    a5 i j (by linarith) (by linarith) (by linarith) (by linarith)
  rw [kernel_star sinc hs nrow ncol lk stamp sx sy X Y 1 (fun r c => (im.asNum.px r c - bkg.asNum.px r c) * w.zpScale e.magzp)
    (fun i j h1 h2 h3 h4 => ⟨(a6 i j h1 h2 h3 h4).1, (a6 i j h1 h2 h3 h4).2.1⟩)
    (fun i j h1 h2 h3 h4 => by rw [one_mul]; exact (a6 i j h1 h2 h3 h4).2.2), one_mul]

/-- C151 for the files: if the SE images are free of defects as far as the slice and its kernel reach, the moments of the image of
the slice are the means of those of the sources on the files of the used SE images. -/
theorem C151_files (w : ProcWorld A σ S P) (t : Tile A S P) (box psfBox : Nat)
    (hv : SoundEnv (freshEnv w t) box psfBox) (hro : t.cfg.rejectOutliers = false) (hsym : t.cfg.symmetrize = .off)
    (hz : ∀ e ∈ t.entries, w.zpScale e.magzp ≠ 0) (i seed : Nat) (r : SliceRes Flt EpochRow)
    (h : coaddSingleSlice (freshEnv w t) i seed = .ok r) :
    ∃ row es, t.objects[i]? = some row ∧ es.Sublist t.entries ∧
      List.Forall₂ (fun (e : Entry P) er => er.imageId = e.imageId) es (usedRows r) ∧
      (es ≠ [] → ((usedRows r).map EpochRow.weight).sum = 1 ∧ ∃ p, r.pix = some p ∧
        ((∀ y < box, ∀ x < box, List.Forall₂ (Undefected w t (t.cfg.splineFlags ||| t.cfg.noiseFlags)
            (x + row.origStartCol) (y + row.origStartRow)) es (usedRows r)) →
          ∃ f : Nat → Nat → ℚ, (∀ y < box, ∀ x < box, p.image[y * box + x]? = some (.fin (f y x))) ∧
            (∀ (m : Moment) (Ms Bs : List ℚ), Ms.length = es.length → Bs.length = es.length →
              (∀ (k : Nat) e M B, es[k]? = some e → Ms[k]? = some M → Bs[k]? = some B →
                SourceMoment m (FileSource w t row box e) M B) →
              |imageMoment m row.origStartCol row.origStartRow box box f -
                (List.zipWith (· * ·) ((usedRows r).map EpochRow.weight) Ms).sum| ≤
                (List.zipWith (· * ·) ((usedRows r).map EpochRow.weight) Bs).sum) ∧
            ∀ α β ξ F D : ℚ, (∀ e ∈ es, SourceAlong (FileSource w t row box e) α β ξ F D) →
              |(∑ y ∈ Finset.range box, ∑ x ∈ Finset.range box, f y x) - F| ≤ 0.0115 * F ∧
              |∑ y ∈ Finset.range box, ∑ x ∈ Finset.range box,
                f y x * (α * (x + row.origStartCol) + β * (y + row.origStartRow) - ξ)| ≤
                  F * (0.0115 * D + 0.022 * (|α| + |β|)))) := by
  obtain ⟨row, es, h1, h2, h3, -, h4⟩ := C122_sky w t box psfBox hv hro hsym hz sincVal sincPade_eq i seed r h
  refine ⟨row, es, h1, h2, h3, fun hne => ?_⟩
  obtain ⟨hsum, hpos, p, hp, hpix⟩ := h4 hne
  refine ⟨hsum, p, hp, fun hund => ?_⟩
  have hl : ((usedRows r).map EpochRow.weight).length = es.length := by
    rw [List.length_map, h3.length_eq]
  have hex : ∀ y x, ∃ fs : List ℚ, y < box → x < box →
      List.Forall₂ (SkyFlux sincVal w t (x + row.origStartCol) (y + row.origStartRow)) es fs ∧
        p.image[y * box + x]? = some (.fin (List.zipWith (· * ·) ((usedRows r).map EpochRow.weight) fs).sum) := by
    intro y x
    by_cases hy : y < box
    · by_cases hx : x < box
      · obtain ⟨fs, hfs⟩ := (hpix y hy x hx _ _ rfl rfl (hund y hy x hx)).1
        exact ⟨fs, fun _ _ => hfs⟩
      · exact ⟨[], fun _ h => absurd h hx⟩
    · exact ⟨[], fun h _ => absurd h hy⟩
  choose fs hfs using hex
  refine ⟨fun y x => (List.zipWith (· * ·) ((usedRows r).map EpochRow.weight) (fs y x)).sum,
    fun y hy x hx => (hfs y x hy hx).2, ?_⟩
  have mom : ∀ (m : Moment) (Ms Bs : List ℚ), Ms.length = es.length → Bs.length = es.length →
      (∀ (k : Nat) e M B, es[k]? = some e → Ms[k]? = some M → Bs[k]? = some B →
        SourceMoment m (FileSource w t row box e) M B) →
      |imageMoment m row.origStartCol row.origStartRow box box
          (fun y x => (List.zipWith (· * ·) ((usedRows r).map EpochRow.weight) (fs y x)).sum) -
        (List.zipWith (· * ·) ((usedRows r).map EpochRow.weight) Ms).sum| ≤
        (List.zipWith (· * ·) ((usedRows r).map EpochRow.weight) Bs).sum := by
    intro m Ms Bs hMs hBs hm
    have := weighted_moments m row.origStartCol row.origStartRow box
      ((List.range es.length).map fun k y x => (fs y x).getD k 0) ((usedRows r).map EpochRow.weight) Ms Bs
      (fun q hq => by
        obtain ⟨er, he, rfl⟩ := List.mem_map.1 hq
        exact hpos er he)
      (by rw [hl, List.length_map, List.length_range]) (by simp [hMs]) (by simp [hBs])
      (fun k hk => by
        have hk' : k < es.length := by simpa using hk
        obtain ⟨stamp, sx, sy, a, b, g1, g2, g3⟩ := hm k es[k] (Ms[k]'(by omega)) (Bs[k]'(by omega))
          (List.getElem?_eq_getElem hk') (List.getElem?_eq_getElem _) (List.getElem?_eq_getElem _)
        obtain ⟨lk, k1, k2⟩ := file_seen sincVal sincPade_eq g1
        simp only [List.getElem_map, List.getElem_range]
        refine source_moment sincVal sincPade_eq k1 (fun y hy x hx => k2 y hy x hx _ ?_) g2 g3
        obtain ⟨l1, l2⟩ := List.forall₂_iff_get.1 (hfs y x hy hx).1
        have := l2 k hk' (by omega)
        simp only [List.get_eq_getElem] at this
        rw [List.getD_eq_getElem?_getD, List.getElem?_eq_getElem (by omega), Option.getD_some]
        exact this)
    have e : imageMoment m row.origStartCol row.origStartRow box box
          (fun y x => (List.zipWith (· * ·) ((usedRows r).map EpochRow.weight) (fs y x)).sum) =
        imageMoment m row.origStartCol row.origStartRow box box (fun y x => (List.zipWith (· * ·)
          ((usedRows r).map EpochRow.weight) (((List.range es.length).map fun k y x => (fs y x).getD k 0).map
            fun q => q y x)).sum) := by
      unfold imageMoment
      refine Finset.sum_congr rfl fun y hy => Finset.sum_congr rfl fun x hx => ?_
      have hlen := (hfs y x (Finset.mem_range.1 hy) (Finset.mem_range.1 hx)).1.length_eq
      have : ((List.range es.length).map fun k y x => (fs y x).getD k 0).map (fun q : Nat → Nat → ℚ => q y x) = fs y x := by
        apply List.ext_getElem
        · simp [hlen]
        · intro n n1 n2
          simp [n2]
      beta_reduce
      rw [this]
    rw [e]
    exact this
  exact ⟨mom, fun α β ξ F D hal => source_along hl hsum mom hal⟩

/-- C151: affine WCSs with the same matrix, and a slice whose pixels are all on the SE image, give displaced pixels. -/
theorem C151_displaced (fit : Fit) (spl : Spline) (hf : FitSpec fit) (hs : SplineSpec spl)
    (a b c d x0 y0 x0' y0' : ℚ) (A B : AffineWCS)
    (hA : AffineWCS.mk' a b c d x0 y0 = .ok A) (hB : AffineWCS.mk' a b c d x0' y0' = .ok B)
    (so co : ℚ) (seRow seCol coRow coCol : Nat) (cosd : ℚ → ℚ) (seDelta coDelta : Nat)
    (hsd : 0 < seDelta) (hcd : 0 < coDelta) (h1 : 2 * seDelta < seRow) (h2 : 2 * seDelta < seCol)
    (h3 : 2 * coDelta < coRow) (h4 : 2 * coDelta < coCol) :
    ∃ L, buildLookups fit spl (affineWcs A B so co seRow seCol coRow coCol cosd) seDelta coDelta = .ok L ∧
      ∀ (dx dy col row : ℚ) (n : Nat), dx = (x0 - so) - (x0' - co) → dy = (y0 - so) - (y0' - co) →
        -(1/2) ≤ col + dx → col + dx + n ≤ seCol + 1/2 → -(1/2) ≤ row + dy → row + dy + n ≤ seRow + 1/2 →
        ∀ (stamp : Img ℚ) (sx sy : ℤ), col + dx + 2 ≤ sx → (sx : ℚ) + stamp.ncol + 2 < col + dx + n →
          row + dy + 2 ≤ sy → (sy : ℚ) + stamp.nrow + 2 < row + dy + n →
          Displaced col row n L stamp sx sy dx dy := by
  obtain ⟨L, l1, l2, l3, l4⟩ := C100_lookups fit spl hf hs a b c d x0 y0 a b c d x0' y0' A B hA hB so co seRow seCol coRow coCol
    cosd seDelta coDelta hsd hcd h1 h2 h3 h4
  refine ⟨L, l1, fun dx dy col row n hdx hdy k1 k2 k3 k4 stamp sx sy m1 m2 m3 m4 => ?_⟩
  have hdA : a * d - c * b ≠ 0 := by
    intro h; simp [AffineWCS.mk', h] at hA
  obtain ⟨rA, -⟩ := C03_affine_roundtrip a b c d x0 y0 A hA
  have eA : A = ⟨a, b, c, d, x0, y0, a * d - c * b⟩ := by
    simpa [AffineWCS.mk', hdA] using hA.symm
  have eB : B = ⟨a, b, c, d, x0', y0', a * d - c * b⟩ := by
    simpa [AffineWCS.mk', hdA] using hB.symm
  have pos : ∀ u v, sePos A B so co u v = (u + dx, v + dy) := by
    intro u v
    subst hdx hdy
    have e : B.image2sky (u + co) (v + co) =
        A.image2sky (u + ((x0 - so) - (x0' - co)) + so) (v + ((y0 - so) - (y0' - co)) + so) := by
      simp only [AffineWCS.image2sky, eA, eB, Prod.mk.injEq]
      constructor <;> ring
    rw [sePos, e, rA]
    simp
  have reach : ∀ dim : Nat, 2 * seDelta < dim → ∃ r, IsReach dim seDelta r := by
    intro dim _
    refine ⟨seDelta * ((dim + seDelta - 1) / seDelta), dvd_mul_right _ _, ?_, ?_⟩
    · have := Nat.div_add_mod (dim + seDelta - 1) seDelta
      have := Nat.mod_lt (dim + seDelta - 1) hsd
      omega
    · have := Nat.mul_div_le (dim + seDelta - 1) seDelta
      omega
  obtain ⟨rx, hrx⟩ := reach seCol h2
  obtain ⟨ry, hry⟩ := reach seRow h1
  have hrx' : (seCol : ℚ) ≤ rx := by exact_mod_cast hrx.2.1
  have hry' : (seRow : ℚ) ≤ ry := by exact_mod_cast hry.2.1
  refine ⟨fun r hr cc hc => ?_, ⟨|a * d - b * c|, ?_, fun _ _ _ _ => l2 _ _, fun _ _ _ _ => l3 _ _⟩, m1, m2, m3, m4⟩
  · have hr' : (r : ℚ) + 1 ≤ n := by exact_mod_cast hr
    have hc' : (cc : ℚ) + 1 ≤ n := by exact_mod_cast hc
    have hr0 : (0 : ℚ) ≤ r := Nat.cast_nonneg r
    have hc0 : (0 : ℚ) ≤ cc := Nat.cast_nonneg cc
    rw [l4 rx ry hrx hry _ _ _ _ (pos _ _), if_pos ⟨by linarith, by linarith, by linarith, by linarith⟩]
  · rw [abs_ne_zero]
    intro h
    exact hdA (by linarith)

end Pizza
