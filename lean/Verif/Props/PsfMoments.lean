import Verif.Spec.PsfMoments
import Verif.Props.PointSource
import Verif.Props.SmoothSky

/-!
C150: resampling neither moves nor broadens the PSF.
-/

namespace Pizza

variable {A σ S : Type}

/-- C150: the moments of a stamp as the pixels of the coadd see it. -/
theorem C150_seen (sinc : ℚ → ℚ) (hs : ∀ t, sincPade t = .ok (sinc t)) (m : Moment) (x0 y0 : ℚ) (n : Nat) (w : Lookups)
    (psf : Img ℚ) (sx sy : ℤ) (a b : ℚ) (hd : Displaced x0 y0 n w psf sx sy a b) (q : Nat → Nat → ℚ)
    (hq : ∀ r < n, ∀ c < n, SeenPsf sinc w psf sx sy (c + x0) (r + y0) (q r c)) :
    |imageMoment m x0 y0 n n q - imageMoment m (sx - a) (sy - b) psf.nrow psf.ncol psf.px| ≤
      ∑ i ∈ Finset.range psf.nrow, ∑ j ∈ Finset.range psf.ncol, |psf.px i j| *
        (0.0115 * |m.at (j + (sx - a)) (i + (sy - b))| + 0.022 * m.slope (j + (sx - a)) (i + (sy - b)) +
          0.0001 * (|m.kxx| + |m.kyy|) + 0.0005 * |m.kxy|) := by
  have hsum : imageMoment m x0 y0 n n q =
      ∑ i ∈ Finset.range psf.nrow, ∑ j ∈ Finset.range psf.ncol, psf.px i j *
        kernelSum sinc n n ((j : ℚ) - (x0 + a - sx)) ((i : ℚ) - (y0 + b - sy))
          fun r c => m.at (c + x0) (r + y0) := by
    unfold imageMoment
    simp only [kernelSum_eq sinc hs, Finset.mul_sum]
    rw [Finset.sum_congr rfl fun r hr => Finset.sum_congr rfl fun c hc => by
      rw [seen_displaced sinc hs hd (Finset.mem_range.1 hr) (Finset.mem_range.1 hc)
        (hq r (Finset.mem_range.1 hr) c (Finset.mem_range.1 hc))]]
    simp only [Finset.sum_mul]
    have swap : ∀ g : Nat → Nat → Nat → Nat → ℚ,
        ∑ r ∈ Finset.range n, ∑ c ∈ Finset.range n, ∑ i ∈ Finset.range psf.nrow, ∑ j ∈ Finset.range psf.ncol, g r c i j =
        ∑ i ∈ Finset.range psf.nrow, ∑ j ∈ Finset.range psf.ncol, ∑ r ∈ Finset.range n, ∑ c ∈ Finset.range n, g r c i j := by
      intro g
      rw [Finset.sum_congr rfl fun r _ => Finset.sum_comm, Finset.sum_comm]
      refine Finset.sum_congr rfl fun i _ => ?_
      rw [Finset.sum_congr rfl fun r _ => Finset.sum_comm, Finset.sum_comm]
    rw [swap]
    refine Finset.sum_congr rfl fun i _ => Finset.sum_congr rfl fun j _ => Finset.sum_congr rfl fun r _ =>
      Finset.sum_congr rfl fun c _ => ?_
    ring
  rw [hsum, imageMoment, ← Finset.sum_sub_distrib]
  refine (Finset.abs_sum_le_sum_abs _ _).trans (Finset.sum_le_sum fun i hi => ?_)
  rw [← Finset.sum_sub_distrib]
  refine (Finset.abs_sum_le_sum_abs _ _).trans (Finset.sum_le_sum fun j hj => ?_)
  rw [Finset.mem_range] at hi hj
  have hi' : (i : ℚ) + 1 ≤ psf.nrow := by exact_mod_cast hi
  have hj' : (j : ℚ) + 1 ≤ psf.ncol := by exact_mod_cast hj
  have hi0 : (0 : ℚ) ≤ i := Nat.cast_nonneg i
  have hj0 : (0 : ℚ) ≤ j := Nat.cast_nonneg j
  obtain ⟨-, -, g1, g2, g3, g4⟩ := hd
  have k := kernelSum_quadratic sinc hs n n ((j : ℚ) - (x0 + a - sx)) ((i : ℚ) - (y0 + b - sy))
    (m.at (j + (sx - a)) (i + (sy - b)))
    (m.ky + 2 * m.kyy * (i + (sy - b)) + m.kxy * (j + (sx - a)))
    (m.kx + 2 * m.kxx * (j + (sx - a)) + m.kxy * (i + (sy - b))) m.kyy m.kxy m.kxx 0
    (fun r c => m.at (c + x0) (r + y0)) (by linarith) (by linarith) (by linarith) (by linarith)
    (fun r c _ _ => by
      refine le_of_eq (abs_eq_zero.2 ?_)
      unfold Moment.at
      ring)
  rw [← mul_sub, abs_mul]
  refine mul_le_mul_of_nonneg_left ?_ (abs_nonneg _)
  refine k.trans (le_of_eq ?_)
  unfold Moment.slope
  ring

theorem imageMoment_sub_const (m : Moment) (M x0 y0 : ℚ) (nrow ncol : Nat) (f : Nat → Nat → ℚ) :
    imageMoment { m with k0 := m.k0 - M } x0 y0 nrow ncol f = imageMoment m x0 y0 nrow ncol f -
      M * ∑ i ∈ Finset.range nrow, ∑ j ∈ Finset.range ncol, f i j := by
  unfold imageMoment Moment.at
  simp only [Finset.mul_sum, ← Finset.sum_sub_distrib]
  exact Finset.sum_congr rfl fun i _ => Finset.sum_congr rfl fun j _ => by ring

theorem imageMoment_congr {m : Moment} {x0 y0 : ℚ} {nrow ncol : Nat} {f g : Nat → Nat → ℚ}
    (h : ∀ r < nrow, ∀ c < ncol, f r c = g r c) : imageMoment m x0 y0 nrow ncol f = imageMoment m x0 y0 nrow ncol g := by
  unfold imageMoment
  exact Finset.sum_congr rfl fun r hr => Finset.sum_congr rfl fun c hc => by
    rw [h r (Finset.mem_range.1 hr) c (Finset.mem_range.1 hc)]

theorem imageMoment_mul (m : Moment) (x0 y0 t : ℚ) (nrow ncol : Nat) (f : Nat → Nat → ℚ) :
    imageMoment m x0 y0 nrow ncol (fun r c => f r c * t) = imageMoment m x0 y0 nrow ncol f * t := by
  unfold imageMoment
  simp only [Finset.sum_mul]
  exact Finset.sum_congr rfl fun r _ => Finset.sum_congr rfl fun c _ => by ring

theorem StampFlux.displaced {sinc : ℚ → ℚ} (hs : ∀ t, sincPade t = .ok (sinc t)) {lay : PsfLayout} {psfBox : Nat} {e : Epoch}
    {t : ℚ} (h : StampFlux sinc lay psfBox e t) {w : Lookups} (hw : e.src.lookups = .ok w) {psf : Img ℚ} {sx sy : ℤ}
    (hst : StampOf e.src psf sx sy) {a b : ℚ} (hd : Displaced lay.startCol lay.startRow psfBox w psf sx sy a b)
    (h0 : ∀ i < psf.nrow, ∀ j < psf.ncol, 0 ≤ psf.px i j)
    (h1 : (∑ i ∈ Finset.range psf.nrow, ∑ j ∈ Finset.range psf.ncol, psf.px i j) = 1) : |t - 1| ≤ 0.0115 := by
  have := C149_flux sinc hs lay psfBox e t h w hw psf sx sy hst a b hd
  rw [h1, Finset.sum_congr rfl fun i hi => Finset.sum_congr rfl fun j hj =>
    abs_of_nonneg (h0 i (Finset.mem_range.1 hi) j (Finset.mem_range.1 hj)), h1, mul_one] at this
  exact this

/-- C150: the moments of the normalised PSF of an epoch. -/
theorem epoch_moment (sinc : ℚ → ℚ) (hs : ∀ t, sincPade t = .ok (sinc t)) (m : Moment) (lay : PsfLayout) (psfBox : Nat)
    (e : Epoch) (M B : ℚ) (he : EpochMoment m lay psfBox e M B) (t : ℚ) (ht : StampFlux sinc lay psfBox e t)
    (f : Nat → Nat → ℚ) (hf1 : (∑ r ∈ Finset.range psfBox, ∑ c ∈ Finset.range psfBox, f r c) = 1)
    (hf : ∀ r < psfBox, ∀ c < psfBox, ∀ w psf sx sy q, e.src.lookups = .ok w → StampOf e.src psf sx sy →
        SeenPsf sinc w psf sx sy (c + lay.startCol) (r + lay.startRow) q → f r c * t = q) :
    |imageMoment m lay.startCol lay.startRow psfBox psfBox f - M| ≤ B := by
  obtain ⟨w, psf, sx, sy, a, b, e1, e2, hd, h0, h1, hM, hB⟩ := he
  have htb := ht.displaced hs e1 e2 hd h0 h1
  obtain ⟨w', psf', sx', sy', q, a1, a2, a3, -⟩ := ht
  cases e1.symm.trans a1
  obtain ⟨rfl, rfl, rfl⟩ := e2.unique a2
  have k := C150_seen sinc hs { m with k0 := m.k0 - M } lay.startCol lay.startRow psfBox w psf sx sy a b hd q a3
  have hqf : ∀ r < psfBox, ∀ c < psfBox, q r c = f r c * t := fun r hr c hc =>
    (hf r hr c hc w psf sx sy _ e1 e2 (a3 r hr c hc)).symm
  rw [imageMoment_congr hqf, imageMoment_mul, imageMoment_sub_const, imageMoment_sub_const, hf1, h1, ← hM, mul_one, sub_self,
    sub_zero, abs_mul] at k
  have ht0 : 0.9885 ≤ |t| := by
    rw [abs_le] at htb
    rw [abs_of_nonneg (by linarith)]
    linarith
  have hB' : 0.9885 * B ≥ ∑ i ∈ Finset.range psf.nrow, ∑ j ∈ Finset.range psf.ncol, |psf.px i j| *
      (0.0115 * |({ m with k0 := m.k0 - M } : Moment).at (j + (sx - a)) (i + (sy - b))| +
        0.022 * ({ m with k0 := m.k0 - M } : Moment).slope (j + (sx - a)) (i + (sy - b)) +
          0.0001 * (|m.kxx| + |m.kyy|) + 0.0005 * |m.kxy|) := by
    refine ge_iff_le.2 (le_trans ?_ (mul_le_mul_of_nonneg_left hB (by norm_num : (0 : ℚ) ≤ 0.9885)))
    rw [Finset.mul_sum]
    refine Finset.sum_le_sum fun i hi => ?_
    rw [Finset.mul_sum]
    refine Finset.sum_le_sum fun j hj => ?_
    have p0 := h0 i (Finset.mem_range.1 hi) j (Finset.mem_range.1 hj)
    rw [abs_of_nonneg p0, mul_left_comm]
    refine mul_le_mul_of_nonneg_left ?_ p0
    have hat : ({ m with k0 := m.k0 - M } : Moment).at (j + (sx - a)) (i + (sy - b)) =
        m.at (j + (sx - a)) (i + (sy - b)) - M := by unfold Moment.at; dsimp only; ring
    have hsl : ({ m with k0 := m.k0 - M } : Moment).slope (j + (sx - a)) (i + (sy - b)) =
        m.slope (j + (sx - a)) (i + (sy - b)) := rfl
    rw [hat, hsl]
    have s0 : 0 ≤ m.slope (j + (sx - a)) (i + (sy - b)) := by unfold Moment.slope; positivity
    have s1 := abs_nonneg (m.at (j + (sx - a)) (i + (sy - b)) - M)
    have s2 := abs_nonneg m.kxx
    have s3 := abs_nonneg m.kxy
    have s4 := abs_nonneg m.kyy
    linarith
  have hD := abs_nonneg (imageMoment m lay.startCol lay.startRow psfBox psfBox f - M)
  nlinarith [k.trans hB']

/-- The moments of a weighted mean of images. -/
theorem weighted_moments (m : Moment) (x0 y0 : ℚ) (n : Nat) (gs : List (Nat → Nat → ℚ)) (ws Ms Bs : List ℚ)
    (hw : ∀ w ∈ ws, 0 < w) (hwd : ws.length = gs.length) (hMd : Ms.length = gs.length) (hBd : Bs.length = gs.length)
    (key : ∀ k (hk : k < gs.length), |imageMoment m x0 y0 n n gs[k] - Ms[k]'(hMd ▸ hk)| ≤ Bs[k]'(hBd ▸ hk)) :
    |imageMoment m x0 y0 n n (fun y x => (List.zipWith (· * ·) ws (gs.map fun g => g y x)).sum) -
      (List.zipWith (· * ·) ws Ms).sum| ≤ (List.zipWith (· * ·) ws Bs).sum := by
  induction gs generalizing ws Ms Bs with
  | nil =>
    have : imageMoment m x0 y0 n n (fun _ _ => (0 : ℚ)) = 0 := by simp [imageMoment]
    have h0 : ws = [] := List.eq_nil_of_length_eq_zero hwd
    subst h0
    simp [this]
  | cons g gs ih =>
    match ws, Ms, Bs, hwd, hMd, hBd with
    | w :: ws, M :: Ms, B :: Bs, hwd, hMd, hBd =>
      have e3 := ih ws Ms Bs (fun a ha => hw a (by simp [ha])) (by simpa using hwd) (by simpa using hMd) (by simpa using hBd)
        (fun k hk => by
          have := key (k + 1) (by simpa using hk)
          simp only [List.getElem_cons_succ] at this
          exact this)
      have e4 := key 0 (by simp)
      simp only [List.getElem_cons_zero] at e4
      have hw0 := hw w (by simp)
      simp only [List.map_cons, List.zipWith_cons_cons, List.sum_cons]
      have e5 : imageMoment m x0 y0 n n (fun y x => w * g y x + (List.zipWith (· * ·) ws (gs.map fun g => g y x)).sum) =
          w * imageMoment m x0 y0 n n g +
          imageMoment m x0 y0 n n (fun y x => (List.zipWith (· * ·) ws (gs.map fun g => g y x)).sum) := by
        unfold imageMoment
        simp only [Finset.mul_sum, ← Finset.sum_add_distrib]
        exact Finset.sum_congr rfl fun r _ => Finset.sum_congr rfl fun c _ => by ring
      rw [e5]
      rw [abs_le] at e3 e4 ⊢
      constructor <;> nlinarith [e3.1, e3.2, e4.1, e4.2]

/-- C150: the moments of the PSF of the coadd are the means of those of the PSFs of the used SE images, with the weights of the
epochs: resampling adds no more to them than 1.17 per cent of the mean deviation, 2.23 per cent of the mean change per pixel and
a thousandth of the curvature. -/
theorem C150_coadd (v : SliceEnv A σ S) (box psfBox : Nat) (hv : SoundEnv v box psfBox)
    (sinc : ℚ → ℚ) (hs : ∀ t, sincPade t = .ok (sinc t)) (i seed : Nat)
    (r : SliceRes Flt EpochRow) (h : coaddSingleSlice v i seed = .ok r) :
    ∃ row lay gaia cfg inp, v.objects[i]? = some row ∧
      coaddPsfLayout v.fwd v.inv row.ra row.dec row.psfBoxSize v.offset = .ok lay ∧
      StarMask v row gaia ∧ SliceCfg v row gaia cfg ∧
      buildSliceInputs v.ext cfg (v.sources row.ra row.dec lay.raPsf lay.decPsf)
        (v.seeded seed) = .ok inp ∧
      (inp.slices ≠ [] → ∃ p, ∃ f : Nat → Nat → ℚ, r.pix = some p ∧
        (∀ y < psfBox, ∀ x < psfBox, p.psf[y * psfBox + x]? = some (.fin (f y x))) ∧
        r.weights.length = inp.slices.length ∧ r.weights.sum = 1 ∧ ∀ (m : Moment) (Ms Bs : List ℚ), Ms.length = inp.slices.length → Bs.length = inp.slices.length →
          (∀ (k : Nat) e M B, inp.slices[k]? = some e → Ms[k]? = some M → Bs[k]? = some B → EpochMoment m lay psfBox e M B) →
          |imageMoment m lay.startCol lay.startRow psfBox psfBox f - (List.zipWith (· * ·) r.weights Ms).sum| ≤
            (List.zipWith (· * ·) r.weights Bs).sum) := by
  obtain ⟨_, row, lay, gaia, cfg, inp, h1, h2, h3, h4, h5, h6, _, _, h8⟩ :=
    C93_slice v box psfBox hv i seed r h
  have hr := List.mem_of_getElem? h1
  have hx := hv.sane hr gaia row.ra row.dec lay.raPsf lay.decPsf
  rw [← h4.eq] at hx
  have hl := (C49_weights v.ext _ _ _ inp hx (fun _ => hv.fwhm) h5).1
  rw [← h6] at hl
  refine ⟨row, lay, gaia, cfg, inp, h1, h2, h3, h4, h5, fun hne => ?_⟩
  obtain ⟨hw, w2, p, ds, p1, p2, p3⟩ := h8 hne
  have hpsf := fun s hs => hv.psf row.ra row.dec lay.raPsf lay.decPsf s hs
  have hlen : inp.slices.length = ds.length := p2.length_eq
  refine ⟨p, fun y x => (List.zipWith (· * ·) r.weights (ds.map fun d => (d.psf.px y x).getD 0)).sum, p1, ?_, hl, w2, ?_⟩
  · intro y hy x hx'
    obtain ⟨z, z1, z2⟩ := p3.psf.2 y hy x hx'
    rw [z1, z2, mean_map _ (by rw [hl, hlen]) w2]
  · intro m Ms Bs hMs hBs hm
    have hMd : Ms.length = ds.length := by rw [hMs, hlen]
    have hBd : Bs.length = ds.length := by rw [hBs, hlen]
    have key : ∀ k (hk : k < ds.length), |imageMoment m lay.startCol lay.startRow psfBox psfBox
        (fun y x => (ds[k].psf.px y x).getD 0) - Ms[k]'(hMd ▸ hk)| ≤ Bs[k]'(hBd ▸ hk) := by
      intro k hk
      have hk1 : k < inp.slices.length := by omega
      have hd := (List.forall₂_iff_get.1 p2).2 k hk1 hk
      obtain ⟨t, t1, t2⟩ := seen_psf hx hpsf h5 (List.getElem_mem hk1) sinc hs hd (hv.rows row hr).2
      have hem := hm k inp.slices[k] (Ms[k]'(by omega)) (Bs[k]'(by omega)) (List.getElem?_eq_getElem hk1)
        (List.getElem?_eq_getElem _) (List.getElem?_eq_getElem _)
      have hem' := hem
      obtain ⟨w, psf, sx, sy, a, b, e1, e2, e3, e4, e5, -⟩ := hem'
      have htb := t1.displaced hs e1 e2 e3 e4 e5
      obtain ⟨n1, n2⟩ := t2 (by
        rintro rfl
        norm_num at htb)
      exact epoch_moment sinc hs m lay psfBox _ _ _ hem t t1 _ n1 n2
    have := weighted_moments m lay.startCol lay.startRow psfBox (ds.map fun d y x => (d.psf.px y x).getD 0) r.weights Ms Bs hw
      (by rw [List.length_map, hl, hlen]) (by rw [List.length_map, hMd]) (by rw [List.length_map, hBd])
      (fun k hk => by
        simp only [List.getElem_map]
        exact key k (by simpa using hk))
    simpa only [List.map_map, Function.comp_def] using this

theorem sum_zipWith_replicate (ws : List ℚ) (c : ℚ) :
    (List.zipWith (· * ·) ws (List.replicate ws.length c)).sum = ws.sum * c := by
  induction ws with
  | nil => simp
  | cons w ws ih => simp only [List.length_cons, List.replicate_succ, List.zipWith_cons_cons, List.sum_cons, ih, add_mul]

/-- The position along a direction, as a moment. -/
def alongMoment (α β : ℚ) : Moment := ⟨0, α, β, 0, 0, 0⟩

/-- The square of the distance from `ξ` along a direction, as a moment. -/
def spreadMoment (α β ξ : ℚ) : Moment := ⟨ξ ^ 2, -2 * ξ * α, -2 * ξ * β, α ^ 2, 2 * α * β, β ^ 2⟩

/-- C150: if in some direction the PSFs of all used SE images have the same centroid and the same size, the PSF of the coadd has
this centroid to 1.17 per cent of the mean deviation from it and 2.23 per cent of a pixel, and this size to 2.34 per cent of it,
4.46 per cent of the mean deviation and a thousandth of the square of a pixel. -/
theorem C150_centroid_and_size (v : SliceEnv A σ S) (box psfBox : Nat) (hv : SoundEnv v box psfBox)
    (sinc : ℚ → ℚ) (hs : ∀ t, sincPade t = .ok (sinc t)) (i seed : Nat)
    (r : SliceRes Flt EpochRow) (h : coaddSingleSlice v i seed = .ok r) :
    ∃ row lay gaia cfg inp, v.objects[i]? = some row ∧
      coaddPsfLayout v.fwd v.inv row.ra row.dec row.psfBoxSize v.offset = .ok lay ∧
      StarMask v row gaia ∧ SliceCfg v row gaia cfg ∧
      buildSliceInputs v.ext cfg (v.sources row.ra row.dec lay.raPsf lay.decPsf)
        (v.seeded seed) = .ok inp ∧
      (inp.slices ≠ [] → ∃ p, ∃ f : Nat → Nat → ℚ, r.pix = some p ∧
        (∀ y < psfBox, ∀ x < psfBox, p.psf[y * psfBox + x]? = some (.fin (f y x))) ∧
        ∀ α β ξ D V : ℚ, (∀ e ∈ inp.slices, PsfAlong lay psfBox α β ξ D V e) →
          |(∑ y ∈ Finset.range psfBox, ∑ x ∈ Finset.range psfBox,
            f y x * (α * (x + lay.startCol) + β * (y + lay.startRow))) - ξ| ≤ 0.0117 * D + 0.0223 * (|α| + |β|) ∧
          |(∑ y ∈ Finset.range psfBox, ∑ x ∈ Finset.range psfBox,
            f y x * (α * (x + lay.startCol) + β * (y + lay.startRow) - ξ) ^ 2) - V| ≤
              0.0234 * V + 0.0446 * D * (|α| + |β|) + 0.001 * (|α| + |β|) ^ 2) := by
  obtain ⟨row, lay, gaia, cfg, inp, h1, h2, h3, h4, h5, h6⟩ := C150_coadd v box psfBox hv sinc hs i seed r h
  refine ⟨row, lay, gaia, cfg, inp, h1, h2, h3, h4, h5, fun hne => ?_⟩
  obtain ⟨p, f, p1, p2, w1, w2, p3⟩ := h6 hne
  refine ⟨p, f, p1, p2, fun α β ξ D V hal => ?_⟩
  have mean : ∀ (m : Moment) (M B : ℚ), (∀ e ∈ inp.slices, EpochMoment m lay psfBox e M B) →
      |imageMoment m lay.startCol lay.startRow psfBox psfBox f - M| ≤ B := by
    intro m M B hm
    have := p3 m (List.replicate inp.slices.length M) (List.replicate inp.slices.length B) (by simp) (by simp)
      (fun k e M' B' e1 e2 e3 => by
        rw [List.getElem?_replicate] at e2 e3
        split_ifs at e2 e3
        cases e2
        cases e3
        exact hm e (List.mem_of_getElem? e1))
    rw [← w1] at this
    simpa only [sum_zipWith_replicate, w2, one_mul] using this
  have hsl1 : ∀ x y, (alongMoment α β).slope x y = |α| + |β| := fun x y => by simp [Moment.slope, alongMoment]
  have hat1 : ∀ x y, (alongMoment α β).at x y = α * x + β * y := fun x y => by simp [Moment.at, alongMoment]
  have hat2 : ∀ x y, (spreadMoment α β ξ).at x y = (α * x + β * y - ξ) ^ 2 := fun x y => by
    simp only [Moment.at, spreadMoment]
    ring
  have hsl2 : ∀ x y, (spreadMoment α β ξ).slope x y = 2 * (|α| + |β|) * |α * x + β * y - ξ| := fun x y => by
    simp only [Moment.slope, spreadMoment]
    rw [show -2 * ξ * α + 2 * α ^ 2 * x + 2 * α * β * y = 2 * (α * (α * x + β * y - ξ)) by ring,
      show -2 * ξ * β + 2 * β ^ 2 * y + 2 * α * β * x = 2 * (β * (α * x + β * y - ξ)) by ring]
    simp only [abs_mul, abs_two]
    ring
  have hcv : |(spreadMoment α β ξ).kxx| + |(spreadMoment α β ξ).kxy| + |(spreadMoment α β ξ).kyy| = (|α| + |β|) ^ 2 := by
    simp only [spreadMoment, abs_mul, abs_pow, abs_two]
    ring
  refine ⟨?_, ?_⟩
  · have := mean (alongMoment α β) ξ (0.0117 * D + 0.0223 * (|α| + |β|)) fun e he => by
      obtain ⟨w, psf, sx, sy, a, b, e1, e2, e3, e4, e5, e6, e7, e8⟩ := hal e he
      refine ⟨w, psf, sx, sy, a, b, e1, e2, e3, e4, e5, ?_, ?_⟩
      · unfold imageMoment
        simp only [hat1]
        exact e6.symm
      · simp only [hat1, hsl1]
        simp only [alongMoment, abs_zero, add_zero, mul_zero, mul_add (psf.px _ _), Finset.sum_add_distrib,
          mul_left_comm (psf.px _ _) (0.0117 : ℚ), ← Finset.mul_sum, ← Finset.sum_mul, e5, one_mul]
        linarith
    unfold imageMoment at this
    simpa only [hat1] using this
  · have := mean (spreadMoment α β ξ) V (0.0234 * V + 0.0446 * D * (|α| + |β|) + 0.001 * (|α| + |β|) ^ 2) fun e he => by
      obtain ⟨w, psf, sx, sy, a, b, e1, e2, e3, e4, e5, e6, e7, e8⟩ := hal e he
      refine ⟨w, psf, sx, sy, a, b, e1, e2, e3, e4, e5, ?_, ?_⟩
      · unfold imageMoment
        simp only [hat2]
        exact e8.symm
      · simp only [hat2, hsl2, hcv]
        have hV : 0 ≤ V := by
          rw [← e8]
          exact Finset.sum_nonneg fun i hi => Finset.sum_nonneg fun j hj =>
            mul_nonneg (e4 i (Finset.mem_range.1 hi) j (Finset.mem_range.1 hj)) (sq_nonneg _)
        have hs0 : 0 ≤ |α| + |β| := by positivity
        calc _ ≤ ∑ i ∈ Finset.range psf.nrow, ∑ j ∈ Finset.range psf.ncol,
              (0.0117 * (psf.px i j * (α * (j + (sx - a)) + β * (i + (sy - b)) - ξ) ^ 2) + 0.0117 * V * psf.px i j +
                0.0446 * (|α| + |β|) * (psf.px i j * |α * (j + (sx - a)) + β * (i + (sy - b)) - ξ|) +
                0.001 * (|α| + |β|) ^ 2 * psf.px i j) := by
              refine Finset.sum_le_sum fun i hi => Finset.sum_le_sum fun j hj => ?_
              have p0 := e4 i (Finset.mem_range.1 hi) j (Finset.mem_range.1 hj)
              have k : |(α * (j + (sx - a)) + β * (i + (sy - b)) - ξ) ^ 2 - V| ≤
                  (α * (j + (sx - a)) + β * (i + (sy - b)) - ξ) ^ 2 + V := by
                have := sq_nonneg (α * (j + (sx - a)) + β * (i + (sy - b)) - ξ)
                rw [abs_le]
                constructor <;> linarith
              have k' := mul_le_mul_of_nonneg_left k p0
              linarith
          _ ≤ _ := by
              simp only [Finset.sum_add_distrib, ← Finset.mul_sum, e5, e8]
              have := mul_le_mul_of_nonneg_left e7 hs0
              linarith
    unfold imageMoment at this
    simpa only [hat2] using this

end Pizza
