import Verif.Spec.PointSource
import Verif.Props.PixelLaw
import Verif.Props.UniformSky
import Verif.Props.Resample

/-!
C149: a star at the place of the PSF looks like the PSF of the coadd.
-/

namespace Pizza

variable {A σ S : Type}

/-- The PSF that is resampled is that of the source, with its stamp around the place asked for. -/
theorem used_stamp {x : Ext A σ} {c : BuildCfg A} {srcs : List Src} {rng : σ}
    {out : Inputs} (hx : Sane x c srcs) (hpsf : ∀ s ∈ srcs, ∀ im, s.psfImage = .ok im → im.ncol = im.nrow)
    (h : buildSliceInputs x c srcs rng = .ok out) {e : Epoch} (he : e ∈ out.slices) :
    ∃ psf sx sy, StampOf e.src psf sx sy ∧ e.obj.psf = some psf ∧ e.obj.psfXStart = some sx ∧
      e.obj.psfYStart = some sy ∧ e.obj.psfBoxSize = some psf.nrow ∧ psf.ncol = psf.nrow ∧ psf.nrow % 2 = 1 := by
  have hplace := buildSliceInputs_place hx h
  obtain ⟨cands0, h1, h2⟩ := buildSliceInputs_ok hx.keeps hx.box hx.frac h
  rcases h2 with ⟨h2, rfl⟩ | ⟨h2, cands, sl, wt, nu, fl, h3, _, hsrc, hprep, rfl, _, h7, h8, h9, _⟩
  · simp at he
  simp only at he
  have hmem : ∃ w, (e, w) ∈ sl.zip wt := by
    obtain ⟨i, hi, rfl⟩ := List.getElem_of_mem he
    refine ⟨wt[i]'(h7 ▸ hi), ?_⟩
    rw [← List.getElem_zip (h := by simp [h7 ▸ hi, hi])]
    exact List.getElem_mem _
  obtain ⟨w, hw⟩ := hmem
  obtain ⟨cd, hcd, g, g', a1, a2⟩ := h9 _ _ hw
  have hin : e.src ∈ srcs := by
    rw [← a1]
    have : cd.src ∈ cands.map Cand.src := List.mem_map_of_mem hcd
    rw [hsrc, (possibleSlices_facts hx.box hx.frac h1).1] at this
    exact (List.mem_filter.1 this).1
  have hpf := rejectOutliers_psf h3 (possibleSlices_psf h1) cd hcd
  have hn := (sliceSide_pos hx.box hx.frac).1
  have hp := hprep cd hcd
  have hws : cd.src.WellShaped := hx.shape _ (a1 ▸ hin)
  obtain ⟨d, w0, gg, w', b, o, b1, b2, b3, b4, b5, b6, b7, b8, b9, b10, b11, b12, b13, b14⟩ :=
    processCand_ok hn hp hws a2
  rcases b14 with ⟨_, _, f, hf, _⟩ | ⟨_, hl⟩
  · cases hf
  · obtain ⟨w1, bb1, l1, l2, l3, l4⟩ := hl
    rcases l4 with ⟨_, l4⟩ | ⟨_, ⟨_, l4⟩ | ⟨_, im, ns, pm, q, l5, l6, ⟨_, l7⟩ | ⟨_, o', wt', psf, l7, l8, l9, l10,
      l11, l12, l13, l14, l15, l16, l17, l18, l19⟩⟩⟩
    · cases l4
    · cases l4
    · cases l7
    · have hobj : e.obj = o' := by cases l7; rfl
      rw [hobj]
      obtain ⟨cl, rw', psf', px, py, p1, p2, p3, p4, p5, p6, p7, p8, p9⟩ :=
        hplace e (List.mem_append_left _ he)
      rw [hobj] at p2 p3 p4 p7 p8 p9
      obtain ⟨im', q1, q2⟩ := hpf
      rw [a1] at q1
      rw [p5] at q1
      have hq : psf' = im' := Except.ok.inj q1
      subst hq
      have hodd : (psf'.nrow : ℤ) % 2 = 1 := by
        by_contra hne
        have := (C09_stamp e.src.psfX e.src.psfY psf'.nrow).2.1 (by omega)
        rw [p6] at this
        cases this
      obtain ⟨xm, ym, c1, c2, c3⟩ := (C09_stamp e.src.psfX e.src.psfY psf'.nrow).1 hodd
      cases p6.symm.trans c1
      obtain ⟨_, _, s1, s2⟩ := C09_stamp e.src.psfX e.src.psfY psf'.nrow
      obtain ⟨_, _, s3, s4⟩ := C09_stamp e.src.psfY e.src.psfX psf'.nrow
      have hhalf : ((((psf'.nrow : ℤ) - 1) / 2 : ℤ) : ℚ) = (((psf'.nrow : ℤ) : ℚ) - 1) / 2 := by
        obtain ⟨k, hk⟩ : ∃ k : ℤ, (psf'.nrow : ℤ) = 2 * k + 1 := ⟨(psf'.nrow : ℤ) / 2, by omega⟩
        rw [hk]
        have : (2 * k + 1 - 1) / 2 = k := by omega
        rw [this]
        push_cast
        ring
      refine ⟨psf', px, py, ⟨p5, ?_, ?_⟩, ?_, p7, p8, p9, hpsf _ hin _ p5, by omega⟩
      · unfold NearestTo
        push_cast [hhalf] at c2 ⊢
        constructor <;> linarith
      · unfold NearestTo
        push_cast [hhalf] at c3 ⊢
        constructor <;> linarith
      · rw [l14, b11]; exact q2

theorem StampOf.unique {s : Src} {psf psf' : Img ℚ} {sx sy sx' sy' : ℤ} (h : StampOf s psf sx sy)
    (h' : StampOf s psf' sx' sy') : psf = psf' ∧ sx = sx' ∧ sy = sy' := by
  cases h.image.symm.trans h'.image
  obtain ⟨-, a, b⟩ := h
  obtain ⟨-, a', b'⟩ := h'
  unfold NearestTo at *
  have near : ∀ (v : ℚ) (k k' : ℤ), (k : ℚ) - 1/2 ≤ v → v < (k : ℚ) + 1/2 → (k' : ℚ) - 1/2 ≤ v → v < (k' : ℚ) + 1/2 →
      k = k' := by
    intro v k k' h1 h2 h3 h4
    have e1 : (k : ℚ) < k' + 1 := by linarith
    have e2 : (k' : ℚ) < k + 1 := by linarith
    have e1' : k < k' + 1 := by exact_mod_cast e1
    have e2' : k' < k + 1 := by exact_mod_cast e2
    omega
  have := near _ _ _ a.1 a.2 a'.1 a'.2
  have := near _ _ _ b.1 b.2 b'.1 b'.2
  exact ⟨rfl, by omega, by omega⟩

/-- A sum of values that vanish outside of two ranges, over either of these. -/
theorem sum_ranges {N n : Nat} {s : ℤ} {G : ℤ → ℚ} (h : ∀ z, G z ≠ 0 → (0 ≤ z ∧ z < N) ∧ s ≤ z ∧ z < s + n) :
    ∑ k ∈ Finset.range N, G k = ∑ k ∈ Finset.range n, G (s + k) := by
  have key : ∀ (M : Nat) (a : ℤ), (∀ z, G z ≠ 0 → a ≤ z ∧ z < a + M) → (min 0 s ≤ a ∧ a + M ≤ max (N : ℤ) (s + n)) →
      ∑ k ∈ Finset.range M, G (a + k) = ∑ z ∈ Finset.Ico (min 0 s) (max (N : ℤ) (s + n)), G z := by
    intro M a h1 h2
    apply Finset.sum_of_injOn (fun k : Nat => a + (k : ℤ))
    · intro i _ j _ hij
      simpa using hij
    · intro k hk
      simp only [Finset.coe_range, Set.mem_Iio, Finset.coe_Ico, Set.mem_Ico] at hk ⊢
      omega
    · intro z _ hz
      by_contra hne
      obtain ⟨h3, h4⟩ := h1 z hne
      exact hz ⟨(z - a).toNat, by simp; omega, by simp; omega⟩
    · intro k _; rfl
  rw [key n s (fun z hz => (h z hz).2) ⟨min_le_right _ _, le_max_right _ _⟩,
    ← key N 0 (fun z hz => by have := (h z hz).1; omega) ⟨min_le_left _ _, by simp⟩]
  simp

/-- The contribution of a pixel of the SE image to the interpolation of a star. -/
noncomputable def starTerm (w : Lookups) (psf : Img ℚ) (sx sy : ℤ) (x y : ℚ) (r c : ℤ) : ℚ :=
  if (y - 3 < r ∧ (r : ℚ) ≤ y + 3) ∧ x - 3 < c ∧ (c : ℚ) ≤ x + 3 then
    stampValue psf sx sy r c / w.areaSe c r * (kern 3 (x - c) * kern 3 (y - r)) else 0

/-- The interpolation of an image of a star is its flux times the interpolation of the stamp. -/
theorem kernel_star (sinc : ℚ → ℚ) (hs : ∀ t, sincPade t = .ok (sinc t)) (nrow ncol : Nat) (w : Lookups) (psf : Img ℚ) (sx sy : ℤ)
    (x y flux : ℚ) (f : Nat → Nat → ℚ)
    (hin : ∀ i j : ℤ, y - 3 < i → i ≤ y + 3 → x - 3 < j → j ≤ x + 3 → (0 ≤ i ∧ i < nrow) ∧ 0 ≤ j ∧ j < ncol)
    (hf : ∀ i j : ℤ, y - 3 < i → i ≤ y + 3 → x - 3 < j → j ≤ x + 3 → f i.toNat j.toNat = flux * stampValue psf sx sy i j) :
    kernelSum sinc nrow ncol x y (fun r c => f r c / w.areaSe c r) =
      flux * kernelSum sinc psf.nrow psf.ncol (x - sx) (y - sy) fun i j => psf.px i j / w.areaSe (j + sx) (i + sy) := by
  have key : kernelSum sinc nrow ncol x y (fun r c => f r c / w.areaSe c r) =
      ∑ r ∈ Finset.range nrow, ∑ c ∈ Finset.range ncol, flux * starTerm w psf sx sy x y r c := by
    rw [kernelSum_eq sinc hs]
    refine Finset.sum_congr rfl fun r _ => Finset.sum_congr rfl fun c _ => ?_
    unfold starTerm kcut InKernel
    push_cast
    by_cases h1 : y - 3 < r ∧ (r : ℚ) ≤ y + 3
    · by_cases h2 : x - 3 < c ∧ (c : ℚ) ≤ x + 3
      · rw [if_pos h1, if_pos h2, if_pos ⟨h1, h2⟩]
        have := hf r c (by exact_mod_cast h1.1) (by exact_mod_cast h1.2) (by exact_mod_cast h2.1) (by exact_mod_cast h2.2)
        rw [Int.toNat_natCast, Int.toNat_natCast] at this
        rw [this]
        ring
      · simp only [h2, and_false, if_false, zero_mul, mul_zero]
    · simp only [h1, false_and, if_false, mul_zero]
  have key2 : kernelSum sinc psf.nrow psf.ncol (x - sx) (y - sy) (fun i j => psf.px i j / w.areaSe (j + sx) (i + sy)) =
      ∑ r ∈ Finset.range psf.nrow, ∑ c ∈ Finset.range psf.ncol, starTerm w psf sx sy x y (sy + r) (sx + c) := by
    rw [kernelSum_eq sinc hs]
    refine Finset.sum_congr rfl fun r hr => Finset.sum_congr rfl fun c hc => ?_
    rw [Finset.mem_range] at hr hc
    have hv : stampValue psf sx sy (sy + r) (sx + c) = psf.px r c := by
      unfold stampValue
      rw [if_pos ⟨⟨by omega, by omega⟩, by omega, by omega⟩, add_sub_cancel_left, add_sub_cancel_left, Int.toNat_natCast,
        Int.toNat_natCast]
    unfold starTerm kcut InKernel
    rw [hv]
    push_cast
    have e1 : (y - sy - 3 < r ∧ (r : ℚ) ≤ y - sy + 3) ↔ (y - 3 < sy + r ∧ (sy : ℚ) + r ≤ y + 3) := by
      constructor <;> rintro ⟨a, b⟩ <;> constructor <;> linarith
    have e2 : (x - sx - 3 < c ∧ (c : ℚ) ≤ x - sx + 3) ↔ (x - 3 < sx + c ∧ (sx : ℚ) + c ≤ x + 3) := by
      constructor <;> rintro ⟨a, b⟩ <;> constructor <;> linarith
    rw [show y - sy - (r : ℚ) = y - (sy + r) by ring, show x - sx - (c : ℚ) = x - (sx + c) by ring,
      add_comm (c : ℚ) sx, add_comm (r : ℚ) sy]
    simp only [e1, e2]
    by_cases h1 : y - 3 < sy + r ∧ (sy : ℚ) + r ≤ y + 3
    · by_cases h2 : x - 3 < sx + c ∧ (sx : ℚ) + c ≤ x + 3
      · rw [if_pos h1, if_pos h2, if_pos ⟨h1, h2⟩]
      · simp only [h2, and_false, if_false, zero_mul, mul_zero]
    · simp only [h1, false_and, if_false, mul_zero]
  have hsupp : ∀ r c : ℤ, starTerm w psf sx sy x y r c ≠ 0 → ((0 ≤ r ∧ r < nrow) ∧ sy ≤ r ∧ r < sy + psf.nrow) ∧
      (0 ≤ c ∧ c < ncol) ∧ sx ≤ c ∧ c < sx + psf.ncol := by
    intro r c h
    unfold starTerm at h
    split_ifs at h with hk
    · have hst : stampValue psf sx sy r c ≠ 0 := by
        intro h0
        rw [h0] at h
        simp at h
      unfold stampValue at hst
      split_ifs at hst with h2
      · obtain ⟨h3, h4⟩ := hin r c hk.1.1 hk.1.2 hk.2.1 hk.2.2
        exact ⟨⟨h3, h2.1⟩, h4, h2.2⟩
      · exact absurd rfl hst
    · exact absurd rfl h
  rw [key, key2]
  simp only [← Finset.mul_sum]
  congr 1
  calc ∑ r ∈ Finset.range nrow, ∑ c ∈ Finset.range ncol, starTerm w psf sx sy x y r c
      = ∑ r ∈ Finset.range nrow, ∑ c ∈ Finset.range psf.ncol, starTerm w psf sx sy x y r (sx + c) :=
        Finset.sum_congr rfl fun r _ => sum_ranges fun z hz => (hsupp _ z hz).2
    _ = _ := sum_ranges (G := fun r => ∑ c ∈ Finset.range psf.ncol, starTerm w psf sx sy x y r (sx + c)) fun z hz => by
        obtain ⟨c, -, hc⟩ := Finset.exists_ne_zero_of_sum_ne_zero hz
        exact (hsupp z _ hc).1

/-- Likewise for the flux that a source gives for a pixel. -/
theorem flux_star (sinc : ℚ → ℚ) (hs : ∀ t, sincPade t = .ok (sinc t)) (s : Src) (w : Lookups) (psf : Img ℚ) (sx sy : ℤ)
    (x y u v flux : ℚ) (f : Nat → Nat → ℚ)
    (hin : ∀ i j : ℤ, y - 3 < i → i ≤ y + 3 → x - 3 < j → j ≤ x + 3 → (0 ≤ i ∧ i < s.nrow) ∧ 0 ≤ j ∧ j < s.ncol)
    (hf : ∀ i j : ℤ, y - 3 < i → i ≤ y + 3 → x - 3 < j → j ≤ x + 3 → f i.toNat j.toNat = flux * stampValue psf sx sy i j) :
    fluxAt sinc s w x y u v f = flux * (w.areaCoadd u v * kernelSum sinc psf.nrow psf.ncol (x - sx) (y - sy) fun i j =>
      psf.px i j / w.areaSe (j + sx) (i + sy)) := by
  unfold fluxAt
  rw [kernel_star sinc hs s.nrow s.ncol w psf sx sy x y flux f hin hf, mul_left_comm]

/-- The interpolation as a value of the resampling. -/
theorem kernelSum_lanczosSum (sinc : ℚ → ℚ) (hs : ∀ t, sincPade t = .ok (sinc t)) (nrow ncol : Nat) (f : Nat → Nat → ℚ)
    (x y : ℚ) : kernelSum sinc nrow ncol x y f = lanczosSum ⟨nrow, ncol, f⟩ 3 y x := by
  rw [lanczosSum_eq, kernelSum_eq sinc hs]

theorem SeenPsf.unique {sinc : ℚ → ℚ} {w : Lookups} {psf : Img ℚ} {sx sy : ℤ} {u v q q' : ℚ}
    (h : SeenPsf sinc w psf sx sy u v q) (h' : SeenPsf sinc w psf sx sy u v q') : q = q' := by
  cases ht : w.toSe u v with
  | none => rw [h.1 ht, h'.1 ht]
  | some p => rw [h.2 p.1 p.2 ht, h'.2 p.1 p.2 ht]

theorem StampFlux.unique {sinc : ℚ → ℚ} {lay : PsfLayout} {pb : Nat} {e : Epoch} {t t' : ℚ}
    (h : StampFlux sinc lay pb e t) (h' : StampFlux sinc lay pb e t') : t = t' := by
  obtain ⟨w, psf, sx, sy, q, a1, a2, a3, rfl⟩ := h
  obtain ⟨w', psf', sx', sy', q', b1, b2, b3, rfl⟩ := h'
  cases a1.symm.trans b1
  obtain ⟨rfl, rfl, rfl⟩ := a2.unique b2
  refine Finset.sum_congr rfl fun r hr => Finset.sum_congr rfl fun c hc => ?_
  rw [Finset.mem_range] at hr hc
  exact (a3 r hr c hc).unique (b3 r hr c hc)

/-- The resampled PSF of an epoch is what the coadd pixels see of the stamp, divided by the total. -/
theorem seen_psf {x : Ext A σ} {c : BuildCfg A} {srcs : List Src} {rng : σ}
    {out : Inputs} (hx : Sane x c srcs) (hpsf : ∀ s ∈ srcs, ∀ im, s.psfImage = .ok im → im.ncol = im.nrow)
    (h : buildSliceInputs x c srcs rng = .ok out) {e : Epoch} (he : e ∈ out.slices)
    (sinc : ℚ → ℚ) (hs : ∀ t, sincPade t = .ok (sinc t)) {row : ObjRow} {lay : PsfLayout} {d : EpochData}
    (hd : SeenAs row lay e d) {pb : Nat} (hpb : row.psfBoxSize = pb) :
    ∃ t, StampFlux sinc lay pb e t ∧ (t ≠ 0 →
      (∑ r ∈ Finset.range pb, ∑ c ∈ Finset.range pb, (d.psf.px r c).getD 0) = 1 ∧
      ∀ r < pb, ∀ c < pb, ∀ w psf sx sy q, e.src.lookups = .ok w → StampOf e.src psf sx sy →
        SeenPsf sinc w psf sx sy (c + lay.startCol) (r + lay.startRow) q → (d.psf.px r c).getD 0 * t = q) := by
  obtain ⟨psf, sx, sy, s0, s1, s2, s3, s4, s5, s6⟩ := used_stamp hx hpsf h he
  obtain ⟨w, res, l1, l2, rfl⟩ := hd
  obtain ⟨selfBox, sx', sy', image, iom, frac, noises, bm, pm, F⟩ := resample_facts l2
  obtain ⟨d1, d2, raw, hraw, hnorm⟩ := C44_psf_normalised e.obj w lay.startCol lay.startRow row.psfBoxSize.toNat 0 0 res.psf
    psf sx sy psf.nrow F.psf s1 s2 s3 s4 (by omega)
  rw [hpb, Int.toNat_natCast] at d1 d2 hraw hnorm
  have hseen : ∀ r < pb, ∀ c < pb, SeenPsf sinc w psf sx sy (c + lay.startCol) (r + lay.startRow) (raw r c) := by
    intro r hr c hc
    obtain ⟨g1, g2⟩ := hraw r hr c hc
    refine ⟨fun hn => (g1 hn).1, fun X Y hXY => ?_⟩
    obtain ⟨v, b, hv⟩ := resampled_exists
      ⟨psf.nrow, psf.nrow, fun r c => psf.px r c / w.areaSe ((c : ℚ) + sx) ((r : ℚ) + sy)⟩ (Y - sy + 0) (X - sx + 0)
    rw [(g2 X Y hXY).1 v b hv, mul_comm]
    obtain ⟨-, hv', -⟩ := (resampled_iff _ _ _ _ _ _).1 hv
    rw [hv', add_zero, add_zero, s5, kernelSum_lanczosSum sinc hs]
  refine ⟨_, ⟨w, psf, sx, sy, raw, l1, s0, hseen, rfl⟩, fun ht => ?_⟩
  obtain ⟨n1, n2⟩ := hnorm ht
  have htot : res.psf.total ≠ 0 := by
    unfold Img.total
    rw [d1, d2, n1]
    exact one_ne_zero
  have hpx : ∀ r c, ((res.toEpoch (decide (res.psf.total ≠ 0))).psf.px r c).getD 0 = res.psf.px r c := by
    intro r c
    simp [Resampling.toEpoch, Img.map, htot]
  simp only [hpx]
  refine ⟨n1, fun r hr c hc w' psf' sx' sy' q k1 k2 k3 => ?_⟩
  cases l1.symm.trans k1
  obtain ⟨rfl, rfl, rfl⟩ := s0.unique k2
  rw [n2 r hr c hc]
  exact (hseen r hr c hc).unique k3

/-- What an epoch with a star contributes to the image is its flux, times the part of it that is kept, times what it
contributes to the PSF. -/
theorem star_value {x : Ext A σ} {c : BuildCfg A} {srcs : List Src} {rng : σ}
    {out : Inputs} (hx : Sane x c srcs) (h : buildSliceInputs x c srcs rng = .ok out) {e : Epoch} (he : e ∈ out.slices)
    (sinc : ℚ → ℚ) (hs : ∀ t, sincPade t = .ok (sinc t)) {row : ObjRow} {box : Nat} {d : EpochData}
    (hd : Contributes sinc c row box e d) {r cc : Nat} (hr : r < box) (hc : cc < box) {flux : ℚ}
    (hstar : ShowsStar c row flux r cc e) :
    ∃ w psf sx sy q, e.src.lookups = .ok w ∧ StampOf e.src psf sx sy ∧
      SeenPsf sinc w psf sx sy (cc + row.origStartCol) (r + row.origStartRow) q ∧ d.image.px r cc = flux * q := by
  obtain ⟨w, im, bkg, psf, sx, sy, X, Y, a1, a2, a3, a4, a5, a6⟩ := hstar
  obtain ⟨y0, x0, im', bkg', ns, q, f1, f2, f3, f4, f5, f6, f7, f8, f9, f10, f11, f12⟩ := used_window hx h he
  have hv := clean_value hr hc hd (f := fluxAt sinc e.src w X Y (cc + row.origStartCol) (r + row.origStartRow)
    (calibrated e.src im bkg)) ⟨w, im, bkg, X, Y, a1, a2, a3, a5, fun i j h1 h2 h3 h4 => (a6 i j h1 h2 h3 h4).1, rfl⟩
  obtain ⟨w', b, im'', ns', g1, g2, g3, g4, g5, g6, g7, g8⟩ := used_good hx h he f9
  have hin : ∀ i j : ℤ, Y - 3 < i → i ≤ Y + 3 → X - 3 < j → j ≤ X + 3 →
      (0 ≤ i ∧ i < e.src.nrow) ∧ 0 ≤ j ∧ j < e.src.ncol := by
    intro i j h1 h2 h3 h4
    obtain ⟨x1, y1, w1, b1, k1, k2, k3, k4, i', j', k5, k6, k7, k8, -⟩ := (a6 i j h1 h2 h3 h4).1
    cases f2.symm.trans k1
    cases f1.symm.trans k2
    cases g1.symm.trans k3
    rw [g5.1] at k7
    rw [g5.2] at k8
    omega
  refine ⟨w, psf, sx, sy, w.areaCoadd (cc + row.origStartCol) (r + row.origStartRow) *
      kernelSum sinc psf.nrow psf.ncol (X - sx) (Y - sy) fun i j => psf.px i j / w.areaSe (j + sx) (i + sy),
    a1, a4, ⟨fun hn => ?_, fun x' y' hxy => ?_⟩, ?_⟩
  · rw [a5] at hn
    cases hn
  · cases a5.symm.trans hxy
    rfl
  · rw [hv]
    exact flux_star sinc hs e.src w psf sx sy X Y _ _ flux _ hin fun i j h1 h2 h3 h4 => (a6 i j h1 h2 h3 h4).2

theorem mean_map {ds : List EpochData} {ws : List ℚ} (g : EpochData → ℚ) (hl : ws.length = ds.length) (hw : ws.sum = 1) :
    wMean (ds.zip ws) g = (List.zipWith (· * ·) ws (ds.map g)).sum :=
  mean_of (R := fun e d : EpochData => e = d) (V := fun e f => g e = f)
    (List.forall₂_same.2 fun _ _ => rfl) (by rw [List.forall₂_map_right_iff]; exact List.forall₂_same.2 fun _ _ => rfl) hl hw
    fun e d f h1 h2 => by rw [← h1, h2]

/-- C149: a star at the place of the PSF, of the same flux in all used epochs, comes out as the combination of the epochs'
PSFs of which the PSF of the coadd is made, with the same weights: epoch by epoch, its flux times the normalised PSF times the
total of that PSF before it was normalised. -/
theorem C149_star (v : SliceEnv A σ S) (box psfBox : Nat) (hv : SoundEnv v box psfBox)
    (sinc : ℚ → ℚ) (hs : ∀ t, sincPade t = .ok (sinc t)) (i seed : Nat)
    (r : SliceRes Flt EpochRow) (h : coaddSingleSlice v i seed = .ok r) :
    ∃ row lay gaia cfg inp, v.objects[i]? = some row ∧
      coaddPsfLayout v.fwd v.inv row.ra row.dec row.psfBoxSize v.offset = .ok lay ∧
      StarMask v row gaia ∧ SliceCfg v row gaia cfg ∧
      buildSliceInputs v.ext cfg (v.sources row.ra row.dec lay.raPsf lay.decPsf)
        (v.seeded seed) = .ok inp ∧
      (inp.slices ≠ [] → ∃ p ts, ∃ qs : List (Nat → Nat → ℚ), r.pix = some p ∧
        List.Forall₂ (StampFlux sinc lay psfBox) inp.slices ts ∧ qs.length = ts.length ∧
        (∀ y < psfBox, ∀ x < psfBox, p.psf[y * psfBox + x]? =
          some (.fin (List.zipWith (· * ·) r.weights (qs.map fun q => q y x)).sum)) ∧
        ((∀ t ∈ ts, t ≠ 0) →
          (∀ q ∈ qs, (∑ y ∈ Finset.range psfBox, ∑ x ∈ Finset.range psfBox, q y x) = 1) ∧
          ∀ flux, ∀ y < box, ∀ x < box, ∀ y' < psfBox, ∀ x' < psfBox,
            (y : ℚ) + row.origStartRow = y' + lay.startRow → (x : ℚ) + row.origStartCol = x' + lay.startCol →
            (∀ e ∈ inp.slices, ShowsStar cfg row flux y x e) →
            p.image[y * box + x]? = some (.fin (List.zipWith (· * ·) r.weights
              (List.zipWith (fun t q => flux * t * q y' x') ts qs)).sum))) := by
  obtain ⟨_, row, lay, gaia, cfg, inp, h1, h2, h3, h4, h5, h6, _, _, h8⟩ :=
    C93_slice v box psfBox hv i seed r h
  have hr := List.mem_of_getElem? h1
  have hx := hv.sane hr gaia row.ra row.dec lay.raPsf lay.decPsf
  rw [← h4.eq] at hx
  have hl := (C49_weights v.ext _ _ _ inp hx (fun _ => hv.fwhm) h5).1
  rw [← h6] at hl
  refine ⟨row, lay, gaia, cfg, inp, h1, h2, h3, h4, h5, fun hne => ?_⟩
  obtain ⟨_, w2, p, ds, p1, p2, p3⟩ := h8 hne
  have hb : row.boxSize.toNat = box := by rw [(hv.rows row hr).1, Int.toNat_natCast]
  have hpsf := fun s hs => hv.psf row.ra row.dec lay.raPsf lay.decPsf s hs
  have key : ∀ k (hk1 : k < inp.slices.length) (hk2 : k < ds.length), ∃ t, StampFlux sinc lay psfBox inp.slices[k] t ∧
      (t ≠ 0 → (∑ r ∈ Finset.range psfBox, ∑ c ∈ Finset.range psfBox, (ds[k].psf.px r c).getD 0) = 1 ∧
      ∀ r < psfBox, ∀ c < psfBox, ∀ w psf sx sy q, inp.slices[k].src.lookups = .ok w → StampOf inp.slices[k].src psf sx sy →
        SeenPsf sinc w psf sx sy (c + lay.startCol) (r + lay.startRow) q → (ds[k].psf.px r c).getD 0 * t = q) := by
    intro k hk1 hk2
    have hd := (List.forall₂_iff_get.1 p2).2 k hk1 hk2
    exact seen_psf hx hpsf h5 (List.getElem_mem hk1) sinc hs hd (hv.rows row hr).2
  have hlen : inp.slices.length = ds.length := p2.length_eq
  choose T hT hT' using fun k : Fin ds.length => key k (by have := k.2; omega) k.2
  have hcon : List.Forall₂ (Contributes sinc cfg row box) inp.slices ds := by
    rw [List.forall₂_iff_get] at p2 ⊢
    refine ⟨p2.1, fun k hk1 hk2 => ?_⟩
    have := contributes hx h5 (List.getElem_mem hk1) sinc hs (p2.2 k hk1 hk2)
    rw [hb] at this
    exact this
  refine ⟨p, List.ofFn T, ds.map fun d r c => (d.psf.px r c).getD 0, p1, ?_, by simp, ?_, fun hne' => ⟨?_, ?_⟩⟩
  · rw [List.forall₂_iff_get]
    refine ⟨by simp [hlen], fun k hk1 hk2 => ?_⟩
    simp only [List.get_eq_getElem, List.getElem_ofFn]
    exact hT ⟨k, by simpa using hk2⟩
  · intro y hy x hx'
    obtain ⟨z, z1, z2⟩ := p3.psf.2 y hy x hx'
    rw [z1, z2, mean_map _ (by rw [hl, hlen]) w2, List.map_map]
    rfl
  · intro q hq
    obtain ⟨d, hd, rfl⟩ := List.mem_map.1 hq
    obtain ⟨k, hk, rfl⟩ := List.getElem_of_mem hd
    exact (hT' ⟨k, hk⟩ (hne' _ (List.mem_ofFn.2 ⟨_, rfl⟩))).1
  · intro flux y hy x hx' y' hy' x' hx'' e1 e2 hstar
    obtain ⟨z, z1, z2⟩ := p3.image.2 y hy x hx'
    rw [z1, z2, mean_map _ (by rw [hl, hlen]) w2]
    congr 4
    apply List.ext_getElem (by simp)
    intro k hk1 hk2
    have hk : k < ds.length := by simpa using hk1
    have hks : k < inp.slices.length := hlen ▸ hk
    simp only [List.getElem_map, List.getElem_zipWith, List.getElem_ofFn]
    have hne := hne' _ (List.mem_ofFn.2 ⟨⟨k, hk⟩, rfl⟩)
    obtain ⟨w, psf, sx, sy, q, k1, k2, k3, k4⟩ := star_value hx h5 (List.getElem_mem hks) sinc hs
      ((List.forall₂_iff_get.1 hcon).2 k hks hk) hy hx' (hstar _ (List.getElem_mem hks))
    rw [e1, e2] at k3
    have := (hT' ⟨k, hk⟩ hne).2 y' hy' x' hx'' w psf sx sy q k1 k2 k3
    simp only [List.get_eq_getElem] at k4 this ⊢
    rw [k4, ← this]
    ring

/-- C149: if resampling keeps the same part `t` of the flux in all used epochs, the image of the star is the PSF of the coadd
times `t` times the flux. -/
theorem C149_same_shape (v : SliceEnv A σ S) (box psfBox : Nat) (hv : SoundEnv v box psfBox)
    (sinc : ℚ → ℚ) (hs : ∀ t, sincPade t = .ok (sinc t)) (i seed : Nat)
    (r : SliceRes Flt EpochRow) (h : coaddSingleSlice v i seed = .ok r) :
    ∃ row lay gaia cfg inp, v.objects[i]? = some row ∧
      coaddPsfLayout v.fwd v.inv row.ra row.dec row.psfBoxSize v.offset = .ok lay ∧
      StarMask v row gaia ∧ SliceCfg v row gaia cfg ∧
      buildSliceInputs v.ext cfg (v.sources row.ra row.dec lay.raPsf lay.decPsf)
        (v.seeded seed) = .ok inp ∧
      (inp.slices ≠ [] → ∃ p, r.pix = some p ∧ ∀ t ≠ 0, (∀ e ∈ inp.slices, StampFlux sinc lay psfBox e t) →
        ∀ flux, ∀ y < box, ∀ x < box, ∀ y' < psfBox, ∀ x' < psfBox,
          (y : ℚ) + row.origStartRow = y' + lay.startRow → (x : ℚ) + row.origStartCol = x' + lay.startCol →
          (∀ e ∈ inp.slices, ShowsStar cfg row flux y x e) →
          ∃ q, p.psf[y' * psfBox + x']? = some (.fin q) ∧ p.image[y * box + x]? = some (.fin (flux * t * q))) := by
  obtain ⟨row, lay, gaia, cfg, inp, h1, h2, h3, h4, h5, h6⟩ := C149_star v box psfBox hv sinc hs i seed r h
  refine ⟨row, lay, gaia, cfg, inp, h1, h2, h3, h4, h5, fun hne => ?_⟩
  obtain ⟨p, ts, qs, p1, p2, p3, p4, p5⟩ := h6 hne
  refine ⟨p, p1, fun t ht hflux flux y hy x hx y' hy' x' hx' e1 e2 hstar => ?_⟩
  have hts : ∀ t' ∈ ts, t' = t := by
    intro t' ht'
    obtain ⟨k, hk, rfl⟩ := List.getElem_of_mem ht'
    have hk' : k < inp.slices.length := by rw [p2.length_eq]; exact hk
    have := (List.forall₂_iff_get.1 p2).2 k hk' hk
    exact this.unique (hflux _ (List.getElem_mem hk'))
  refine ⟨_, p4 y' hy' x' hx', ?_⟩
  rw [(p5 fun t' ht' => by rw [hts t' ht']; exact ht).2 flux y hy x hx y' hy' x' hx' e1 e2 hstar]
  congr 2
  clear p5 p4 p2 h6 hflux hstar h5
  generalize r.weights = ws
  induction ws generalizing ts qs with
  | nil => simp
  | cons w ws ih =>
    match ts, qs, p3 with
    | [], [], _ => simp
    | t' :: ts, q :: qs, p3 =>
      have e3 := ih ts qs (by simpa using p3) fun a ha => hts a (by simp [ha])
      simp only [List.zipWith_cons_cons, List.map_cons, List.sum_cons, e3, hts t' (by simp)]
      ring

/-- C149: if resampling keeps the flux of each used epoch to within a part `ε`, the image of the star is the flux times the PSF of
the coadd to within the part `ε` of the mean of the absolute values of the epochs' PSFs. -/
theorem C149_near (v : SliceEnv A σ S) (box psfBox : Nat) (hv : SoundEnv v box psfBox)
    (sinc : ℚ → ℚ) (hs : ∀ t, sincPade t = .ok (sinc t)) (i seed : Nat)
    (r : SliceRes Flt EpochRow) (h : coaddSingleSlice v i seed = .ok r) :
    ∃ row lay gaia cfg inp, v.objects[i]? = some row ∧
      coaddPsfLayout v.fwd v.inv row.ra row.dec row.psfBoxSize v.offset = .ok lay ∧
      StarMask v row gaia ∧ SliceCfg v row gaia cfg ∧
      buildSliceInputs v.ext cfg (v.sources row.ra row.dec lay.raPsf lay.decPsf)
        (v.seeded seed) = .ok inp ∧
      (inp.slices ≠ [] → ∃ p, ∃ qs : List (Nat → Nat → ℚ), r.pix = some p ∧ ∀ ε < 1,
        (∀ e ∈ inp.slices, ∃ t, StampFlux sinc lay psfBox e t ∧ |t - 1| ≤ ε) →
        (∀ q ∈ qs, (∑ y ∈ Finset.range psfBox, ∑ x ∈ Finset.range psfBox, q y x) = 1) ∧
        ∀ flux, ∀ y < box, ∀ x < box, ∀ y' < psfBox, ∀ x' < psfBox,
          (y : ℚ) + row.origStartRow = y' + lay.startRow → (x : ℚ) + row.origStartCol = x' + lay.startCol →
          (∀ e ∈ inp.slices, ShowsStar cfg row flux y x e) →
          ∃ a, p.image[y * box + x]? = some (.fin a) ∧
            p.psf[y' * psfBox + x']? = some (.fin (List.zipWith (· * ·) r.weights (qs.map fun q => q y' x')).sum) ∧
            |a - flux * (List.zipWith (· * ·) r.weights (qs.map fun q => q y' x')).sum| ≤
              ε * |flux| * (List.zipWith (· * ·) r.weights (qs.map fun q => |q y' x'|)).sum) := by
  obtain ⟨row, lay, gaia, cfg, inp, h1, h2, h3, h4, h5, h6⟩ := C149_star v box psfBox hv sinc hs i seed r h
  obtain ⟨_, row', lay', gaia', cfg', inp', h1', h2', h3', h4', h5', h6', _, _, h8⟩ :=
    C93_slice v box psfBox hv i seed r h
  refine ⟨row, lay, gaia, cfg, inp, h1, h2, h3, h4, h5, fun hne => ?_⟩
  obtain ⟨p, ts, qs, p1, p2, p3, p4, p5⟩ := h6 hne
  have hw : ∀ w ∈ r.weights, 0 < w := by
    by_cases hi : inp'.slices = []
    · rename_i g
      have := (g hi).2
      rw [p1] at this
      cases this
    · exact (h8 hi).1
  refine ⟨p, qs, p1, fun ε hε hflux => ?_⟩
  have hts : ∀ t ∈ ts, |t - 1| ≤ ε := by
    intro t' ht'
    obtain ⟨k, hk, rfl⟩ := List.getElem_of_mem ht'
    have hk' : k < inp.slices.length := by rw [p2.length_eq]; exact hk
    have := (List.forall₂_iff_get.1 p2).2 k hk' hk
    obtain ⟨t, g1, g2⟩ := hflux _ (List.getElem_mem hk')
    rw [show ts[k] = t from this.unique g1]
    exact g2
  obtain ⟨n1, n2⟩ := p5 fun t ht h0 => by
    have := hts t ht
    rw [h0, zero_sub, abs_neg, abs_one] at this
    linarith
  refine ⟨n1, fun flux y hy x hx y' hy' x' hx' e1 e2 hstar => ⟨_, n2 flux y hy x hx y' hy' x' hx' e1 e2 hstar,
    p4 y' hy' x' hx', ?_⟩⟩
  clear p5 p4 p2 h6 hflux hstar h5 n1 n2 h8 h5' h6' h
  generalize r.weights = ws at hw ⊢
  induction ws generalizing ts qs with
  | nil => simp
  | cons w ws ih =>
    match ts, qs, p3 with
    | [], [], _ => simp
    | t' :: ts, q :: qs, p3 =>
      have e3 := ih ts qs (by simpa using p3) (fun a ha => hts a (by simp [ha])) fun a ha => hw a (by simp [ha])
      simp only [List.zipWith_cons_cons, List.map_cons, List.sum_cons] at e3 ⊢
      have e4 : |w * (flux * t' * q y' x') - flux * (w * q y' x')| ≤ ε * |flux| * (w * |q y' x'|) := by
        rw [show w * (flux * t' * q y' x') - flux * (w * q y' x') = (t' - 1) * (flux * (w * q y' x')) by ring, abs_mul,
          abs_mul, abs_mul, abs_of_pos (hw w (by simp)), mul_assoc ε]
        exact mul_le_mul_of_nonneg_right (hts t' (by simp)) (by have := hw w (by simp); positivity)
      rw [abs_le] at e3 e4 ⊢
      constructor <;> nlinarith [e3.1, e3.2, e4.1, e4.2]

/-! ### images that are shifted with respect to the coadd -/

/-- The kernel sees a pixel from a position as the position from the pixel. -/
theorem kcut_swap (b : ℚ) (r k : Nat) : kcut 3 ((r : ℚ) + b) k = kcut 3 ((k : ℚ) - b) r := by
  have h3 : ∀ d : ℚ, d = 3 ∨ d = -3 → kern 3 d = 0 := by
    intro d hd
    unfold kern
    rcases hd with rfl | rfl
    · rw [sincVal_three, zero_mul]
    · rw [sincVal_neg, sincVal_three, zero_mul]
  have hk : kern 3 ((r : ℚ) + b - k) = kern 3 ((k : ℚ) - b - r) := by
    rw [← kern_neg]
    congr 1
    ring
  unfold kcut InKernel
  push_cast
  rw [hk]
  by_cases h1 : (k : ℚ) - b - r = 3 ∨ (k : ℚ) - b - r = -3
  · rw [h3 _ h1]
    simp
  · rw [not_or] at h1
    congr 1
    apply propext
    constructor
    · rintro ⟨a1, a2⟩
      exact ⟨lt_of_le_of_ne (by linarith) fun h => h1.1 (by linarith), by linarith⟩
    · rintro ⟨a1, a2⟩
      exact ⟨lt_of_le_of_ne (by linarith) fun h => h1.2 (by linarith), by linarith⟩

/-- What the pixels of the coadd stamp see of the PSF, as a sum over the pixels of the PSF. -/
theorem seen_displaced (sinc : ℚ → ℚ) (hs : ∀ t, sincPade t = .ok (sinc t)) {x0 y0 : ℚ} {n : Nat} {w : Lookups}
    {psf : Img ℚ} {sx sy : ℤ} {a b : ℚ} (hd : Displaced x0 y0 n w psf sx sy a b) {r c : Nat} (hr : r < n) (hc : c < n) {q : ℚ}
    (hq : SeenPsf sinc w psf sx sy (c + x0) (r + y0) q) :
    q = ∑ i ∈ Finset.range psf.nrow, ∑ j ∈ Finset.range psf.ncol,
      psf.px i j * (kcut 3 ((j : ℚ) - (x0 + a - sx)) c * kcut 3 ((i : ℚ) - (y0 + b - sy)) r) := by
  obtain ⟨area, harea, hse, hco⟩ := hd.area
  rw [hq.2 _ _ (hd.toSe r hr c hc), kernelSum_eq sinc hs, hco r hr c hc]
  rw [Finset.mul_sum]
  refine Finset.sum_congr rfl fun i hi => ?_
  rw [Finset.mul_sum]
  refine Finset.sum_congr rfl fun j hj => ?_
  rw [hse i (Finset.mem_range.1 hi) j (Finset.mem_range.1 hj), ← kcut_swap, ← kcut_swap,
    show (c : ℚ) + x0 + a - sx = c + (x0 + a - sx) by ring, show (r : ℚ) + y0 + b - sy = r + (y0 + b - sy) by ring]
  field_simp

/-- C149: on an SE image with the pixels of the coadd, displaced by any amount, the total of the PSF on the coadd stamp is
that of the PSF to 1.15 per cent of the sum of its absolute values, if the coadd stamp has a margin of three pixels around the
SE stamp. -/
theorem C149_flux (sinc : ℚ → ℚ) (hs : ∀ t, sincPade t = .ok (sinc t)) (lay : PsfLayout) (psfBox : Nat) (e : Epoch) (t : ℚ)
    (h : StampFlux sinc lay psfBox e t) (w : Lookups) (hw : e.src.lookups = .ok w) (psf : Img ℚ) (sx sy : ℤ)
    (hst : StampOf e.src psf sx sy) (a b : ℚ)
    (hd : Displaced lay.startCol lay.startRow psfBox w psf sx sy a b) :
    |t - ∑ i ∈ Finset.range psf.nrow, ∑ j ∈ Finset.range psf.ncol, psf.px i j| ≤
      0.0115 * ∑ i ∈ Finset.range psf.nrow, ∑ j ∈ Finset.range psf.ncol, |psf.px i j| := by
  obtain ⟨w', psf', sx', sy', q, a1, a2, a3, rfl⟩ := h
  cases hw.symm.trans a1
  obtain ⟨rfl, rfl, rfl⟩ := hst.unique a2
  have hq : ∀ r < psfBox, ∀ c < psfBox, q r c = ∑ i ∈ Finset.range psf.nrow, ∑ j ∈ Finset.range psf.ncol,
      psf.px i j * (kcut 3 ((j : ℚ) - (lay.startCol + a - sx)) c * kcut 3 ((i : ℚ) - (lay.startRow + b - sy)) r) := by
    intro r hr c hc
    exact seen_displaced sinc hs hd hr hc (a3 r hr c hc)
  have hsum : ∑ r ∈ Finset.range psfBox, ∑ c ∈ Finset.range psfBox, q r c =
      ∑ i ∈ Finset.range psf.nrow, ∑ j ∈ Finset.range psf.ncol, psf.px i j *
        kernelSum sinc psfBox psfBox ((j : ℚ) - (lay.startCol + a - sx)) ((i : ℚ) - (lay.startRow + b - sy)) fun _ _ => 1 := by
    simp only [kernelSum_eq sinc hs, one_mul, Finset.mul_sum]
    rw [Finset.sum_congr rfl fun r hr => Finset.sum_congr rfl fun c hc =>
      hq r (Finset.mem_range.1 hr) c (Finset.mem_range.1 hc)]
    have swap : ∀ g : Nat → Nat → Nat → Nat → ℚ,
        ∑ r ∈ Finset.range psfBox, ∑ c ∈ Finset.range psfBox, ∑ i ∈ Finset.range psf.nrow, ∑ j ∈ Finset.range psf.ncol, g r c i j =
        ∑ i ∈ Finset.range psf.nrow, ∑ j ∈ Finset.range psf.ncol, ∑ r ∈ Finset.range psfBox, ∑ c ∈ Finset.range psfBox, g r c i j := by
      intro g
      rw [Finset.sum_congr rfl fun r _ => Finset.sum_comm, Finset.sum_comm]
      refine Finset.sum_congr rfl fun i _ => ?_
      rw [Finset.sum_congr rfl fun r _ => Finset.sum_comm, Finset.sum_comm]
    exact swap fun r c i j => _
  rw [hsum, ← Finset.sum_sub_distrib, Finset.mul_sum]
  refine (Finset.abs_sum_le_sum_abs _ _).trans (Finset.sum_le_sum fun i hi => ?_)
  rw [← Finset.sum_sub_distrib, Finset.mul_sum]
  refine (Finset.abs_sum_le_sum_abs _ _).trans (Finset.sum_le_sum fun j hj => ?_)
  rw [Finset.mem_range] at hi hj
  have hi' : (i : ℚ) + 1 ≤ psf.nrow := by exact_mod_cast hi
  have hj' : (j : ℚ) + 1 ≤ psf.ncol := by exact_mod_cast hj
  have hi0 : (0 : ℚ) ≤ i := Nat.cast_nonneg i
  have hj0 : (0 : ℚ) ≤ j := Nat.cast_nonneg j
  obtain ⟨-, -, hx, hx', hy, hy'⟩ := hd
  have k := kernelSum_const sinc hs psfBox psfBox ((j : ℚ) - (lay.startCol + a - sx)) ((i : ℚ) - (lay.startRow + b - sy)) 1
    (fun _ _ => 1) (by linarith) (by linarith) (by linarith) (by linarith) fun _ _ _ _ => rfl
  rw [abs_one, mul_one] at k
  generalize kernelSum sinc psfBox psfBox ((j : ℚ) - (lay.startCol + a - sx)) ((i : ℚ) - (lay.startRow + b - sy))
    (fun _ _ => 1) = K at k ⊢
  rw [show psf.px i j * K - psf.px i j = (K - 1) * psf.px i j by ring, abs_mul]
  exact mul_le_mul_of_nonneg_right k (abs_nonneg _)

end Pizza
