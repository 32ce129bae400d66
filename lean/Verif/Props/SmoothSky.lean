import Verif.Props.UniformSky
import Verif.Props.LanczosQuadratic

/-!
C148 for the coadd: a smooth sky comes out with the surface brightness that it has at the place of the pixel.
-/

namespace Pizza

variable {A σ S P : Type}

/-- Around the place of the position `(u, v)` of the coadd the SE image, with its background subtracted and on the common
zero point, has the surface brightness `s` at the place, a change from pixel to pixel of at most `g`, a curvature of at most `k`,
and follows to `t` the quadratic function that this gives; and the place is not at the edge of the image (specification). -/
def SmoothNear (w : ProcWorld A σ S P) (tile : Tile A S P) (s g k t u v : ℚ) (e : Entry P) : Prop :=
  ∃ (lk : Lookups) (nrow ncol : Nat) (im bkg : Arr) (x y c1 c2 c3 c4 c5 : ℚ), MapsTo w tile e lk nrow ncol ∧
    w.original e.image = .ok im ∧ w.original e.bkg = .ok bkg ∧ lk.toSe u v = some (x, y) ∧
    2 ≤ y ∧ y + 3 < nrow ∧ 2 ≤ x ∧ x + 3 < ncol ∧ |c1| + |c2| ≤ g ∧ |c3| + |c4| + |c5| ≤ k ∧
    ∀ r c : ℕ, y - 3 < r → r ≤ y + 3 → x - 3 < c → c ≤ x + 3 →
      |(im.asNum.px r c - bkg.asNum.px r c) * w.zpScale e.magzp / lk.areaSe c r -
        (s + c1 * (r - y) + c2 * (c - x) + c3 * (r - y) ^ 2 + c4 * ((r - y) * (c - x)) + c5 * (c - x) ^ 2)| ≤ t

/-- The interpolation of a function that is nearly quadratic. -/
theorem kernelSum_quadratic (sinc : ℚ → ℚ) (hs : ∀ t, sincPade t = .ok (sinc t)) (nrow ncol : ℕ)
    (x y c0 c1 c2 c3 c4 c5 t : ℚ) (f : ℕ → ℕ → ℚ)
    (hy : 2 ≤ y) (hy' : y + 3 < nrow) (hx : 2 ≤ x) (hx' : x + 3 < ncol)
    (hf : ∀ r c : ℕ, InKernel 3 y r → InKernel 3 x c → |f r c - (c0 + c1 * (r - y) + c2 * (c - x) + c3 * (r - y) ^ 2 +
      c4 * ((r - y) * (c - x)) + c5 * (c - x) ^ 2)| ≤ t) :
    |kernelSum sinc nrow ncol x y f - c0| ≤
      0.0115 * |c0| + 0.022 * (|c1| + |c2|) + 0.0001 * (|c3| + |c5|) + 0.0005 * |c4| + 2.41 * t := by
  classical
  obtain ⟨e, h⟩ := C89_value sincVal sincPade_eq (⟨nrow, ncol, fun r c => (f r c : ℝ)⟩ : Img ℝ) 3 (by norm_num) (y : ℝ) (x : ℝ)
  have k := C148_quadratic (⟨nrow, ncol, fun r c => (f r c : ℝ)⟩ : Img ℝ) c0 c1 c2 c3 c4 c5 t y x _ e (by exact_mod_cast hy)
    (by dsimp only; exact_mod_cast hy') (by exact_mod_cast hx) (by dsimp only; exact_mod_cast hx')
    (fun r c h1 h2 => by
      dsimp only
      have := hf r c ((inKernel_cast 3 y r).1 h1) ((inKernel_cast 3 x c).1 h2)
      exact_mod_cast this) h
  have hsv : ∀ t, sinc t = sincVal t := fun t => Except.ok.inj ((hs t).symm.trans (sincPade_eq t))
  have e1 : (((kernelSum sinc nrow ncol x y f : ℚ)) : ℝ) = ∑ r ∈ Finset.range nrow, ∑ c ∈ Finset.range ncol,
      (if InKernel 3 (y : ℝ) r ∧ InKernel 3 (x : ℝ) c then (f r c : ℝ) *
        (sincVal ((x : ℝ) - c) * sincVal (((x : ℝ) - c) / ((3 : ℤ) : ℝ)) *
          (sincVal ((y : ℝ) - r) * sincVal (((y : ℝ) - r) / ((3 : ℤ) : ℝ)))) else 0) := by
    unfold kernelSum
    push_cast
    refine Finset.sum_congr rfl fun r _ => Finset.sum_congr rfl fun c _ => ?_
    simp only [inKernel_cast]
    split_ifs
    · simp only [lanczos3, hsv]
      push_cast [sincVal_cast]
      ring
    · exact Rat.cast_zero
  have k' : |(((kernelSum sinc nrow ncol x y f : ℚ)) : ℝ) - c0| ≤
      0.0115 * |(c0 : ℝ)| + 0.022 * (|(c1 : ℝ)| + |(c2 : ℝ)|) + 0.0001 * (|(c3 : ℝ)| + |(c5 : ℝ)|) + 0.0005 * |(c4 : ℝ)| +
        2.41 * t := by
    rw [e1]
    convert k using 4
  have : ((|kernelSum sinc nrow ncol x y f - c0| : ℚ) : ℝ) ≤
      ((0.0115 * |c0| + 0.022 * (|c1| + |c2|) + 0.0001 * (|c3| + |c5|) + 0.0005 * |c4| + 2.41 * t : ℚ) : ℝ) := by
    push_cast
    exact k'
  exact_mod_cast this

/-- C148: where every used SE image shows the same smooth sky, the pixel of the coadd is the surface brightness at its place
times its area, to 1.15 per cent of it, 2.2 per cent of the change from pixel to pixel and 0.05 per cent of the curvature. -/
theorem C148_coadd (w : ProcWorld A σ S P) (tile : Tile A S P) (box psfBox : Nat)
    (hv : SoundEnv (freshEnv w tile) box psfBox) (hro : tile.cfg.rejectOutliers = false) (hsym : tile.cfg.symmetrize = .off)
    (hz : ∀ e ∈ tile.entries, w.zpScale e.magzp ≠ 0) (i seed : Nat) (r : SliceRes Flt EpochRow)
    (h : coaddSingleSlice (freshEnv w tile) i seed = .ok r) (area : ℚ → ℚ → ℚ)
    (ha : getWcsAreaInterp w.spl tile.celestial tile.fwd w.cosd tile.shape.1 tile.shape.2 tile.coaddDelta tile.offset = .ok area)
    (s g k t : ℚ) :
    ∃ row es, tile.objects[i]? = some row ∧ es.Sublist tile.entries ∧
      List.Forall₂ (fun (e : Entry P) er => er.imageId = e.imageId) es (usedRows r) ∧
      (es ≠ [] → ∃ p, r.pix = some p ∧ ∀ y < box, ∀ x < box, ∀ u v : ℚ,
        u = x + row.origStartCol → v = y + row.origStartRow →
        List.Forall₂ (Undefected w tile (tile.cfg.splineFlags ||| tile.cfg.noiseFlags) u v) es (usedRows r) →
        (∀ e ∈ es, SmoothNear w tile s g k t u v e) →
        ∃ z, p.image[y * box + x]? = some (.fin z) ∧
          |z - s * area u v| ≤ (0.0115 * |s| + 0.022 * g + 0.0005 * k + 2.41 * t) * |area u v|) := by
  obtain ⟨row, es, h1, h2, h3, -, h4⟩ := C122_sky w tile box psfBox hv hro hsym hz sincVal sincPade_eq i seed r h
  refine ⟨row, es, h1, h2, h3, fun hne => ?_⟩
  obtain ⟨hsum, hpos, p, hp, hpix⟩ := h4 hne
  refine ⟨p, hp, fun y hy x hx u v hu hvv hund huni => ?_⟩
  obtain ⟨⟨fs, hfs, him⟩, -⟩ := hpix y hy x hx u v hu hvv hund
  refine ⟨_, him, ?_⟩
  have hf : ∀ f ∈ fs, |f - s * area u v| ≤ (0.0115 * |s| + 0.022 * g + 0.0005 * k + 2.41 * t) * |area u v| := by
    intro f hf
    obtain ⟨n, hn⟩ := List.getElem?_of_mem hf
    have hlen := hfs.length_eq
    have hn' : n < es.length := by rw [hlen]; exact (List.getElem?_eq_some_iff.1 hn).1
    obtain ⟨hn2, hn3⟩ := List.getElem?_eq_some_iff.1 hn
    have hsky := (List.forall₂_iff_get.1 hfs).2 n hn' hn2
    simp only [List.get_eq_getElem] at hsky
    rw [hn3] at hsky
    obtain ⟨lk, nr, nc, im, bkg, X, Y, hm, hi, hb, hto, rfl⟩ := hsky
    obtain ⟨lk', nr', nc', im', bkg', X', Y', c1, c2, c3, c4, c5, hm', hi', hb', hto', b1, b2, b3, b4, hg, hk, b5⟩ :=
      huni _ (List.getElem_mem hn')
    cases hi.symm.trans hi'
    cases hb.symm.trans hb'
    have hlk : lk = lk' ∧ nr = nr' ∧ nc = nc' := by
      obtain ⟨d1, q1, rfl, rfl, q4⟩ := hm
      obtain ⟨d2, q1', rfl, rfl, q4'⟩ := hm'
      cases q1.symm.trans q1'
      exact ⟨Except.ok.inj (q4.symm.trans q4'), rfl, rfl⟩
    obtain ⟨rfl, rfl, rfl⟩ := hlk
    cases hto.symm.trans hto'
    have kk := kernelSum_quadratic sincVal sincPade_eq nr nc X Y s c1 c2 c3 c4 c5 t
      (fun r c => (im.asNum.px r c - bkg.asNum.px r c) * w.zpScale es[n].magzp / lk.areaSe c r) b1 b2 b3 b4
      (fun r c g1 g2 => b5 r c (by simpa [InKernel] using g1.1) (by simpa [InKernel] using g1.2)
          (by simpa [InKernel] using g2.1) (by simpa [InKernel] using g2.2))
    rw [mapsTo_area hm ha]
    set K := kernelSum sincVal nr nc X Y
      (fun r c => (im.asNum.px r c - bkg.asNum.px r c) * w.zpScale es[n].magzp / lk.areaSe c r)
    have e1 : area u v * K - s * area u v = (K - s) * area u v := by ring
    rw [e1, abs_mul]
    refine mul_le_mul_of_nonneg_right (kk.trans ?_) (abs_nonneg _)
    have := abs_nonneg c3
    have := abs_nonneg c4
    have := abs_nonneg c5
    norm_num
    linarith
  have hl : ((usedRows r).map EpochRow.weight).length = fs.length := by
    rw [List.length_map, ← h3.length_eq, hfs.length_eq]
  have := mean_near hl (fun q hq => by
    obtain ⟨er, he, rfl⟩ := List.mem_map.1 hq
    exact (hpos er he).le) hf
  rw [hsum, one_mul, one_mul] at this
  exact this

end Pizza
