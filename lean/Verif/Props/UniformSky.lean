import Verif.Props.OneSky
import Verif.Props.DoubleLanczos

/-!
C146: a sky of uniform surface brightness comes out with uniform surface brightness.
-/

namespace Pizza

variable {A σ S P : Type}

/-- Around the place of the position `(u, v)` of the coadd the SE image, with its background subtracted and on the common
zero point, has the surface brightness `s`, and the place is not at the edge of the image (specification). -/
def UniformNear (w : ProcWorld A σ S P) (t : Tile A S P) (s u v : ℚ) (e : Entry P) : Prop :=
  ∃ (lk : Lookups) (nrow ncol : Nat) (im bkg : Arr) (x y : ℚ), MapsTo w t e lk nrow ncol ∧
    w.original e.image = .ok im ∧ w.original e.bkg = .ok bkg ∧ lk.toSe u v = some (x, y) ∧
    2 ≤ y ∧ y + 3 < nrow ∧ 2 ≤ x ∧ x + 3 < ncol ∧
    ∀ r c : ℕ, y - 3 < r → r ≤ y + 3 → x - 3 < c → c ≤ x + 3 →
      lk.areaSe c r ≠ 0 ∧ (im.asNum.px r c - bkg.asNum.px r c) * w.zpScale e.magzp = s * lk.areaSe c r

/-- The interpolation of a constant. -/
theorem kernelSum_const (sinc : ℚ → ℚ) (hs : ∀ t, sincPade t = .ok (sinc t)) (nrow ncol : ℕ) (x y s : ℚ) (f : ℕ → ℕ → ℚ)
    (hy : 2 ≤ y) (hy' : y + 3 < nrow) (hx : 2 ≤ x) (hx' : x + 3 < ncol)
    (hf : ∀ r c, InKernel 3 y r → InKernel 3 x c → f r c = s) : |kernelSum sinc nrow ncol x y f - s| ≤ 0.0115 * |s| := by
  classical
  obtain ⟨e, h⟩ := C89_value sincVal sincPade_eq (⟨nrow, ncol, fun r c => (f r c : ℝ)⟩ : Img ℝ) 3 (by norm_num) (y : ℝ) (x : ℝ)
  have k := (C97_constant (⟨nrow, ncol, fun r c => (f r c : ℝ)⟩ : Img ℝ) (s : ℝ) y x _ e (by exact_mod_cast hy)
    (by dsimp only; exact_mod_cast hy') (by exact_mod_cast hx) (by dsimp only; exact_mod_cast hx')
    (fun r c h1 h2 => by
      dsimp only
      rw [hf r c ((inKernel_cast 3 y r).1 h1) ((inKernel_cast 3 x c).1 h2)]) h).2
  have hsv : ∀ t, sinc t = sincVal t := fun t => Except.ok.inj ((hs t).symm.trans (sincPade_eq t))
  have e1 : (((kernelSum sinc nrow ncol x y f : ℚ)) : ℝ) = ∑ r ∈ Finset.range nrow, ∑ c ∈ Finset.range ncol,
      (if InKernel 3 (y : ℝ) r ∧ InKernel 3 (x : ℝ) c then (f r c : ℝ) *
        (sincVal ((x : ℝ) - c) * sincVal (((x : ℝ) - c) / ((3 : ℤ) : ℝ)) *
          (sincVal ((y : ℝ) - r) * sincVal (((y : ℝ) - r) / ((3 : ℤ) : ℝ)))) else 0) := by
    unfold kernelSum
    push_cast
    refine Finset.sum_congr rfl fun r _ => Finset.sum_congr rfl fun c _ => ?_
    simp only [inKernel_cast]
    split_ifs
    · simp only [lanczos3, hsv]
      push_cast [sincVal_cast]
      ring
    · exact Rat.cast_zero
  have k' : |(((kernelSum sinc nrow ncol x y f : ℚ)) : ℝ) - s| ≤ 0.0115 * |(s : ℝ)| := by
    rw [e1]
    convert k using 4
  have : ((|kernelSum sinc nrow ncol x y f - s| : ℚ) : ℝ) ≤ ((0.0115 * |s| : ℚ) : ℝ) := by
    push_cast
    exact k'
  exact_mod_cast this

/-- The mapping to an SE image is a function of the files, with the area of the coadd pixels as computed for the tile. -/
theorem mapsTo_area {w : ProcWorld A σ S P} {t : Tile A S P} {e : Entry P} {lk : Lookups} {nrow ncol : ℕ}
    (h : MapsTo w t e lk nrow ncol) {area : ℚ → ℚ → ℚ}
    (ha : getWcsAreaInterp w.spl t.celestial t.fwd w.cosd t.shape.1 t.shape.2 t.coaddDelta t.offset = .ok area) :
    lk.areaCoadd = area := by
  obtain ⟨con, -, -, -, hL⟩ := h
  unfold buildLookups at hL
  simp only [bind_eq_ok, pure_eq_ok] at hL
  obtain ⟨_, -, _, -, aCo, haCo, rfl⟩ := hL
  exact Except.ok.inj (haCo.symm.trans ha)

/-- The weighted mean of values that are near a number. -/
theorem mean_near {ws fs : List ℚ} {m b : ℚ} (hlen : ws.length = fs.length) (hw : ∀ w ∈ ws, 0 ≤ w)
    (hf : ∀ f ∈ fs, |f - m| ≤ b) : |(List.zipWith (· * ·) ws fs).sum - ws.sum * m| ≤ ws.sum * b := by
  induction ws generalizing fs with
  | nil => simp
  | cons w ws ih =>
    match fs, hlen with
    | f :: fs, hlen =>
      have h1 := ih (fs := fs) (by simpa using hlen) (fun x hx => hw x (by simp [hx])) (fun x hx => hf x (by simp [hx]))
      have h2 := mul_le_mul_of_nonneg_left (hf f (by simp)) (hw w (by simp))
      have h3 : |w * f - w * m| ≤ w * b := by
        rw [← mul_sub, abs_mul, abs_of_nonneg (hw w (by simp))]
        exact h2
      simp only [List.zipWith_cons_cons, List.sum_cons]
      rw [abs_le] at h1 h3 ⊢
      constructor <;> nlinarith [h1.1, h1.2, h3.1, h3.2]

/-- C146: where every used SE image shows the same surface brightness `s` (flux per area, with background subtracted and on
the common zero point), the pixel of the coadd is `s` times its area, to 1.15 per cent, whatever the WCSs, the weights and
the number of images. -/
theorem C146_uniform (w : ProcWorld A σ S P) (t : Tile A S P) (box psfBox : Nat)
    (hv : SoundEnv (freshEnv w t) box psfBox) (hro : t.cfg.rejectOutliers = false) (hsym : t.cfg.symmetrize = .off)
    (hz : ∀ e ∈ t.entries, w.zpScale e.magzp ≠ 0) (i seed : Nat) (r : SliceRes Flt EpochRow)
    (h : coaddSingleSlice (freshEnv w t) i seed = .ok r) (area : ℚ → ℚ → ℚ)
    (ha : getWcsAreaInterp w.spl t.celestial t.fwd w.cosd t.shape.1 t.shape.2 t.coaddDelta t.offset = .ok area) (s : ℚ) :
    ∃ row es, t.objects[i]? = some row ∧ es.Sublist t.entries ∧
      List.Forall₂ (fun (e : Entry P) er => er.imageId = e.imageId) es (usedRows r) ∧
      (es ≠ [] → ∃ p, r.pix = some p ∧ ∀ y < box, ∀ x < box, ∀ u v : ℚ,
        u = x + row.origStartCol → v = y + row.origStartRow →
        List.Forall₂ (Undefected w t (t.cfg.splineFlags ||| t.cfg.noiseFlags) u v) es (usedRows r) →
        (∀ e ∈ es, UniformNear w t s u v e) →
        ∃ z, p.image[y * box + x]? = some (.fin z) ∧ |z - s * area u v| ≤ 0.0115 * |s * area u v|) := by
  obtain ⟨row, es, h1, h2, h3, -, h4⟩ := C122_sky w t box psfBox hv hro hsym hz sincVal sincPade_eq i seed r h
  refine ⟨row, es, h1, h2, h3, fun hne => ?_⟩
  obtain ⟨hsum, hpos, p, hp, hpix⟩ := h4 hne
  refine ⟨p, hp, fun y hy x hx u v hu hvv hund huni => ?_⟩
  obtain ⟨⟨fs, hfs, him⟩, -⟩ := hpix y hy x hx u v hu hvv hund
  refine ⟨_, him, ?_⟩
  have hf : ∀ f ∈ fs, |f - s * area u v| ≤ 0.0115 * |s * area u v| := by
    intro f hf
    obtain ⟨n, hn⟩ := List.getElem?_of_mem hf
    have hlen := hfs.length_eq
    have hn' : n < es.length := by rw [hlen]; exact (List.getElem?_eq_some_iff.1 hn).1
    obtain ⟨hn2, hn3⟩ := List.getElem?_eq_some_iff.1 hn
    have hsky := (List.forall₂_iff_get.1 hfs).2 n hn' hn2
    simp only [List.get_eq_getElem] at hsky
    rw [hn3] at hsky
    obtain ⟨lk, nr, nc, im, bkg, X, Y, hm, hi, hb, hto, rfl⟩ := hsky
    obtain ⟨lk', nr', nc', im', bkg', X', Y', hm', hi', hb', hto', b1, b2, b3, b4, b5⟩ := huni _ (List.getElem_mem hn')
    cases hi.symm.trans hi'
    cases hb.symm.trans hb'
    have hlk : lk = lk' ∧ nr = nr' ∧ nc = nc' := by
      obtain ⟨c1, q1, rfl, rfl, q4⟩ := hm
      obtain ⟨c2, q1', rfl, rfl, q4'⟩ := hm'
      cases q1.symm.trans q1'
      exact ⟨Except.ok.inj (q4.symm.trans q4'), rfl, rfl⟩
    obtain ⟨rfl, rfl, rfl⟩ := hlk
    cases hto.symm.trans hto'
    have k := kernelSum_const sincVal sincPade_eq nr nc X Y s
      (fun r c => (im.asNum.px r c - bkg.asNum.px r c) * w.zpScale es[n].magzp / lk.areaSe c r) b1 b2 b3 b4
      (fun r c g1 g2 => by
        obtain ⟨d1, d2⟩ := b5 r c (by simpa [InKernel] using g1.1) (by simpa [InKernel] using g1.2)
          (by simpa [InKernel] using g2.1) (by simpa [InKernel] using g2.2)
        rw [d2, mul_div_cancel_right₀ _ d1])
    rw [mapsTo_area hm ha]
    set K := kernelSum sincVal nr nc X Y
      (fun r c => (im.asNum.px r c - bkg.asNum.px r c) * w.zpScale es[n].magzp / lk.areaSe c r)
    have e1 : area u v * K - s * area u v = area u v * (K - s) := by ring
    rw [e1, abs_mul, abs_mul s]
    calc |area u v| * |K - s| ≤ |area u v| * (0.0115 * |s|) := mul_le_mul_of_nonneg_left k (abs_nonneg _)
      _ = _ := by ring
  have hl : ((usedRows r).map EpochRow.weight).length = fs.length := by
    rw [List.length_map, ← h3.length_eq, hfs.length_eq]
  have := mean_near hl (fun q hq => by
    obtain ⟨er, he, rfl⟩ := List.mem_map.1 hq
    exact (hpos er he).le) hf
  rw [hsum, one_mul, one_mul] at this
  exact this

end Pizza
