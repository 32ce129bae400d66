import Verif.Props.PointSource
import Verif.Props.PixelLawExamples

/-!
Cases that meet the hypotheses of C149.
-/

namespace Pizza

/-- A PSF. -/
def exStamp : Img ℚ := ⟨3, 3, fun r c => if r = 1 ∧ c = 1 then 1 / 2 else 1 / 16⟩

/-- A source that shows a star of flux 6 at the place of the PSF, above a background. -/
def exStarSrc : Src :=
  { exWideSrc false with
    psfX := 11
    psfY := 11 + 1 / 4
    psfImage := .ok exStamp
    reads := { (exWideSrc false).reads with
      image := .ok ⟨24, 24, fun r c => r + 2 * stampValue exStamp 10 10 r c⟩ } }

/-- A tile whose slices have one or two such sources. -/
def exStar : SliceEnv Unit Nat Unit :=
  { exWide false with
    sources := fun ra _ _ _ => if ra = 1 then [exStarSrc, exStarSrc] else [exStarSrc] }

theorem exStar_srcs {a b c d : ℚ} {s : Src} (hs : s ∈ exStar.sources a b c d) : s = exStarSrc := by
  simp only [exStar] at hs
  split at hs <;> simpa using hs

theorem exStar_sound : SoundEnv exStar 3 3 where
  boxPos := by norm_num
  psfOdd := rfl
  rows := exTile_sound.rows
  frac := by show (1 : ℚ) ≤ 4; norm_num
  shape := by
    intro a b c d s hs
    rw [exStar_srcs hs]
    refine ⟨?_, ?_, ?_, ?_⟩ <;> intro a ha <;> cases ha
    · exact ⟨rfl, rfl⟩
    · exact ⟨rfl, rfl⟩
    · exact ⟨rfl, rfl⟩
    · simp only [List.mem_singleton, forall_eq]
      exact ⟨rfl, rfl⟩
  noises := by
    intro a b c d s hs l hl
    rw [exStar_srcs hs] at hl
    cases hl
    rfl
  psf := by
    intro a b c d s hs l hl
    rw [exStar_srcs hs] at hl
    cases hl
    rfl
  keeps := exTile_sound.keeps
  fwhm := exTile_sound.fwhm

/-- Whether the used epochs are good near the first pixel. -/
def exStarGoods : Option (List Bool) :=
  match buildSliceInputs exExt (cfgFor exStar exRow0 none) [exStarSrc, exStarSrc] 7 with
  | .ok inp => some (inp.slices.map fun e => exGood (cfgFor exStar exRow0 none) e)
  | .error _ => none

theorem exStarGoods_eq : exStarGoods = some [true, true] := by decide +kernel

/-- The slice is computed without an error. -/
theorem exStar_ok : (match coaddSingleSlice exStar 0 7 with | .ok _ => true | _ => false) = true := by
  decide +kernel

/-- The corner of the slice is that of the coadd stamp of the PSF. -/
theorem exStar_layout : (match coaddPsfLayout exStar.fwd exStar.inv exRow0.ra exRow0.dec exRow0.psfBoxSize exStar.offset with
    | .ok lay => decide (lay.startCol = 0 ∧ lay.startRow = 0) | _ => false) = true := by decide +kernel

/-- The part of the flux that is kept: the areas of the example lose half of it, and the kernel very little. -/
def exKept : ℚ := ∑ r ∈ Finset.range 3, ∑ c ∈ Finset.range 3,
  exStamp.px r c / 2 * (0.999999999999996 ^ 2 * 0.999999999999996 ^ 2)

theorem exKept_ne : exKept ≠ 0 := by decide +kernel

theorem exStar_stamp : StampOf exStarSrc exStamp 10 10 := by
  refine ⟨rfl, ?_, ?_⟩
  · show NearestTo 11 (10 + ((3 : ℤ) - 1) / 2)
    norm_num [NearestTo]
  · show NearestTo (11 + 1 / 4) (10 + ((3 : ℤ) - 1) / 2)
    norm_num [NearestTo]

/-- What the coadd sees of the stamp. -/
theorem exStar_seen (r c : Nat) (hr : r < 3) (hc : c < 3) :
    SeenPsf sincVal ⟨fun x y => some (x + 10, y + 10), fun _ _ => 2, fun _ _ => 1⟩ exStamp 10 10 (c + 0) (r + 0)
      (exStamp.px r c / 2 * (0.999999999999996 ^ 2 * 0.999999999999996 ^ 2)) := by
  refine ⟨fun h => by simp at h, fun x y h => ?_⟩
  simp only [add_zero, Option.some.injEq, Prod.mk.injEq] at h
  obtain ⟨rfl, rfl⟩ := h
  rw [kernelSum_eq sincVal sincPade_eq]
  have e1 : ((c : ℚ) + 10 - ((10 : ℤ) : ℚ)) = (c : ℚ) := by push_cast; ring
  have e2 : ((r : ℚ) + 10 - ((10 : ℤ) : ℚ)) = (r : ℚ) := by push_cast; ring
  simp only [e1, e2, kcut_int (K := ℚ) (a := 3) (by norm_num) le_rfl]
  show _ = (1 : ℚ) * _
  rw [one_mul, Finset.sum_eq_single_of_mem (s := Finset.range exStamp.nrow) r (Finset.mem_range.2 hr),
    Finset.sum_eq_single_of_mem (s := Finset.range exStamp.ncol) c (Finset.mem_range.2 hc)]
  · rw [if_pos rfl, if_pos rfl]
  · intro c' _ hc'
    rw [if_neg hc']
    simp
  · intro r' _ hr'
    simp [hr']

/-- C149: the first pixel of a slice both of whose epochs show a star of flux 6: it is 6 times the first pixel of the PSF of the
coadd, up to the part of the flux that is kept. -/
example : ∃ r p q, coaddSingleSlice exStar 0 7 = .ok r ∧ r.pix = some p ∧ p.psf[0]? = some (.fin q) ∧
    p.image[0]? = some (.fin (6 * exKept * q)) := by
  have hok : ∃ r, coaddSingleSlice exStar 0 7 = .ok r := by
    have h := exStar_ok
    split at h
    · exact ⟨_, by assumption⟩
    · cases h
  obtain ⟨r, hr⟩ := hok
  obtain ⟨row, lay, gaia, cfg, inp, h1, h2, h3, h4, h5, h6⟩ :=
    C149_same_shape exStar 3 3 exStar_sound sincVal sincPade_eq 0 7 r hr
  have hrow : row = exRow0 := by
    have : exObjects[0]? = some exRow0 := List.getElem?_eq_getElem _
    exact Option.some.inj (h1.symm.trans this)
  subst hrow
  have hg : gaia = none := by
    cases h3 with
    | none => rfl
    | some _ _ _ _ _ h => cases h
  subst hg
  have hlay : lay.startCol = 0 ∧ lay.startRow = 0 := by
    have h := exStar_layout
    rw [h2] at h
    simpa using h
  have hcfg := h4.eq
  rw [hcfg] at h5 h6
  have hx := exStar_sound.sane (List.mem_of_getElem? h1) none exRow0.ra exRow0.dec lay.raPsf lay.decPsf
  have hsrc : ∀ e ∈ inp.slices, e.src = exStarSrc := fun e he => exStar_srcs (used_epoch _ _ _ _ _ hx h5 e he).1
  have hgood : inp.slices.map (exGood (cfgFor exStar exRow0 none)) = [true, true] := by
    have h := exStarGoods_eq
    unfold exStarGoods at h
    have h7 : buildSliceInputs exExt (cfgFor exStar exRow0 none) [exStarSrc, exStarSrc] 7 = .ok inp := by
      rw [← h5]
      simp only [exStar, exRow0_start.1, if_true]
      rfl
    rw [h7] at h
    exact Option.some.inj h
  have hne : inp.slices ≠ [] := by
    intro h0
    rw [h0] at hgood
    cases hgood
  obtain ⟨p, p1, p2⟩ := h6 hne
  obtain ⟨q, q1, q2⟩ := p2 exKept exKept_ne (fun e he => by
      refine ⟨⟨fun x y => some (x + 10, y + 10), fun _ _ => 2, fun _ _ => 1⟩, exStamp, 10, 10,
        fun r c => exStamp.px r c / 2 * (0.999999999999996 ^ 2 * 0.999999999999996 ^ 2), by rw [hsrc e he]; rfl, ?_, ?_, rfl⟩
      · rw [hsrc e he]; exact exStar_stamp
      · rw [hlay.1, hlay.2]
        exact fun r hr c hc => exStar_seen r c hr hc) 6 0 (by norm_num) 0 (by norm_num) 0 (by norm_num) 0 (by norm_num)
    (by rw [exRow0_start.2.2, hlay.2]) (by rw [exRow0_start.2.1, hlay.1]) (fun e he => by
      have hge : exGood (cfgFor exStar exRow0 none) e = true := by
        have : exGood (cfgFor exStar exRow0 none) e ∈ [true, true] := by
          rw [← hgood]; exact List.mem_map.2 ⟨e, he, rfl⟩
        simpa using this
      refine ⟨⟨fun x y => some (x + 10, y + 10), fun _ _ => 2, fun _ _ => 1⟩,
        ⟨24, 24, fun r c => r + 2 * stampValue exStamp 10 10 r c⟩, ⟨24, 24, fun r _ => r⟩, exStamp, 10, 10, 10, 10,
        by rw [hsrc e he]; rfl, by rw [hsrc e he]; rfl, by rw [hsrc e he]; rfl, by rw [hsrc e he]; exact exStar_stamp, ?_, ?_⟩
      · rw [exRow0_start.2.1, exRow0_start.2.2]; norm_num
      · intro i j i1 i2 j1 j2
        have i1' : (7 : ℚ) < i := by linarith
        have i2' : (i : ℚ) ≤ 13 := by linarith
        have j1' : (7 : ℚ) < j := by linarith
        have j2' : (j : ℚ) ≤ 13 := by linarith
        norm_cast at i1' i2' j1' j2'
        refine ⟨exGood_good hge (by omega) i2' (by omega) j2', ?_⟩
        obtain ⟨i, rfl⟩ := Int.eq_ofNat_of_zero_le (show 0 ≤ i by omega)
        obtain ⟨j, rfl⟩ := Int.eq_ofNat_of_zero_le (show 0 ≤ j by omega)
        rw [hsrc e he]
        simp only [calibrated, Int.toNat_natCast]
        show (_ - _) * (3 : ℚ) = _
        ring)
  exact ⟨r, p, q, hr, p1, q1, q2⟩

/-- `C149_star` and `C149_near` on the same slice. -/
example (r : SliceRes Flt EpochRow) (h : coaddSingleSlice exStar 0 7 = .ok r) :=
  And.intro (C149_star exStar 3 3 exStar_sound sincVal (fun t => sincPade_eq t) 0 7 r h)
    (C149_near exStar 3 3 exStar_sound sincVal (fun t => sincPade_eq t) 0 7 r h)

/-- `C149_flux`: an SE image that is displaced by 9.75 and 10.25 pixels, and a coadd stamp of 9 x 9 pixels. -/
example (o : SEObj) (t : ℚ)
    (h : StampFlux sincVal ⟨0, 0, -3, -3⟩ 9 ⟨{ exStarSrc with
      lookups := .ok ⟨fun x y => some (x + 39 / 4, y + 41 / 4), fun _ _ => 2, fun _ _ => 2⟩ }, o⟩ t) :
    |t - 1| ≤ 0.0115 := by
  have := C149_flux sincVal sincPade_eq _ _ _ t h _ rfl exStamp 10 10 ⟨rfl, exStar_stamp.x, exStar_stamp.y⟩ (39 / 4) (41 / 4)
    ⟨fun _ _ _ _ => rfl, ⟨2, by norm_num, fun _ _ _ _ => rfl, fun _ _ _ _ => rfl⟩, by norm_num,
      by show ((10 : ℤ) : ℚ) + ((3 : Nat) : ℚ) + 2 < -3 + 39 / 4 + ((9 : Nat) : ℚ); norm_num,
      by norm_num, by show ((10 : ℤ) : ℚ) + ((3 : Nat) : ℚ) + 2 < -3 + 41 / 4 + ((9 : Nat) : ℚ); norm_num⟩
  have e1 : ∑ i ∈ Finset.range exStamp.nrow, ∑ j ∈ Finset.range exStamp.ncol, exStamp.px i j = 1 := by decide +kernel
  have e2 : ∑ i ∈ Finset.range exStamp.nrow, ∑ j ∈ Finset.range exStamp.ncol, |exStamp.px i j| = 1 := by decide +kernel
  rw [e1, e2, mul_one] at this
  exact this

end Pizza
