import Verif.Props.Photometry
import Verif.Props.PointSourceExamples

/-!
Cases that meet the hypotheses of C151.
-/

namespace Pizza

/-- A lamp of flux 6. -/
def exLamp : Img ℚ := ⟨3, 3, fun r c => if r = 1 ∧ c = 1 then 3 else 3 / 8⟩

/-- A source of 30 x 30 pixels that shows the lamp above a background. -/
def exLampSrc : Src :=
  { exSrc 0 1 0 false with
    pos := .ok (14, 14)
    nrow := 30
    ncol := 30
    reads := ⟨.ok ⟨30, 30, fun r c => r + stampValue exLamp 12 12 r c / 3⟩, .ok ⟨30, 30, fun r _ => r⟩,
      .ok ⟨30, 30, fun _ _ => 0⟩, .ok ⟨30, 30, fun _ _ => 1⟩, .ok [⟨30, 30, fun r c => if r = c then 1 else 0⟩]⟩
    scale := 3
    lookups := .ok ⟨fun x y => some (x + 10, y + 10), fun _ _ => 2, fun _ _ => 2⟩ }

/-- The row of a slice of 8 x 8 pixels. -/
def exLampRow : ObjRow := { exRow0 with boxSize := 8 }

/-- A tile with one such slice, and two such sources. -/
def exLampTile : SliceEnv Unit Nat Unit :=
  { exTile with
    cfg := { exCfg with boxSize := 8, fracBuffer := 3 }
    objects := [exLampRow]
    sources := fun _ _ _ _ => [exLampSrc, exLampSrc] }

theorem exLamp_srcs {a b c d : ℚ} {s : Src} (hs : s ∈ exLampTile.sources a b c d) : s = exLampSrc := by
  simpa [exLampTile] using hs

theorem exLamp_sound : SoundEnv exLampTile 8 3 where
  boxPos := by norm_num
  psfOdd := rfl
  rows := by
    intro row hrow
    simp only [exLampTile, List.mem_singleton] at hrow
    subst hrow
    exact ⟨rfl, (exTile_sound.rows exRow0 (List.getElem_mem _)).2⟩
  frac := by show (1 : ℚ) ≤ 3; norm_num
  shape := by
    intro a b c d s hs
    rw [exLamp_srcs hs]
    refine ⟨?_, ?_, ?_, ?_⟩ <;> intro a ha <;> cases ha
    · exact ⟨rfl, rfl⟩
    · exact ⟨rfl, rfl⟩
    · exact ⟨rfl, rfl⟩
    · simp only [List.mem_singleton, forall_eq]
      exact ⟨rfl, rfl⟩
  noises := by
    intro a b c d s hs l hl
    rw [exLamp_srcs hs] at hl
    cases hl
    rfl
  psf := by
    intro a b c d s hs l hl
    rw [exLamp_srcs hs] at hl
    cases hl
    rfl
  keeps := exTile_sound.keeps
  fwhm := exTile_sound.fwhm

/-- All pixels that the kernel reaches from the slice are good. -/
def exLampGood (cfg : BuildCfg Unit) (e : Epoch) : Bool :=
  match e.obj.xStart, e.obj.yStart, e.obj.weight, e.obj.bmask with
  | some x0, some y0, some w, some b =>
    (List.range 13).all fun i => (List.range 13).all fun j =>
      decide (0 ≤ 8 + i - y0 ∧ 8 + i - y0 < w.nrow ∧ 0 ≤ 8 + j - x0 ∧ 8 + j - x0 < w.ncol) &&
      decide (0 < w.px (8 + i - y0).toNat (8 + j - x0).toNat) &&
      decide (b.px (8 + i - y0).toNat (8 + j - x0).toNat &&& (cfg.splineFlags ||| cfg.noiseFlags) = 0)
  | _, _, _, _ => false

theorem exLampGood_good {cfg : BuildCfg Unit} {e : Epoch} (h : exLampGood cfg e = true) {i j : ℤ} (hi : 8 ≤ i)
    (hi' : i ≤ 20) (hj : 8 ≤ j) (hj' : j ≤ 20) : GoodPixel cfg e i j := by
  unfold exLampGood at h
  split at h
  · rename_i x0 y0 w b h1 h2 h3 h4
    rw [List.all_eq_true] at h
    have := h (i - 8).toNat (List.mem_range.2 (by omega))
    rw [List.all_eq_true] at this
    have := this (j - 8).toNat (List.mem_range.2 (by omega))
    rw [show (8 : ℤ) + ((i - 8).toNat : ℤ) = i by omega, show (8 : ℤ) + ((j - 8).toNat : ℤ) = j by omega,
      Bool.and_eq_true, Bool.and_eq_true, decide_eq_true_iff, decide_eq_true_iff, decide_eq_true_iff] at this
    obtain ⟨⟨⟨a1, a2, a3, a4⟩, a5⟩, a6⟩ := this
    refine ⟨x0, y0, w, b, h1, h2, h3, h4, (i - y0).toNat, (j - x0).toNat, by omega, by omega, by omega, by omega,
      a5, ?_⟩
    rintro ⟨k, _, k1, k2⟩
    have := congrArg (BitVec.getLsbD · k) a6
    simp [k1] at this
    simp [this] at k2
  · cases h

/-- Whether the used epochs are good. -/
def exLampGoods : Option (List Bool) :=
  match buildSliceInputs exExt (cfgFor exLampTile exLampRow none) [exLampSrc, exLampSrc] 7 with
  | .ok inp => some (inp.slices.map fun e => exLampGood (cfgFor exLampTile exLampRow none) e)
  | .error _ => none

theorem exLampGoods_eq : exLampGoods = some [true, true] := by decide +kernel

/-- The slice is computed without an error. -/
theorem exLamp_ok : (match coaddSingleSlice exLampTile 0 7 with | .ok _ => true | _ => false) = true := by
  decide +kernel

/-- C151: an epoch of the slice meets the hypothesis. -/
theorem exLamp_along (e : Epoch) (he : e.src = exLampSrc) (hg : exLampGood (cfgFor exLampTile exLampRow none) e = true) :
    SourceAlong (ShowsSource (cfgFor exLampTile exLampRow none) exLampRow 8 e) 1 0 3 6 (3 / 8) := by
  have s1 : exLampRow.origStartCol = 0 := exRow0_start.2.1
  have s2 : exLampRow.origStartRow = 0 := exRow0_start.2.2
  refine ⟨exLamp, 12, 12, 10, 10, ⟨⟨fun x y => some (x + 10, y + 10), fun _ _ => 2, fun _ _ => 2⟩,
    ⟨30, 30, fun r c => r + stampValue exLamp 12 12 r c / 3⟩, ⟨30, 30, fun r _ => r⟩, by rw [he]; rfl, by rw [he]; rfl,
    by rw [he]; rfl, ⟨fun _ _ _ _ => rfl, ⟨2, by norm_num, fun _ _ _ _ => rfl, fun _ _ _ _ => rfl⟩, ?_, ?_, ?_, ?_⟩, ?_⟩, ?_,
    by decide +kernel, by decide +kernel, by decide +kernel⟩
  · rw [s1]; norm_num
  · rw [s1]; show ((12 : ℤ) : ℚ) + ((3 : Nat) : ℚ) + 2 < 0 + 10 + ((8 : Nat) : ℚ); norm_num
  · rw [s2]; norm_num
  · rw [s2]; show ((12 : ℤ) : ℚ) + ((3 : Nat) : ℚ) + 2 < 0 + 10 + ((8 : Nat) : ℚ); norm_num
  · intro i j i1 i2 j1 j2
    rw [s2] at i1 i2
    rw [s1] at j1 j2
    have i1' : (7 : ℚ) < i := by linarith
    have i2' : (i : ℚ) < 21 := by push_cast at i2; linarith
    have j1' : (7 : ℚ) < j := by linarith
    have j2' : (j : ℚ) < 21 := by push_cast at j2; linarith
    norm_cast at i1' i2' j1' j2'
    refine ⟨exLampGood_good hg (by omega) (by omega) (by omega) (by omega), ?_⟩
    obtain ⟨i, rfl⟩ := Int.eq_ofNat_of_zero_le (show 0 ≤ i by omega)
    obtain ⟨j, rfl⟩ := Int.eq_ofNat_of_zero_le (show 0 ≤ j by omega)
    rw [he]
    simp only [calibrated, Int.toNat_natCast]
    show (_ - _) * (3 : ℚ) = _
    ring
  · intro i _ j _
    show (0 : ℚ) ≤ if i = 1 ∧ j = 1 then 3 else 3 / 8
    split_ifs <;> norm_num

/-- C151: the flux and the position of the lamp on the slice. -/
example : ∃ r p, ∃ f : Nat → Nat → ℚ, coaddSingleSlice exLampTile 0 7 = .ok r ∧ r.pix = some p ∧
    (∀ y < 8, ∀ x < 8, p.image[y * 8 + x]? = some (.fin (f y x))) ∧
    |(∑ y ∈ Finset.range 8, ∑ x ∈ Finset.range 8, f y x) - 6| ≤ (0.07 : ℚ) ∧
    |∑ y ∈ Finset.range 8, ∑ x ∈ Finset.range 8, f y x * ((x : ℚ) - 3)| ≤ 6 * (0.027 : ℚ) := by
  have hok : ∃ r, coaddSingleSlice exLampTile 0 7 = .ok r := by
    have h := exLamp_ok
    split at h
    · exact ⟨_, by assumption⟩
    · cases h
  obtain ⟨r, hr⟩ := hok
  obtain ⟨row, lay, gaia, cfg, inp, h1, h2, h3, h4, h5, h6⟩ :=
    C151_flux_and_position exLampTile 8 3 exLamp_sound sincVal sincPade_eq 0 7 r hr
  have hrow : row = exLampRow := (Option.some.inj h1).symm
  subst hrow
  have hg : gaia = none := by
    cases h3 with
    | none => rfl
    | some _ _ _ _ _ h => cases h
  subst hg
  have hcfg := h4.eq
  rw [hcfg] at h5 h6
  have hx := exLamp_sound.sane (List.mem_of_getElem? h1) none exLampRow.ra exLampRow.dec lay.raPsf lay.decPsf
  have hsrc : ∀ e ∈ inp.slices, e.src = exLampSrc := fun e he => exLamp_srcs (used_epoch _ _ _ _ _ hx h5 e he).1
  have hgood : inp.slices.map (exLampGood (cfgFor exLampTile exLampRow none)) = [true, true] := by
    have h := exLampGoods_eq
    unfold exLampGoods at h
    have h7 : buildSliceInputs exExt (cfgFor exLampTile exLampRow none) [exLampSrc, exLampSrc] 7 = .ok inp := h5
    rw [h7] at h
    exact Option.some.inj h
  have hne : inp.slices ≠ [] := by
    intro h0
    rw [h0] at hgood
    cases hgood
  obtain ⟨p, f, p1, p2, p3⟩ := h6 hne
  have key := p3 1 0 3 6 (3 / 8) fun e he => exLamp_along e (hsrc e he) (by
    have : exLampGood (cfgFor exLampTile exLampRow none) e ∈ [true, true] := by
      rw [← hgood]; exact List.mem_map.2 ⟨e, he, rfl⟩
    simpa using this)
  refine ⟨r, p, f, hr, p1, p2, key.1.trans (by norm_num), ?_⟩
  have := key.2
  rw [show exLampRow.origStartCol = 0 from exRow0_start.2.1, show exLampRow.origStartRow = 0 from exRow0_start.2.2] at this
  simp only [one_mul, zero_mul, add_zero, abs_one, abs_zero] at this
  exact this.trans (by norm_num)

end Pizza
