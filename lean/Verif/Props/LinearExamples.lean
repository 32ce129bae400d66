import Verif.Props.Linear
import Verif.Props.MoreMaskedExamples

/-!
Cases that meet the hypotheses of C126.
-/

namespace Pizza

/-- Masked pixels get the value of the first good one. -/
def exLinExt : Ext Unit Nat := { exExt with interp := fun _ vals => .ok fun _ => vals.getD 0 0 }

theorem exLinExt_linear : exLinExt.LinearInterp := by
  intro pts
  refine ⟨{ toFun := fun f _ => f 0, map_add' := fun _ _ => rfl, map_smul' := fun _ _ => rfl }, fun vals f _ h => ?_⟩
  cases h
  rfl

/-- A tile of two SE images with masked pixels. -/
def exLinEnv : SliceEnv Unit Nat Unit := { freshEnv exSkyWorld exSkyTile with ext := exLinExt }

/-- The SE image with its pixels times `α` plus `β` times others. -/
def exMix (α β : ℚ) (s : Src) : Src :=
  { s with reads := { s.reads with
      image := s.reads.image.map fun a => ⟨a.nrow, a.ncol, fun r c => α * a.px r c + β * (r + 2 * c)⟩
      bkg := s.reads.bkg.map fun a => ⟨a.nrow, a.ncol, fun r c => α * a.px r c + β * c⟩
      noises := s.reads.noises.map fun l => l.map fun a => ⟨a.nrow, a.ncol, fun r c => α * a.px r c + β * (r * c)⟩ } }

/-- The SE image with its first noise field replaced by the calibrated image. -/
def exCopied (s : Src) : Src :=
  { s with reads := { s.reads with noises :=
      match s.reads.noises, s.reads.image, s.reads.bkg with
      | .ok l, .ok im, .ok bkg => .ok (l.map fun a => ⟨a.nrow, a.ncol, calibrated s im bkg⟩)
      | x, _, _ => x } }

def exMixed (α β : ℚ) (ra dec raPsf decPsf : ℚ) : List Src := (exLinEnv.sources ra dec raPsf decPsf).map (exMix α β)

def exCopy (ra dec raPsf decPsf : ℚ) : List Src := (exLinEnv.sources ra dec raPsf decPsf).map exCopied

theorem exMix_other (α β : ℚ) (ra dec raPsf decPsf : ℚ) :
    List.Forall₂ OtherPixels (exLinEnv.sources ra dec raPsf decPsf) (exMixed α β ra dec raPsf decPsf) := by
  unfold exMixed
  rw [List.forall₂_map_right_iff, List.forall₂_same]
  exact fun _ _ => rfl

theorem exLin_sound : SoundEnv exLinEnv 3 3 := by
  have h := exSky_sound exObjects 3 (by norm_num) { exCfg with fracBuffer := 4 } (by show (1 : ℚ) ≤ 4; norm_num)
    (C93_boxes 1 1 4 3 3 _ _ 0 _ (by norm_num) exObjects_eq)
  exact ⟨h.boxPos, h.psfOdd, h.rows, h.frac, h.shape, h.noises, h.psf, h.keeps, h.fwhm⟩

theorem exMix_sound (α β : ℚ) : SoundEnv { exLinEnv with sources := exMixed α β } 3 3 := by
  have h := exLin_sound
  refine ⟨h.boxPos, h.psfOdd, h.rows, h.frac, ?_, ?_, ?_, h.keeps, h.fwhm⟩
  · intro ra dec raPsf decPsf s hs
    obtain ⟨t, t1, rfl⟩ := List.mem_map.1 hs
    obtain ⟨w1, w2, w3, w4⟩ := h.shape _ _ _ _ t t1
    refine ⟨fun a ha => ?_, w2, w3, fun l hl a ha => ?_⟩
    · obtain ⟨b, b1, rfl⟩ := map_eq_ok ha
      exact w1 b b1
    · obtain ⟨l', b1, rfl⟩ := map_eq_ok hl
      obtain ⟨b, b2, rfl⟩ := List.mem_map.1 ha
      exact w4 l' b1 b b2
  · intro ra dec raPsf decPsf s hs l hl
    obtain ⟨t, t1, rfl⟩ := List.mem_map.1 hs
    obtain ⟨l', b1, rfl⟩ := map_eq_ok hl
    rw [List.length_map]
    exact h.noises _ _ _ _ t t1 l' b1
  · intro ra dec raPsf decPsf s hs im him
    obtain ⟨t, t1, rfl⟩ := List.mem_map.1 hs
    exact h.psf _ _ _ _ t t1 im him

theorem exLin_unflagged : ∀ ra dec raPsf decPsf, ∀ s ∈ exLinEnv.sources ra dec raPsf decPsf, ∀ bm, s.reads.bmask = .ok bm →
    Unflagged exLinEnv.cfg.noiseFlags bm := by
  intro ra dec raPsf decPsf s hs bm hb
  obtain ⟨e, he, rfl⟩ := List.mem_map.1 hs
  refine exSky_unflagged e he bm ?_
  rcases exBumps_entries he with rfl | rfl <;> exact hb

theorem exLin_ids : ∀ ra dec raPsf decPsf, ((exLinEnv.sources ra dec raPsf decPsf).map (·.imageId)).Nodup := by
  intro ra dec raPsf decPsf
  have : (exLinEnv.sources ra dec raPsf decPsf).map (·.imageId) = [0, 1] := rfl
  rw [this]
  decide

theorem exLin_one : usedIn (coaddSingleSlice exLinEnv 3 8) = some [0, 1] ∧
    (pixelsOf (coaddSingleSlice exLinEnv 3 8)).isSome = true := by
  constructor <;> decide +kernel

theorem exLin_two : usedIn (coaddSingleSlice { exLinEnv with sources := exMixed 0 1 } 3 7) = some [0, 1] ∧
    (pixelsOf (coaddSingleSlice { exLinEnv with sources := exMixed 0 1 } 3 7)).isSome = true := by
  constructor <;> decide +kernel

theorem exLin_three : usedIn (coaddSingleSlice { exLinEnv with sources := exMixed 2 (-3) } 3 9) = some [0, 1] ∧
    (pixelsOf (coaddSingleSlice { exLinEnv with sources := exMixed 2 (-3) } 3 9)).isSome = true := by
  constructor <;> decide +kernel

theorem exLin_differ :
    pixelsOf (coaddSingleSlice exLinEnv 3 8) ≠ pixelsOf (coaddSingleSlice { exLinEnv with sources := exMixed 0 1 } 3 7) := by
  decide +kernel

theorem exLin_reads {ra dec raPsf decPsf : ℚ} {s : Src} (hs : s ∈ exLinEnv.sources ra dec raPsf decPsf) :
    ∃ im bkg ns, s.reads.image = .ok im ∧ s.reads.bkg = .ok bkg ∧ s.reads.noises = .ok ns := by
  obtain ⟨e, he, rfl⟩ := List.mem_map.1 hs
  rcases exBumps_entries he with rfl | rfl <;> exact ⟨_, _, _, rfl, rfl, rfl⟩

theorem exMix_sum (α β : ℚ) {ra dec raPsf decPsf : ℚ} {s : Src} (hs : s ∈ exLinEnv.sources ra dec raPsf decPsf) :
    SumOf α β s (exMix 0 1 s) (exMix α β s) := by
  obtain ⟨im, bkg, ns, h1, h2, h3⟩ := exLin_reads hs
  constructor
  · refine ⟨im, bkg, _, _, _, _, h1, h2, by unfold exMix; simp only [h1]; rfl, by unfold exMix; simp only [h2]; rfl,
      by unfold exMix; simp only [h1]; rfl, by unfold exMix; simp only [h2]; rfl, fun r _ c _ => ?_⟩
    unfold calibrated exMix
    ring
  · refine ⟨ns, _, _, h3, by unfold exMix; simp only [h3]; rfl, by unfold exMix; simp only [h3]; rfl, ?_⟩
    intro k a1 a2 a3 e1 e2 e3 r _ c _
    rw [List.getElem?_map, e1] at e2 e3
    cases e2
    cases e3
    ring

/-- C126_superpose: the fluxes of the third set of SE images are twice those of the first less three times those of the second. -/
example : ∃ r1 r2 r3 p1 p2 p3, SoundEnv exLinEnv 3 3 ∧ exLinEnv.cfg.rejectOutliers = false ∧
    (∀ ra dec raPsf decPsf, ∀ s ∈ exLinEnv.sources ra dec raPsf decPsf, ∀ bm, s.reads.bmask = .ok bm →
      Unflagged exLinEnv.cfg.noiseFlags bm) ∧
    (∀ ra dec raPsf decPsf, ((exLinEnv.sources ra dec raPsf decPsf).map (·.imageId)).Nodup) ∧
    exLinEnv.ext.LinearInterp ∧
    (∀ ra dec raPsf decPsf, List.Forall₂ OtherPixels (exLinEnv.sources ra dec raPsf decPsf) (exMixed 0 1 ra dec raPsf decPsf)) ∧
    (∀ ra dec raPsf decPsf, List.Forall₂ OtherPixels (exLinEnv.sources ra dec raPsf decPsf)
      (exMixed 2 (-3) ra dec raPsf decPsf)) ∧
    SoundEnv { exLinEnv with sources := exMixed 0 1 } 3 3 ∧ SoundEnv { exLinEnv with sources := exMixed 2 (-3) } 3 3 ∧
    (∀ ra dec raPsf decPsf, ∀ s1 ∈ exLinEnv.sources ra dec raPsf decPsf, ∀ s2 ∈ exMixed 0 1 ra dec raPsf decPsf,
      ∀ s3 ∈ exMixed 2 (-3) ra dec raPsf decPsf, s2.imageId = s1.imageId → s3.imageId = s1.imageId →
        SumOf 2 (-3) s1 s2 s3) ∧
    coaddSingleSlice exLinEnv 3 8 = .ok r1 ∧ coaddSingleSlice { exLinEnv with sources := exMixed 0 1 } 3 7 = .ok r2 ∧
    coaddSingleSlice { exLinEnv with sources := exMixed 2 (-3) } 3 9 = .ok r3 ∧
    (usedWeights r2).map Prod.fst = (usedWeights r1).map Prod.fst ∧
    (usedWeights r3).map Prod.fst = (usedWeights r1).map Prod.fst ∧ r1.pix = some p1 ∧ r2.pix = some p2 ∧
    r3.pix = some p3 ∧ p1.image ≠ p2.image ∧ SumOfLists 9 2 (-3) p1.image p2.image p3.image := by
  obtain ⟨r1, p1, a1, a2, a3⟩ := pixelsOf_some exLin_one.2
  obtain ⟨r2, p2, b1, b2, b3⟩ := pixelsOf_some exLin_two.2
  obtain ⟨r3, p3, c1, c2, -⟩ := pixelsOf_some exLin_three.2
  obtain ⟨r1', d1, d2⟩ := usedIn_ok exLin_one.1
  obtain ⟨r2', e1, e2⟩ := usedIn_ok exLin_two.1
  obtain ⟨r3', f1, f2⟩ := usedIn_ok exLin_three.1
  cases a1.symm.trans d1
  cases b1.symm.trans e1
  cases c1.symm.trans f1
  have hs : ∀ ra dec raPsf decPsf, ∀ s1 ∈ exLinEnv.sources ra dec raPsf decPsf, ∀ s2 ∈ exMixed 0 1 ra dec raPsf decPsf,
      ∀ s3 ∈ exMixed 2 (-3) ra dec raPsf decPsf, s2.imageId = s1.imageId → s3.imageId = s1.imageId →
        SumOf 2 (-3) s1 s2 s3 := by
    intro ra dec raPsf decPsf s1 h1 s2 h2 s3 h3 i2 i3
    obtain ⟨t2, g2, rfl⟩ := List.mem_map.1 h2
    obtain ⟨t3, g3, rfl⟩ := List.mem_map.1 h3
    have k2 : t2 = s1 := List.inj_on_of_nodup_map (exLin_ids ra dec raPsf decPsf) g2 h1 i2
    have k3 : t3 = s1 := List.inj_on_of_nodup_map (exLin_ids ra dec raPsf decPsf) g3 h1 i3
    subst k2
    subst k3
    exact exMix_sum 2 (-3) h1
  refine ⟨r1, r2, r3, p1, p2, p3, exLin_sound, rfl, exLin_unflagged, exLin_ids, exLinExt_linear, exMix_other 0 1,
    exMix_other 2 (-3), exMix_sound 0 1, exMix_sound 2 (-3), hs, a1, b1, c1, e2.trans d2.symm, f2.trans d2.symm, a2, b2, c2,
    fun h => exLin_differ ?_, ?_⟩
  · rw [a3, b3, h]
  · exact (C126_superpose exLin_sound rfl exLin_unflagged exLin_ids exLinExt_linear _ _ (exMix_other 0 1) (exMix_other 2 (-3))
      (exMix_sound 0 1) (exMix_sound 2 (-3)) hs a1 b1 c1 (e2.trans d2.symm) (f2.trans d2.symm) a2 b2 c2).1

/-- C126_map, C126_own_pixels, C126_same_used: two sets of SE images with other pixels, both used, with other images. -/
example : ∃ r r' p p', SoundEnv exLinEnv 3 3 ∧ exLinEnv.ext.RotatesMore ∧ exLinEnv.cfg.rejectOutliers = false ∧
    (∀ ra dec raPsf decPsf, ∀ s ∈ exLinEnv.sources ra dec raPsf decPsf, ∀ bm, s.reads.bmask = .ok bm →
      Unflagged exLinEnv.cfg.noiseFlags bm) ∧
    (∀ ra dec raPsf decPsf, ((exLinEnv.sources ra dec raPsf decPsf).map (·.imageId)).Nodup) ∧
    (∀ ra dec raPsf decPsf, List.Forall₂ OtherPixels (exLinEnv.sources ra dec raPsf decPsf) (exMixed 0 1 ra dec raPsf decPsf)) ∧
    SoundEnv { exLinEnv with sources := exMixed 0 1 } 3 3 ∧ coaddSingleSlice exLinEnv 3 8 = .ok r ∧
    coaddSingleSlice { exLinEnv with sources := exMixed 0 1 } 3 7 = .ok r' ∧
    (usedWeights r').map Prod.fst = (usedWeights r).map Prod.fst ∧ r.pix = some p ∧ r'.pix = some p' ∧
    p.image ≠ p'.image := by
  obtain ⟨r1, p1, a1, a2, a3⟩ := pixelsOf_some exLin_one.2
  obtain ⟨r2, p2, b1, b2, b3⟩ := pixelsOf_some exLin_two.2
  refine ⟨r1, r2, p1, p2, exLin_sound, exExt_rotates, rfl, exLin_unflagged, exLin_ids, exMix_other 0 1, exMix_sound 0 1, a1, b1,
    C126_same_used exLin_sound exExt_rotates rfl _ (exMix_other 0 1) (exMix_sound 0 1) a1 b1, a2, b2, fun h =>
      exLin_differ ?_⟩
  rw [a3, b3, h]

theorem exCopy_sound : SoundEnv { exLinEnv with sources := exCopy } 3 3 := by
  have h := exLin_sound
  have hn : ∀ ra dec raPsf decPsf, ∀ t ∈ exLinEnv.sources ra dec raPsf decPsf, ∀ l, (exCopied t).reads.noises = .ok l →
      ∃ l' im bkg, t.reads.noises = .ok l' ∧ l = l'.map fun a => ⟨a.nrow, a.ncol, calibrated t im bkg⟩ := by
    intro ra dec raPsf decPsf t ht l hl
    obtain ⟨im, bkg, ns, h1, h2, h3⟩ := exLin_reads ht
    unfold exCopied at hl
    simp only [h1, h2, h3] at hl
    cases hl
    exact ⟨ns, im, bkg, h3, rfl⟩
  refine ⟨h.boxPos, h.psfOdd, h.rows, h.frac, ?_, ?_, ?_, h.keeps, h.fwhm⟩
  · intro ra dec raPsf decPsf s hs
    obtain ⟨t, t1, rfl⟩ := List.mem_map.1 hs
    obtain ⟨w1, w2, w3, w4⟩ := h.shape _ _ _ _ t t1
    refine ⟨w1, w2, w3, fun l hl a ha => ?_⟩
    obtain ⟨l', im, bkg, b1, rfl⟩ := hn _ _ _ _ t t1 l hl
    obtain ⟨b, b2, rfl⟩ := List.mem_map.1 ha
    exact w4 l' b1 b b2
  · intro ra dec raPsf decPsf s hs l hl
    obtain ⟨t, t1, rfl⟩ := List.mem_map.1 hs
    obtain ⟨l', im, bkg, b1, rfl⟩ := hn _ _ _ _ t t1 l hl
    rw [List.length_map]
    exact h.noises _ _ _ _ t t1 l' b1
  · intro ra dec raPsf decPsf s hs im him
    obtain ⟨t, t1, rfl⟩ := List.mem_map.1 hs
    exact h.psf _ _ _ _ t t1 im him

theorem exCopy_run : (pixelsOf (coaddSingleSlice { exLinEnv with sources := exCopy } 3 8)).isSome = true := by decide +kernel

/-- C126_noise_as_image, C126_noises_alike: the calibrated images as noise fields. -/
example : ∃ r p, SoundEnv { exLinEnv with sources := exCopy } 3 3 ∧
    (∀ ra dec raPsf decPsf, ∀ s ∈ exCopy ra dec raPsf decPsf, ∀ bm, s.reads.bmask = .ok bm →
      Unflagged exLinEnv.cfg.noiseFlags bm) ∧
    (∀ ra dec raPsf decPsf, ((exCopy ra dec raPsf decPsf).map (·.imageId)).Nodup) ∧
    (∀ ra dec raPsf decPsf, ∀ s ∈ exCopy ra dec raPsf decPsf, ∀ ns (a : Img ℚ), s.reads.noises = .ok ns → ns[0]? = some a →
      ∃ im bkg, s.reads.image = .ok im ∧ s.reads.bkg = .ok bkg ∧ ∀ r < s.nrow, ∀ c < s.ncol,
        a.px r c = calibrated s im bkg r c) ∧
    coaddSingleSlice { exLinEnv with sources := exCopy } 3 8 = .ok r ∧ r.pix = some p := by
  obtain ⟨r, p, a1, a2, -⟩ := pixelsOf_some exCopy_run
  refine ⟨r, p, exCopy_sound, ?_, ?_, ?_, a1, a2⟩
  · intro ra dec raPsf decPsf s hs
    obtain ⟨t, t1, rfl⟩ := List.mem_map.1 hs
    exact exLin_unflagged _ _ _ _ t t1
  · intro ra dec raPsf decPsf
    have : (exCopy ra dec raPsf decPsf).map (·.imageId) = [0, 1] := rfl
    rw [this]
    decide
  · intro ra dec raPsf decPsf s hs ns a h1 h2
    obtain ⟨t, t1, rfl⟩ := List.mem_map.1 hs
    obtain ⟨im, bkg, ns', e1, e2, e3⟩ := exLin_reads t1
    refine ⟨im, bkg, e1, e2, fun r _ c _ => ?_⟩
    unfold exCopied at h1
    simp only [e1, e2, e3] at h1
    cases h1
    rw [List.getElem?_map] at h2
    cases hq : ns'[0]? with
    | none => rw [hq] at h2; cases h2
    | some b =>
      rw [hq] at h2
      cases h2
      rfl

end Pizza
