import Mathlib.Probability.Distributions.Uniform
import Mathlib.Probability.ProbabilityMassFunction.Integrals
import Verif.Props.NoiseCovariance
import Verif.Props.LinearExamples

/-!
A case that meets the hypotheses of C147.
-/

namespace Pizza

open MeasureTheory ProbabilityTheory

def exSign (b : Bool) : ℚ := if b then 1 else -1

/-- The SE image with the sign of its pixels drawn, and with noise fields that are its pixels with a sign drawn on its own. -/
def exSigned (ω : Bool × Bool) (s : Src) : Src :=
  { s with reads := { s.reads with
      image := s.reads.image.map fun a => ⟨a.nrow, a.ncol, fun r c => exSign ω.1 * a.px r c⟩
      bkg := s.reads.bkg.map fun a => ⟨a.nrow, a.ncol, fun r c => exSign ω.1 * a.px r c⟩
      noises :=
        match s.reads.noises, s.reads.image, s.reads.bkg with
        | .ok l, .ok im, .ok bkg => .ok (l.map fun a => ⟨a.nrow, a.ncol, fun r c => exSign ω.2 * calibrated s im bkg r c⟩)
        | x, _, _ => x } }

def exSigns (ω : Bool × Bool) (ra dec raPsf decPsf : ℚ) : List Src :=
  (exLinEnv.sources ra dec raPsf decPsf).map (exSigned ω)

theorem exSigned_reads (ω : Bool × Bool) {ra dec raPsf decPsf : ℚ} {s : Src} (hs : s ∈ exLinEnv.sources ra dec raPsf decPsf) :
    ∃ im bkg ns, s.reads.image = .ok im ∧ s.reads.bkg = .ok bkg ∧ s.reads.noises = .ok ns ∧
      (exSigned ω s).reads.image = .ok ⟨im.nrow, im.ncol, fun r c => exSign ω.1 * im.px r c⟩ ∧
      (exSigned ω s).reads.bkg = .ok ⟨bkg.nrow, bkg.ncol, fun r c => exSign ω.1 * bkg.px r c⟩ ∧
      (exSigned ω s).reads.noises = .ok (ns.map fun a =>
        ⟨a.nrow, a.ncol, fun r c => exSign ω.2 * calibrated s im bkg r c⟩) := by
  obtain ⟨im, bkg, ns, h1, h2, h3⟩ := exLin_reads hs
  refine ⟨im, bkg, ns, h1, h2, h3, ?_, ?_, ?_⟩ <;> unfold exSigned <;> simp only [h1, h2, h3] <;> rfl

theorem exSigns_other (ω : Bool × Bool) (ra dec raPsf decPsf : ℚ) :
    List.Forall₂ OtherPixels (exLinEnv.sources ra dec raPsf decPsf) (exSigns ω ra dec raPsf decPsf) := by
  unfold exSigns
  rw [List.forall₂_map_right_iff, List.forall₂_same]
  exact fun _ _ => rfl

theorem exSigns_sound (ω : Bool × Bool) : SoundEnv { exLinEnv with sources := exSigns ω } 3 3 := by
  have h := exLin_sound
  refine ⟨h.boxPos, h.psfOdd, h.rows, h.frac, ?_, ?_, ?_, h.keeps, h.fwhm⟩
  · intro ra dec raPsf decPsf s hs
    obtain ⟨t, t1, rfl⟩ := List.mem_map.1 hs
    obtain ⟨w1, w2, w3, w4⟩ := h.shape _ _ _ _ t t1
    obtain ⟨im, bkg, ns, e1, e2, e3, e4, e5, e6⟩ := exSigned_reads ω t1
    refine ⟨fun a ha => ?_, w2, w3, fun l hl a ha => ?_⟩
    · cases e4.symm.trans ha
      exact w1 im e1
    · cases e6.symm.trans hl
      obtain ⟨b, b2, rfl⟩ := List.mem_map.1 ha
      exact w4 ns e3 b b2
  · intro ra dec raPsf decPsf s hs l hl
    obtain ⟨t, t1, rfl⟩ := List.mem_map.1 hs
    obtain ⟨im, bkg, ns, e1, e2, e3, e4, e5, e6⟩ := exSigned_reads ω t1
    cases e6.symm.trans hl
    rw [List.length_map]
    exact h.noises _ _ _ _ t t1 ns e3
  · intro ra dec raPsf decPsf s hs im him
    obtain ⟨t, t1, rfl⟩ := List.mem_map.1 hs
    exact h.psf _ _ _ _ t t1 im him

/-- The images with the given ids are used and there are pixels. -/
def exUses (ids : List ℤ) (r : Except Err (SliceRes Flt EpochRow)) : Bool :=
  match r with
  | .ok r => decide ((usedWeights r).map Prod.fst = ids) && r.pix.isSome
  | .error _ => false

theorem exUses_ok {ids : List ℤ} {x : Except Err (SliceRes Flt EpochRow)} (h : exUses ids x = true) :
    ∃ r p, x = .ok r ∧ r.pix = some p ∧ (usedWeights r).map Prod.fst = ids := by
  cases x with
  | error e => cases h
  | ok r =>
    simp only [exUses, Bool.and_eq_true, decide_eq_true_eq] at h
    obtain ⟨p, hp⟩ := Option.isSome_iff_exists.1 h.2
    exact ⟨r, p, rfl, hp, h.1⟩

theorem exSigns_run1 : exUses [0, 1] (coaddSingleSlice { exLinEnv with sources := exSigns (true, true) } 3 8) = true := by
  decide +kernel

theorem exSigns_run2 : exUses [0, 1] (coaddSingleSlice { exLinEnv with sources := exSigns (true, false) } 3 8) = true := by
  decide +kernel

theorem exSigns_run3 : exUses [0, 1] (coaddSingleSlice { exLinEnv with sources := exSigns (false, true) } 3 8) = true := by
  decide +kernel

theorem exSigns_run4 : exUses [0, 1] (coaddSingleSlice { exLinEnv with sources := exSigns (false, false) } 3 8) = true := by
  decide +kernel

theorem exSigns_run : ∀ ω : Bool × Bool,
    exUses [0, 1] (coaddSingleSlice { exLinEnv with sources := exSigns ω } 3 8) = true
  | (true, true) => exSigns_run1
  | (true, false) => exSigns_run2
  | (false, true) => exSigns_run3
  | (false, false) => exSigns_run4

/-- The random slice. -/
theorem exSigns_random : ∃ (f : ℤ × Nat × Nat → ℚ) (Z : Option Nat → Nat → Nat → Bool × Bool → ℚ),
    (∃ q, SEPixel exLinEnv 3 q ∧ f q ≠ 0) ∧
    RandomSlice exLinEnv 3 3 3 [0, 1] (fun a q ω => (if a = none then exSign ω.1 else exSign ω.2) * f q) Z := by
  obtain ⟨F, W, hF, -, hrun⟩ := C126_map exLin_sound rfl exLin_unflagged exLin_ids 3
  obtain ⟨r0, p0, a1, a2, -⟩ := pixelsOf_some exLin_one.2
  obtain ⟨-, l0, ⟨row, lay, hrow, hlay, rfl⟩, -⟩ := hrun exLinEnv.sources
    (fun _ _ _ _ => List.forall₂_same.2 fun _ _ => rfl) exLin_sound 8 r0 p0 a1 a2
  obtain ⟨f, hf⟩ := imagePlanes_exist (exLin_ids row.ra row.dec lay.raPsf lay.decPsf)
  let X : Option Nat → ℤ × Nat × Nat → Bool × Bool → ℚ := fun a q ω =>
    (if a = none then exSign ω.1 else exSign ω.2) * f q.1 q.2.1 q.2.2
  refine ⟨fun q => f q.1 q.2.1 q.2.2, fun a y x ω => F [0, 1] (fun id r c => X a (id, r, c) ω) y x, ?_, ⟨fun ω => ?_⟩⟩
  · refine ⟨(0, 2, 1), ⟨_, ⟨row, lay, hrow, hlay, rfl⟩, _, List.mem_cons_self .., rfl, (by show 2 < 24; norm_num), (by show 1 < 24; norm_num)⟩, ?_⟩
    obtain ⟨im, bkg, ns, e1, e2, e3⟩ := exLin_reads (List.mem_cons_self .. :
      _ ∈ exLinEnv.sources row.ra row.dec lay.raPsf lay.decPsf)
    have := hf _ (List.mem_cons_self ..) im bkg e1 e2 2 (by show 2 < 24; norm_num) 1 (by show 1 < 24; norm_num)
    cases e1
    cases e2
    refine (this.trans_ne ?_ :)
    show (((2 : ℕ) : ℚ) * ((1 : ℕ) : ℚ) - 1) * 2 ≠ 0
    norm_num
  · obtain ⟨r, p, b1, b2, c2⟩ := exUses_ok (exSigns_run ω)
    obtain ⟨-, l, hl, him, hns⟩ := hrun _ (exSigns_other ω) (exSigns_sound ω) 8 r p b1 b2
    rw [c2] at him hns
    have hpl : SEPlanes { exLinEnv with sources := exSigns ω } 3 (fun a q => X a q ω) := by
      rintro l' ⟨row', lay', h1, h2, rfl⟩
      cases hrow.symm.trans h1
      cases hlay.symm.trans h2
      constructor
      · intro s hs im' bkg' h1 h2 r hr c hc
        obtain ⟨t, t1, rfl⟩ := List.mem_map.1 hs
        obtain ⟨im, bkg, ns, e1, e2, e3, e4, e5, e6⟩ := exSigned_reads ω t1
        cases e4.symm.trans h1
        cases e5.symm.trans h2
        have := hf t t1 im bkg e1 e2 r hr c hc
        show exSign ω.1 * f t.imageId r c = (exSign ω.1 * im.px r c - exSign ω.1 * bkg.px r c) * t.scale
        rw [this]
        unfold calibrated
        ring
      · intro k hk s hs ns' a h1 h2 r hr c hc
        obtain ⟨t, t1, rfl⟩ := List.mem_map.1 hs
        obtain ⟨im, bkg, ns, e1, e2, e3, e4, e5, e6⟩ := exSigned_reads ω t1
        cases e6.symm.trans h1
        rw [List.getElem?_map] at h2
        obtain ⟨b, -, rfl⟩ := Option.map_eq_some_iff.1 h2
        have := hf t t1 im bkg e1 e2 r hr c hc
        show exSign ω.2 * f t.imageId r c = exSign ω.2 * calibrated t im bkg r c
        rw [this]
    refine ⟨exSigns ω, 8, r, p, exSigns_other ω, exSigns_sound ω, b1, b2, c2, hpl, him _ (hpl l hl).1, fun k hk => ?_⟩
    obtain ⟨q, q1, q2⟩ := hns k hk
    exact ⟨q, q1, q2 _ ((hpl l hl).2 k hk)⟩

theorem exSign_integral (g : Bool × Bool → ℝ) : ∫ ω, g ω ∂(PMF.uniformOfFintype (Bool × Bool)).toMeasure =
    (g (true, true) + g (true, false) + g (false, true) + g (false, false)) / 4 := by
  rw [PMF.integral_eq_sum]
  simp [Fintype.sum_prod_type]
  ring

/-- C147: two signs drawn with a coin; the pixels of the SE images, with one sign for the images and one for the noise fields,
have the same covariances and are uncorrelated with each other, and so are the pixels of the slice. -/
example : ∃ (f : ℤ × Nat × Nat → ℚ) (Z : Option Nat → Nat → Nat → Bool × Bool → ℚ),
    (∃ q, SEPixel exLinEnv 3 q ∧ f q ≠ 0) ∧
    RandomSlice exLinEnv 3 3 3 [0, 1] (fun a q ω => (if a = none then exSign ω.1 else exSign ω.2) * f q) Z ∧
    ∀ y < 3, ∀ x < 3, ∀ y' < 3, ∀ x' < 3,
      cov[fun ω => (Z none y x ω : ℝ), fun ω => (Z none y' x' ω : ℝ); (PMF.uniformOfFintype (Bool × Bool)).toMeasure] =
        cov[fun ω => (Z (some 0) y x ω : ℝ), fun ω => (Z (some 0) y' x' ω : ℝ);
          (PMF.uniformOfFintype (Bool × Bool)).toMeasure] ∧
      cov[fun ω => (Z none y x ω : ℝ), fun ω => (Z (some 0) y' x' ω : ℝ);
          (PMF.uniformOfFintype (Bool × Bool)).toMeasure] = 0 ∧
      ∫ ω, (Z (some 0) y x ω : ℝ) ∂(PMF.uniformOfFintype (Bool × Bool)).toMeasure = 0 := by
  obtain ⟨f, Z, hne, h⟩ := exSigns_random
  have p0 : IsPlane (exLinEnv.nExtra + 1) none := fun k hk => by cases hk
  have p1 : IsPlane (exLinEnv.nExtra + 1) (some 0) := fun k hk => by cases hk; exact Nat.succ_pos _
  have hL : ∀ g : Bool × Bool → ℝ, MemLp g 2 (PMF.uniformOfFintype (Bool × Bool)).toMeasure := fun g => MemLp.of_discrete
  refine ⟨f, Z, hne, h, fun y hy x hx y' hy' x' hx' => ⟨?_, ?_, ?_⟩⟩
  · refine C147_covariance exLin_sound rfl exLin_unflagged exLin_ids exLinExt_linear h _ (fun _ _ _ _ => hL _) p0 p0 p1 p1
      (fun q q' _ _ => ?_) y hy x hx y' hy' x' hx'
    simp only [covariance, exSign_integral]
    simp [exSign]
  · refine C147_uncorrelated exLin_sound rfl exLin_unflagged exLin_ids exLinExt_linear h _ (fun _ _ _ _ => hL _) p0 p1
      (fun q q' _ _ => ?_) y hy x hx y' hy' x' hx'
    simp only [covariance, exSign_integral]
    simp [exSign]
  · refine (C147_mean exLin_sound rfl exLin_unflagged exLin_ids exLinExt_linear h _ p1 p1
      (fun q _ => (hL _).integrable (by norm_num)) (fun q _ => (hL _).integrable (by norm_num))).1 (fun q _ => ?_) y hy x hx
    rw [exSign_integral]
    simp [exSign]

end Pizza
