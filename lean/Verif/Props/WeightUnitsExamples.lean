import Verif.Props.LinearExamples
import Verif.Props.WeightUnits
import Verif.Props.ZeroPointExamples

/-!
A case that meets the hypotheses of C161.
-/

namespace Pizza

/-- The slices of `exLinEnv` with a square root that follows a change of units. -/
def exUnitsEnv : SliceEnv Unit Nat Unit := { exLinEnv with ext := { exLinExt with invSqrt := exInvSqrt } }

theorem exUnits_follows : exUnitsEnv.ext.Follows 2 where
  interp := by
    intro pts vals
    show Except.ok _ = Except.ok _
    congr 1
    funext p
    cases vals with
    | nil =>
      show (0 : ℚ) = 2 * 0
      norm_num
    | cons a l => rfl
  invSqrt := exInvSqrt_quarter
  outliers := exLinear_follows.outliers

theorem exUnits_sound : SoundEnv exUnitsEnv 3 3 := by
  have h := exLin_sound
  exact ⟨h.boxPos, h.psfOdd, h.rows, h.frac, h.shape, h.noises, h.psf, h.keeps, h.fwhm⟩

/-- The SE image with a quarter of the weight and twice the noise. -/
def exQuarter (s : Src) : Src :=
  { s with reads := { s.reads with
      weight := s.reads.weight.map (Img.map (1 / 2 ^ 2 * ·))
      noises := s.reads.noises.map (List.map (Img.map (2 * ·))) } }

def exQuarters (ra dec raPsf decPsf : ℚ) : List Src := (exUnitsEnv.sources ra dec raPsf decPsf).map exQuarter

theorem exUnits_reads {ra dec raPsf decPsf : ℚ} {s : Src} (hs : s ∈ exUnitsEnv.sources ra dec raPsf decPsf) :
    ∃ w ns, s.reads.weight = .ok w ∧ s.reads.noises = .ok ns := by
  obtain ⟨e, he, rfl⟩ := List.mem_map.1 hs
  rcases exBumps_entries he with rfl | rfl <;> exact ⟨_, _, rfl, rfl⟩

theorem exQuarter_over {s : Src} {w : Img ℚ} {ns : List (Img ℚ)} (h1 : s.reads.weight = .ok w) (h2 : s.reads.noises = .ok ns) :
    WeightsOver 2 s (exQuarter s) := by
  refine ⟨rfl, .inr ⟨w, w.map (1 / 2 ^ 2 * ·), h1, ?_, rfl, rfl, fun _ _ => rfl⟩,
    .inr ⟨ns, ns.map (Img.map (2 * ·)), h2, ?_, ?_⟩⟩
  · show s.reads.weight.map _ = _
    rw [h1]
    rfl
  · show s.reads.noises.map _ = _
    rw [h2]
    rfl
  · rw [List.forall₂_map_right_iff, List.forall₂_same]
    exact fun _ _ => ⟨rfl, rfl, fun _ _ => rfl⟩

theorem exQuarters_over (ra dec raPsf decPsf : ℚ) :
    List.Forall₂ (WeightsOver 2) (exUnitsEnv.sources ra dec raPsf decPsf) (exQuarters ra dec raPsf decPsf) := by
  unfold exQuarters
  rw [List.forall₂_map_right_iff, List.forall₂_same]
  intro s hs
  obtain ⟨w, ns, h1, h2⟩ := exUnits_reads hs
  exact exQuarter_over h1 h2

theorem exQuarters_sound : SoundEnv { exUnitsEnv with sources := exQuarters } 3 3 := by
  have h := exUnits_sound
  refine ⟨h.boxPos, h.psfOdd, h.rows, h.frac, ?_, ?_, ?_, h.keeps, h.fwhm⟩
  · intro a b c d s' hs'
    obtain ⟨s, hs, rfl⟩ := List.mem_map.1 hs'
    obtain ⟨w, ns, h1, h2⟩ := exUnits_reads hs
    obtain ⟨w1, w2, w3, w4⟩ := h.shape _ _ _ _ s hs
    refine ⟨w1, w2, fun l hl => ?_, fun l hl => ?_⟩
    · have : s.reads.weight.map (Img.map (1 / 2 ^ 2 * ·)) = .ok l := hl
      rw [h1] at this
      cases this
      exact w3 w h1
    · have : s.reads.noises.map (List.map (Img.map (2 * ·))) = .ok l := hl
      rw [h2] at this
      cases this
      intro a ha
      obtain ⟨b, hb, rfl⟩ := List.mem_map.1 ha
      exact w4 ns h2 b hb
  · intro a b c d s' hs' l hl
    obtain ⟨s, hs, rfl⟩ := List.mem_map.1 hs'
    obtain ⟨w, ns, h1, h2⟩ := exUnits_reads hs
    have : s.reads.noises.map (List.map (Img.map (2 * ·))) = .ok l := hl
    rw [h2] at this
    cases this
    rw [List.length_map]
    exact h.noises _ _ _ _ s hs ns h2
  · intro a b c d s' hs'
    obtain ⟨s, hs, rfl⟩ := List.mem_map.1 hs'
    exact h.psf _ _ _ _ s hs

theorem exUnits_one : usedIn (coaddSingleSlice exUnitsEnv 3 8) = some [0, 1] ∧
    (pixelsOf (coaddSingleSlice exUnitsEnv 3 8)).isSome = true := by
  constructor <;> decide +kernel

theorem exUnits_two : (pixelsOf (coaddSingleSlice { exUnitsEnv with sources := exQuarters } 3 7)).isSome = true := by
  decide +kernel

/-- C161_slice: two SE images, both used, with a quarter of the weights. -/
example : ∃ r r' p p', exUnitsEnv.ext.Follows 2 ∧ exUnitsEnv.ext.RotatesMore ∧ exUnitsEnv.ext.LinearInterp ∧
    coaddSingleSlice exUnitsEnv 3 8 = .ok r ∧ coaddSingleSlice { exUnitsEnv with sources := exQuarters } 3 7 = .ok r' ∧
    r.pix = some p ∧ r'.pix = some p' ∧ usedWeights r' = usedWeights r ∧ (usedWeights r).map Prod.fst = [0, 1] ∧
    p'.image = p.image := by
  obtain ⟨r1, p1, a1, a2, a3⟩ := pixelsOf_some exUnits_one.2
  obtain ⟨r2, p2, b1, b2, b3⟩ := pixelsOf_some exUnits_two
  have key := C161_slice (k := 2) (by norm_num) exUnits_sound exUnits_follows exExt_rotates exLinExt_linear rfl exLin_unflagged
    exLin_ids exQuarters exQuarters_over exQuarters_sound a1 b1 a2 b2
  have hu := exUnits_one.1
  rw [a1] at hu
  exact ⟨r1, r2, p1, p2, exUnits_follows, exExt_rotates, exLinExt_linear, a1, b1, a2, b2, key.1, Option.some.inj hu, key.2.1⟩

/-- The files of `exSkyWorld`, with noise from the weights. -/
def exWeightsWorld : ProcWorld Unit Nat Unit Unit :=
  { exSkyWorld with ext := { exLinExt with invSqrt := exInvSqrt }, memNoise := exNoiseWorld.memNoise }

/-- The same with a quarter of the weights. -/
def exFourthWorld : ProcWorld Unit Nat Unit Unit :=
  { exWeightsWorld with files := fun k =>
      if k.2 = ['w'] then .ok (.num ⟨24, 24, fun _ _ => if k.1 = ['a'] then 1 / 4 else 1 / 2⟩) else exWeightsWorld.files k }

theorem exFourthWorld_over : OtherWeights 2 exWeightsWorld exFourthWorld exSkyTile where
  world := rfl
  others := by
    intro e he
    rcases exBumps_entries he with rfl | rfl <;> exact ⟨rfl, rfl, rfl⟩
  weights := by
    intro e he
    rcases exBumps_entries he with rfl | rfl
    · refine ⟨by show (0 : ℚ) < 2; norm_num, .inr ⟨.num ⟨24, 24, fun _ _ => 1⟩, .num ⟨24, 24, fun _ _ => 1 / 4⟩, rfl, rfl, rfl, rfl,
        fun r c => ?_⟩⟩
      show (1 / 4 : ℚ) = 1 / 2 ^ 2 * 1
      norm_num
    · refine ⟨by show (0 : ℚ) < 2; norm_num, .inr ⟨.num ⟨24, 24, fun _ _ => 2⟩, .num ⟨24, 24, fun _ _ => 1 / 2⟩, rfl, rfl, rfl, rfl,
        fun r c => ?_⟩⟩
      show (1 / 2 : ℚ) = 1 / 2 ^ 2 * 2
      norm_num

theorem exWeightsWorld_noises {w : ProcWorld Unit Nat Unit Unit} (h : w = exWeightsWorld ∨ w = exFourthWorld)
    {ra dec raPsf decPsf : ℚ} {s : Src} (hs : s ∈ (freshEnv w exSkyTile).sources ra dec raPsf decPsf) :
    ∃ s0 ∈ exLinEnv.sources ra dec raPsf decPsf, s.nrow = s0.nrow ∧ s.ncol = s0.ncol ∧ s.nrow = 24 ∧ s.ncol = 24 ∧
      s.reads.image = s0.reads.image ∧ s.reads.bmask = s0.reads.bmask ∧ s.psfImage = s0.psfImage ∧
      ∃ wt n, s.reads.weight = .ok wt ∧ wt.nrow = 24 ∧ wt.ncol = 24 ∧ s.reads.noises = .ok [n] ∧ n.nrow = 24 ∧ n.ncol = 24 := by
  obtain ⟨e, he, rfl⟩ := List.mem_map.1 hs
  refine ⟨freshSrc exSkyWorld exSkyTile ra dec raPsf decPsf e, List.mem_map.2 ⟨e, he, rfl⟩, ?_⟩
  have one : ∃ wt n, (freshSrc exWeightsWorld exSkyTile ra dec raPsf decPsf e).reads.weight = .ok wt ∧ wt.nrow = 24 ∧ wt.ncol = 24 ∧
      (freshSrc exWeightsWorld exSkyTile ra dec raPsf decPsf e).reads.noises = .ok [n] ∧ n.nrow = 24 ∧ n.ncol = 24 := by
    rcases exBumps_entries he with rfl | rfl <;> refine ⟨_, _, rfl, ?_, ?_, rfl, ?_, ?_⟩ <;> rfl
  rcases h with rfl | rfl
  · refine ⟨?_, ?_, ?_, ?_, ?_, ?_, ?_, one⟩ <;> rcases exBumps_entries he with rfl | rfl <;> rfl
  · refine ⟨?_, ?_, ?_, ?_, ?_, ?_, ?_, ?_⟩
    rotate_right
    · obtain ⟨wt, n, f1, f2, f3, f4, f5, f6⟩ := one
      have o := freshSrc_over (k := 2) (w := exWeightsWorld) (by norm_num) exNoiseWorld_follows exFourthWorld_over he ra dec raPsf decPsf
      rcases o.weight with ⟨x, a1, -⟩ | ⟨a, a', a1, a2, a3⟩
      · rw [f1] at a1
        cases a1
      rcases o.noises with ⟨x, b1, -⟩ | ⟨b, b', b1, b2, b3⟩
      · rw [f4] at b1
        cases b1
      rw [f1] at a1
      rw [f4] at b1
      cases a1
      cases b1
      cases b3 with
      | cons c1 c2 =>
        cases c2
        exact ⟨a', _, a2, a3.1.trans f2, a3.2.1.trans f3, b2, c1.1.trans f5, c1.2.1.trans f6⟩
    all_goals rcases exBumps_entries he with rfl | rfl <;> rfl

theorem exWeightsWorld_sound {w : ProcWorld Unit Nat Unit Unit} (hw : w = exWeightsWorld ∨ w = exFourthWorld) :
    SoundEnv (freshEnv w exSkyTile) 3 3 := by
  have h := exUnits_sound
  have hx : w.ext = exUnitsEnv.ext := by rcases hw with rfl | rfl <;> rfl
  refine ⟨h.boxPos, h.psfOdd, h.rows, h.frac, ?_, ?_, ?_, ?_, ?_⟩
  · intro a b c d s hs
    obtain ⟨s0, m, e1, e2, e3, e4, e5, e6, e7, wt, n, f1, f2, f3, f4, f5, f6⟩ := exWeightsWorld_noises hw hs
    obtain ⟨w1, w2, -, -⟩ := h.shape _ _ _ _ s0 m
    refine ⟨fun x hx => ?_, fun x hx => ?_, fun x hx => ?_, fun l hl x hx => ?_⟩
    · rw [e1, e2]
      exact w1 x (by rw [← e5]; exact hx)
    · rw [e1, e2]
      exact w2 x (by rw [← e6]; exact hx)
    · rw [f1] at hx
      cases hx
      rw [e3, e4]
      exact ⟨f2, f3⟩
    · rw [f4] at hl
      cases hl
      cases List.mem_singleton.1 hx
      rw [e3, e4]
      exact ⟨f5, f6⟩
  · intro a b c d s hs l hl
    obtain ⟨s0, m, e1, e2, e3, e4, e5, e6, e7, wt, n, f1, f2, f3, f4, f5, f6⟩ := exWeightsWorld_noises hw hs
    rw [f4] at hl
    cases hl
    rfl
  · intro a b c d s hs im him
    obtain ⟨s0, m, e1, e2, e3, e4, e5, e6, e7, -⟩ := exWeightsWorld_noises hw hs
    rw [e7] at him
    exact h.psf _ _ _ _ s0 m im him
  · show w.ext.KeepsShape
    rw [hx]
    exact h.keeps
  · show ∀ im q, w.ext.fwhm im = .ok q → 0 < q
    rw [hx]
    exact h.fwhm

theorem exWeightsWorld_unflagged : ∀ ra dec raPsf decPsf, ∀ s ∈ (freshEnv exWeightsWorld exSkyTile).sources ra dec raPsf decPsf, ∀ bm,
    s.reads.bmask = .ok bm → Unflagged exSkyTile.cfg.noiseFlags bm := by
  intro a b c d s hs bm hb
  obtain ⟨s0, m, -, -, -, -, -, e6, -⟩ := exWeightsWorld_noises (.inl rfl) hs
  exact exLin_unflagged _ _ _ _ s0 m bm (by rw [← e6]; exact hb)

theorem exWeightsWorld_one : usedIn (coaddSingleSlice (freshEnv exWeightsWorld exSkyTile) 3 8) = some [0, 1] ∧
    (pixelsOf (coaddSingleSlice (freshEnv exWeightsWorld exSkyTile) 3 8)).isSome = true := by
  constructor <;> decide +kernel

theorem exWeightsWorld_two : (pixelsOf (coaddSingleSlice (freshEnv exFourthWorld exSkyTile) 3 7)).isSome = true := by
  decide +kernel

/-- C161_tile: the files of two SE images, both used, with a quarter of the weights. -/
example : ∃ r r' p p', coaddSingleSlice (freshEnv exWeightsWorld exSkyTile) 3 8 = .ok r ∧
    coaddSingleSlice (freshEnv exFourthWorld exSkyTile) 3 7 = .ok r' ∧ r.pix = some p ∧ r'.pix = some p' ∧
    usedWeights r' = usedWeights r ∧ (usedWeights r).map Prod.fst = [0, 1] ∧ p'.image = p.image := by
  obtain ⟨r1, p1, a1, a2, a3⟩ := pixelsOf_some exWeightsWorld_one.2
  obtain ⟨r2, p2, b1, b2, b3⟩ := pixelsOf_some exWeightsWorld_two
  have key := C161_tile (k := 2) (by norm_num) exFourthWorld_over (exWeightsWorld_sound (.inl rfl)) (exWeightsWorld_sound (.inr rfl))
    exUnits_follows exNoiseWorld_follows exExt_rotates exLinExt_linear rfl exWeightsWorld_unflagged (by decide) a1 b1 a2 b2
  have hu := exWeightsWorld_one.1
  rw [a1] at hu
  exact ⟨r1, r2, p1, p2, a1, b1, a2, b2, key.1, Option.some.inj hu, key.2.1⟩

theorem exWeightsWorld_orderly {w : ProcWorld Unit Nat Unit Unit} (h : w.hash = exProcWorld.hash) : Orderly w (· = exSkyTile) where
  maskOnly := by
    rintro t e t' e' rfl - - - h
    cases h
  sameMasking := by
    rintro t e t' e' rfl - - - h
    cases h
  seHash := by
    rintro n t e n' t' e' rfl he rfl he' hh
    rw [h] at hh
    rcases exBumps_entries he with rfl | rfl <;> rcases exBumps_entries he' with rfl | rfl
    · exact ⟨rfl, rfl⟩
    · have : (0 : ℤ) + 2 * n + 2 = 1 + 2 * n' + 2 := hh
      omega
    · have : (1 : ℤ) + 2 * n + 2 = 0 + 2 * n' + 2 := hh
      omega
    · exact ⟨rfl, rfl⟩
  coaddHash := by rintro t t' rfl rfl -; exact ⟨rfl, rfl, rfl⟩

/-- C161_process: a new process, and one that has computed another slice before. -/
example : ∃ r r' p p',
    (coaddSingleSliceP exWeightsWorld exSkyTile 3 8 (procRun exWeightsWorld (Proc.fresh (fun _ => 2) exWeightsWorld.arrays 0) [])).1 =
      .ok r ∧
    (coaddSingleSliceP exFourthWorld exSkyTile 3 7
      (procRun exFourthWorld (Proc.fresh (fun _ => 1) exFourthWorld.arrays 5) [.slice exSkyTile 1 4])).1 = .ok r' ∧
    r.pix = some p ∧ r'.pix = some p' ∧ usedWeights r' = usedWeights r ∧ p'.image = p.image := by
  obtain ⟨r1, p1, a1, a2, a3⟩ := pixelsOf_some exWeightsWorld_one.2
  obtain ⟨r2, p2, b1, b2, b3⟩ := pixelsOf_some exWeightsWorld_two
  have o1 : Orderly exWeightsWorld (· = exSkyTile) := exWeightsWorld_orderly rfl
  have o2 : Orderly exFourthWorld (· = exSkyTile) := exWeightsWorld_orderly rfl
  have i1 : OpsIn (· = exSkyTile) ([] : List (ProcOp Unit Unit Unit)) :=
    fun t => ⟨fun _ _ h => absurd h List.not_mem_nil, fun _ h => absurd h List.not_mem_nil⟩
  have i2 : OpsIn (· = exSkyTile) [ProcOp.slice (P := Unit) exSkyTile 1 4] := by
    intro t
    refine ⟨fun i seed h => ?_, fun jobs h => ?_⟩
    · cases List.mem_singleton.1 h
      rfl
    · cases List.mem_singleton.1 h
  rw [← C113_slice o1 (fun _ => 2) 0 [] i1 exSkyTile rfl] at a1
  rw [← C113_slice o2 (fun _ => 1) 5 _ i2 exSkyTile rfl] at b1
  have key := C161_process (k := 2) (by norm_num) exFourthWorld_over (exWeightsWorld_sound (.inl rfl))
    (exWeightsWorld_sound (.inr rfl)) exUnits_follows exNoiseWorld_follows exExt_rotates exLinExt_linear rfl
    exWeightsWorld_unflagged (by decide) o1 o2 rfl rfl _ _ _ _ _ _ i1 i2 a1 b1 a2 b2
  exact ⟨r1, r2, p1, p2, a1, b1, a2, b2, key.1, key.2.1⟩

end Pizza
