import Verif.Props.BuildInputs

/-!
A concrete run of `_build_slice_inputs`: cases that meet the hypotheses of C46-C53, and the
counterexample to C52.
-/

namespace Pizza

/-- External functions: the interpolant is constant 5, the random stream counts its draws. -/
def exExt : Ext Unit Nat where
  rotate := fun _ m => m
  interp := fun _ _ => .ok fun _ => 5
  normals := fun s n m => (⟨n, m, fun _ _ => (s : ℚ)⟩, s + 1)
  invSqrt := fun v => v
  fwhm := fun _ => .ok 1
  outliers := fun _ wts => .ok fun i => wts.getD i ⟨0, 0, fun _ _ => 0⟩

/-- Configuration: 3 x 3 patches. -/
def exCfg : BuildCfg Unit where
  boxSize := 3
  fracBuffer := 1
  startRow := 0
  startCol := 0
  coaddingWeight := .noise
  rejectOutliers := false
  symmetrize := .off
  copyEdges := false
  noiseFlags := 1
  splineFlags := 2
  badImageFlags := 4
  maxMaskedFraction := 1 / 2
  edgeBuffer := 0
  gaia := none

/-- A source: all pixels have value 5; the CCD pixel (4, 4) has weight `w` and mask `m`. -/
def exSrc (flag : ℤ) (w : ℚ) (m : BitVec 32) (psf : Bool) : Src where
  imageFlags := flag
  init := .ok ()
  containsRadec := .ok true
  pos := .ok (4, 4)
  nrow := 8
  ncol := 8
  reads := ⟨.ok ⟨8, 8, fun _ _ => 5⟩, .ok ⟨8, 8, fun _ _ => 0⟩,
    .ok ⟨8, 8, fun r c => if r = 4 ∧ c = 4 then m else 0⟩,
    .ok ⟨8, 8, fun r c => if r = 4 ∧ c = 4 then w else 1⟩, .ok []⟩
  scale := 1
  psfX := 4
  psfY := 4
  psfFlag := .ok psf
  psfImage := .ok ⟨3, 3, fun _ _ => 1⟩
  toCoadd := .ok fun x y => some (x, y)
  lookups := .ok ⟨fun x y => some (x + 3, y + 3), fun _ _ => 1, fun _ _ => 1⟩
  imageId := 1

theorem exSane (l : List Src) (hl : ∀ s ∈ l, ∃ f w m p, s = exSrc f w m p) (c : BuildCfg Unit)
    (hc : c.boxSize = 3) (hf : c.fracBuffer = 1) : Sane exExt c l := by
  refine ⟨by rw [hc]; decide, by rw [hf], ?_, ?_⟩
  · intro s hs
    obtain ⟨f, w, m, p, rfl⟩ := hl s hs
    refine ⟨?_, ?_, ?_, ?_⟩ <;> intro a ha <;> cases ha
    · exact ⟨rfl, rfl⟩
    · exact ⟨rfl, rfl⟩
    · exact ⟨rfl, rfl⟩
    · simp
  · intro ims wts f h i w hw
    cases h
    simp [hw]

/-- The central pixel of a used epoch: image, weight, processing mask. -/
structure ExPix where
  image : Option ℚ
  weight : Option ℚ
  pmask : Option (BitVec 32)
  deriving DecidableEq

/-- The parts of a result that can be compared. -/
structure ExView where
  slices : List ExPix
  weights : List ℚ
  notUsed : Nat
  flags : List (BitVec 32)
  deriving DecidableEq

/-- The view of a result. -/
def exViewOf (out : Inputs) : ExView :=
  ⟨out.slices.map fun e => ⟨e.obj.image.map (·.px 1 1), e.obj.weight.map (·.px 1 1),
    e.obj.pmask.map (·.px 1 1)⟩, out.weights, out.notUsed.length, out.flags⟩

/-- The view of a run. -/
def exView (r : Except Err Inputs) : Option ExView :=
  match r with
  | .ok out => some (exViewOf out)
  | .error _ => none

theorem exView_some {r : Except Err Inputs} {v : ExView} (h : exView r = some v) :
    ∃ out, r = .ok out ∧ exViewOf out = v := by
  cases r with
  | error e => cases h
  | ok out => exact ⟨out, rfl, Option.some.inj h⟩

/-- The sources of the example: a flagged image, a used one, one with a bad image flag, one with a
bad PSF, and a used one with a spline flag. -/
def exSrcs : List Src :=
  [exSrc 1 1 0 false, exSrc 0 2 0 false, exSrc 0 1 4 false, exSrc 0 1 0 true, exSrc 0 6 2 false]

theorem exRun : exView (buildSliceInputs exExt exCfg exSrcs 0) =
    some ⟨[⟨some 5, some 2, some 0⟩, ⟨some 5, some 6, some (BitVec.twoPow 32 27)⟩], [1 / 4, 3 / 4], 2,
      [2, 32]⟩ := by
  decide +kernel

theorem exSrcs_sane : Sane exExt exCfg exSrcs :=
  exSane _ (by
    intro s hs
    simp only [exSrcs, List.mem_cons, List.not_mem_nil, or_false] at hs
    rcases hs with rfl | rfl | rfl | rfl | rfl <;> exact ⟨_, _, _, _, rfl⟩) _ rfl rfl

/-- The hypotheses of C46, C47 (`C47_nonzero`), C49 (`C49_weights`), `C50_cuts`, `C51_altered` and
`C52_interpolated_partial` are met by a run with two used and two unused epochs. -/
example : ∃ out, Sane exExt exCfg exSrcs ∧ buildSliceInputs exExt exCfg exSrcs 0 = .ok out ∧
    out.slices.length = 2 ∧ out.weights = [1 / 4, 3 / 4] ∧ out.flags = [2, 32] ∧
    (∀ im v, exExt.fwhm im = .ok v → 0 < v) := by
  obtain ⟨out, h1, h2⟩ := exView_some exRun
  refine ⟨out, exSrcs_sane, h1, ?_, congrArg ExView.weights h2, congrArg ExView.flags h2, ?_⟩
  · simpa [exViewOf] using congrArg (fun v => v.slices.length) h2
  · intro im v hv; cases hv; norm_num

/-- C48: the flagged image of the example is removed by the filter. -/
example : (exSrcs.filter fun s => decide (s.imageFlags = 0)).length = 4 := by decide

/-- `C49_unknown_raises`: the unknown weight type raises on the example. -/
example : ∃ out, buildSliceInputs exExt { exCfg with coaddingWeight := .noise } exSrcs 0 = .ok out ∧
    out.slices ≠ [] := by
  obtain ⟨out, h1, h2⟩ := exView_some exRun
  refine ⟨out, h1, ?_⟩
  intro h
  have := congrArg (fun v => v.slices.length) h2
  simp [exViewOf, h] at this

/-- C53: the source with the bad image flag is rejected by the initial cuts. -/
example : ∃ s ∈ exSrcs, ∃ d w0 g w b, Seen exExt exCfg s d w0 g w b ∧ InitialCut exCfg s g w b := by
  obtain ⟨out, h1, h2⟩ := exView_some exRun
  have hf := congrArg ExView.flags h2
  have hu := congrArg ExView.notUsed h2
  simp only [exViewOf] at hf hu
  obtain ⟨e, l, he⟩ : ∃ e l, out.notUsed = e :: l := by
    cases h : out.notUsed with
    | nil => rw [h] at hu; cases hu
    | cons e l => exact ⟨e, l, rfl⟩
  have hmem : (e, (2 : BitVec 32)) ∈ out.notUsed.zip out.flags := by rw [he, hf]; simp
  obtain ⟨d, w0, g, w, b, a1, _, _, _, a2⟩ := C47_flags exExt exCfg _ 0 out exSrcs_sane h1 e 2 hmem
  refine ⟨e.src, (unused_facts exSrcs_sane h1 hmem).1, d, w0, g, w, b, a1, ?_⟩
  by_contra hno
  obtain ⟨bit, ⟨w', b', _, h3⟩, h4⟩ := a2 hno
  have := (h4 1).1 (by decide)
  rcases h3 with ⟨_, h⟩ | ⟨_, _, h⟩ | ⟨_, _, h, _⟩ <;> omega

/-- C52 fails: a pixel of weight 0 is replaced by the interpolant, whose value there happens to be the
old one, and is not marked in the processing mask. -/
theorem C52_interpolated_fails :
    ∃ (x : Ext Unit Nat) (c : BuildCfg Unit) (srcs : List Src) (out : Inputs) (e : Epoch) (w : Img ℚ)
      (b pm : Img (BitVec 32)),
      Sane x c srcs ∧ c.copyEdges = false ∧ buildSliceInputs x c srcs 0 = .ok out ∧ e ∈ out.slices ∧
      e.obj.weight = some w ∧ e.obj.bmask = some b ∧ e.obj.pmask = some pm ∧ 1 < sliceSide c ∧
      Unusable w b c.splineFlags (1, 1) ∧ pm.px 1 1 = 0 := by
  have hrun : exView (buildSliceInputs exExt exCfg [exSrc 0 0 0 false] 0) =
      some ⟨[⟨some 5, some 0, some 0⟩], [1], 0, []⟩ := by decide +kernel
  have hsane : Sane exExt exCfg [exSrc 0 0 0 false] :=
    exSane _ (by intro s hs; simp only [List.mem_singleton] at hs; exact ⟨_, _, _, _, hs⟩) _ rfl rfl
  obtain ⟨out, h1, h2⟩ := exView_some hrun
  have h3 := congrArg ExView.slices h2
  simp only [exViewOf] at h3
  obtain ⟨e, l, he, h4, _⟩ := List.map_eq_cons_iff.1 h3
  obtain ⟨_, _, _, d, w0, g, w, b, w', b', im, ns, pm, q, a1, a2, a3, a4, a5, a6, a7, a8, _⟩ :=
    used_epoch exExt exCfg _ 0 out hsane h1 e (by rw [he]; simp)
  have h5 := congrArg ExPix.weight h4
  have h6 := congrArg ExPix.pmask h4
  simp only [a4, a8, Option.map_some, Option.some.injEq] at h5 h6
  exact ⟨exExt, exCfg, _, out, e, w, b, pm, hsane, rfl, h1, by rw [he]; simp, a4, a5, a8, by decide +kernel,
    .inl h5.le, h6⟩

/-- A source with the given bit mask. -/
def exMasked (m : Nat → Nat → BitVec 32) : Src :=
  { exSrc 0 1 0 false with
    reads := { (exSrc 0 1 0 false).reads with bmask := .ok ⟨8, 8, m⟩ } }

/-- C53 does not extend to candidates rejected after the initial cuts: with edge copying the first
source is rejected late (its top edge stays masked), but its noise interpolation has used up a draw
of the shared random stream, so the second source gets other data than without the first. -/
theorem C53_late_rejection_disturbs :
    ∃ (x : Ext Unit Nat) (c : BuildCfg Unit) (s t : Src), c.rejectOutliers = false ∧
      exView (buildSliceInputs x c [s, t] 0) = some ⟨[⟨some 1, some 1, some (BitVec.twoPow 32 28)⟩], [1], 1, [1]⟩ ∧
      exView (buildSliceInputs x c [t] 0) = some ⟨[⟨some 0, some 1, some (BitVec.twoPow 32 28)⟩], [1], 0, []⟩ :=
  ⟨exExt, { exCfg with copyEdges := true, maxMaskedFraction := 1 },
    exMasked fun r c => if r < 5 then 2 else if r = 5 ∧ c = 5 then 1 else 0,
    exMasked fun r c => if r = 4 ∧ c = 4 then 1 else 0, rfl, by decide +kernel, by decide +kernel⟩

/-- `C48_never_opened`: the flagged image of the example replaced by another flagged image, with another mask. -/
example := C48_never_opened exExt exCfg exSrcs (exSrc 9 7 4 true :: exSrcs.tail) 0
  (.cons (.inr ⟨by decide, by decide⟩) (List.forall₂_same.2 fun _ _ => .inl rfl))

/-- `C49_unknown_unused`: with an unknown weight type and a flagged image only, the run returns. -/
example : ∃ out, buildSliceInputs exExt { exCfg with coaddingWeight := .unknown } [exSrc 1 1 0 false] 0 = .ok out ∧
    out.slices = [] := by
  have hrun : exView (buildSliceInputs exExt { exCfg with coaddingWeight := .unknown } [exSrc 1 1 0 false] 0) =
      some ⟨[], [], 0, []⟩ := by decide +kernel
  obtain ⟨out, h, -⟩ := exView_some hrun
  exact ⟨out, h, C49_unknown_unused exExt { exCfg with coaddingWeight := .unknown } _ 0 out
    (exSane _ (by intro s hs; simp only [List.mem_singleton] at hs; exact ⟨_, _, _, _, hs⟩) _ rfl rfl) rfl h⟩

/-- `C53_removed`: without the flagged image the same epochs are used. -/
example (out : Inputs) (h : buildSliceInputs exExt exCfg exSrcs 0 = .ok out) :=
  C53_removed exExt exCfg [] exSrcs.tail (exSrc 1 1 0 false) 0 out exSrcs_sane rfl
    (.inl fun hp => absurd hp.1 (by decide)) h

end Pizza
