import Verif.Props.Transposed

/-! Examples for C159. -/

namespace Pizza

/-- The image with rows and columns exchanged. -/
def Img.flip {α : Type} (a : Img α) : Img α := ⟨a.ncol, a.nrow, fun r c => a.px c r⟩

theorem Img.transposed_flip {α : Type} (a : Img α) : Transposed a a.flip := ⟨rfl, rfl, fun _ _ _ _ => rfl⟩

theorem flip_all {α : Type} (l : List (Img α)) : List.Forall₂ Transposed l (l.map Img.flip) := by
  induction l with
  | nil => exact .nil
  | cons a l ih => exact .cons a.transposed_flip ih

theorem bothOk_map {α : Type} {R : α → α → Prop} (f : α → α) (h : ∀ a, R a (f a)) (x : Except Err α) : BothOk R x (x.map f) := by
  cases x with
  | error e => exact .error e
  | ok a => exact .ok _ _ (h a)

/-- The files with rows and columns exchanged. -/
def SEReads.flip (f : SEReads) : SEReads :=
  ⟨f.image.map Img.flip, f.bkg.map Img.flip, f.bmask.map Img.flip, f.weight.map Img.flip, f.noises.map (List.map Img.flip)⟩

theorem SEReads.transposed_flip (f : SEReads) : TransposedReads f f.flip :=
  ⟨bothOk_map _ Img.transposed_flip _, bothOk_map _ Img.transposed_flip _, bothOk_map _ Img.transposed_flip _,
    bothOk_map _ Img.transposed_flip _, bothOk_map _ flip_all _⟩

/-- Every call has a counterpart with rows and columns exchanged (a PSF is square). -/
theorem transposedOp_exists (op : SEOp) (h : ∀ x y fl a, op = .setPsf x y fl (.ok a) → a.nrow = a.ncol) : ∃ op', TransposedOp op op' := by
  cases op with
  | setSlice f scale b => exact ⟨_, .setSlice f f.flip scale b ⟨b.colmin, b.colmax, b.rowmin, b.rowmax⟩ f.transposed_flip ⟨rfl, rfl, rfl, rfl⟩⟩
  | setPsf x y fl psf =>
    cases psf with
    | error e => exact ⟨_, .setPsf x y fl _ _ (.error e)⟩
    | ok a => exact ⟨_, .setPsf x y fl _ _ (.ok a a.flip ⟨a.transposed_flip, h x y fl a rfl⟩)⟩
  | setInterp im ns mask => exact ⟨_, .setInterp im im.flip ns (ns.map Img.flip) mask mask.flip im.transposed_flip (flip_all ns) mask.transposed_flip⟩

/-- So has every history. -/
theorem transposedOps_exist (ops : List SEOp) (h : ∀ x y fl a, .setPsf x y fl (.ok a) ∈ ops → a.nrow = a.ncol) :
    ∃ ops', List.Forall₂ TransposedOp ops ops' := by
  induction ops with
  | nil => exact ⟨[], .nil⟩
  | cons op ops ih =>
    obtain ⟨op', h1⟩ := transposedOp_exists op fun x y fl a e => h x y fl a (e ▸ List.mem_cons_self ..)
    obtain ⟨ops', h2⟩ := ih fun x y fl a hm => h x y fl a (List.mem_cons_of_mem _ hm)
    exact ⟨op' :: ops', .cons h1 h2⟩

/-- WCSs with pixels of different sizes in the two directions, and the same exchanged. -/
def exLook : Lookups := ⟨fun x y => some (2 * x + 1, y / 3), fun x _ => 1 + x ^ 2, fun _ y => 2 + y ^ 2⟩

/-- The exchanged WCSs. -/
def exLook' : Lookups := ⟨fun x y => some (x / 3, 2 * y + 1), fun _ y => 1 + y ^ 2, fun x _ => 2 + x ^ 2⟩

theorem exLook_transposed : TransposedLookups exLook exLook' := ⟨fun _ _ => rfl, fun _ _ => rfl, fun _ _ => rfl⟩

/-- `C159_lanczos` on an image with two rows and three columns. -/
example : ∃ v e, Resampled (⟨2, 3, fun r c => 3 * r + c⟩ : Img ℚ) 3 (1/2) (5/4) v e ∧
    Resampled (⟨3, 2, fun r c => 3 * c + r⟩ : Img ℚ) 3 (5/4) (1/2) v e := by
  obtain ⟨v, e, h⟩ := resampled_exists ⟨2, 3, fun r c => 3 * r + c⟩ (1/2) (5/4)
  exact ⟨v, e, h, C159_lanczos _ _ ⟨rfl, rfl, fun _ _ _ _ => rfl⟩ 3 _ _ v e h⟩

/-- `C159_history` (with `C159_resample`, `C159_psf`) on a complete history that is accepted. -/
example : ∃ ops', List.Forall₂ TransposedOp exampleOps ops' ∧ (SEObj.after ops').resample exLook' 0 0 2 0 0 3 ≠ .error .runtimeError := by
  obtain ⟨ops', h⟩ := transposedOps_exist exampleOps (by
    intro x y fl a hm
    simp only [exampleOps, List.mem_cons, List.not_mem_nil, or_false] at hm
    rcases hm with hm | hm | hm
    · cases hm
    · cases hm; rfl
    · cases hm)
  refine ⟨ops', h, fun he => ?_⟩
  have hb := (C159_history exampleOps ops' h).2.2 _ _ exLook_transposed 0 0 2 0 0 3
  have ha := example_accepted exLook
  rw [he] at hb
  revert ha hb
  generalize (SEObj.after exampleOps).resample exLook 0 0 2 0 0 3 = z
  intro h1 h2
  cases h1
  exact h2 rfl

/-- A slice with all that a resampling needs, not symmetric. -/
def exSkew : SEObj where
  xStart := some 5
  yStart := some 7
  boxSize := some 2
  image := some ⟨2, 2, fun r c => 3 * r + c⟩
  bmask := some ⟨2, 2, fun r c => BitVec.ofNat 32 (2 * r + c)⟩
  noises := some []
  psf := some ⟨3, 3, fun r c => r + 2 * c + 1⟩
  psfXStart := some 4
  psfYStart := some 6
  psfBoxSize := some 3
  interpFrac := some ⟨2, 2, fun r _ => r⟩
  interpOnlyImage := some ⟨2, 2, fun r _ => 3 * r⟩
  pmask := some ⟨2, 2, fun r _ => BitVec.ofNat 32 r⟩

/-- The same with rows and columns exchanged. -/
def exSkew' : SEObj where
  xStart := some 7
  yStart := some 5
  boxSize := some 2
  image := some ⟨2, 2, fun r c => 3 * c + r⟩
  bmask := some ⟨2, 2, fun r c => BitVec.ofNat 32 (2 * c + r)⟩
  noises := some []
  psf := some ⟨3, 3, fun r c => c + 2 * r + 1⟩
  psfXStart := some 6
  psfYStart := some 4
  psfBoxSize := some 3
  interpFrac := some ⟨2, 2, fun _ c => c⟩
  interpOnlyImage := some ⟨2, 2, fun _ c => 3 * c⟩
  pmask := some ⟨2, 2, fun _ c => BitVec.ofNat 32 c⟩

theorem exSkew_transposed : TransposedObj exSkew exSkew' :=
  ⟨rfl, rfl, rfl, rfl, rfl, rfl, .some ⟨rfl, rfl, fun _ _ _ _ => rfl⟩, .some ⟨rfl, rfl, fun _ _ _ _ => rfl⟩,
    .some ⟨rfl, rfl, fun _ _ _ _ => rfl⟩, .some .nil, .some ⟨rfl, rfl, fun _ _ _ _ => rfl⟩, .some ⟨rfl, rfl, fun _ _ _ _ => rfl⟩,
    .some ⟨rfl, rfl, fun _ _ _ _ => rfl⟩, .none, .none⟩

/-- `C159_resample` on it: both calls return. -/
example : ∃ out out', exSkew.resample exLook 1 2 4 0 1 5 = .ok out ∧ exSkew'.resample exLook' 2 1 4 1 0 5 = .ok out' ∧
    TransposedResampling out out' := by
  obtain ⟨out, ho⟩ := resample_total exSkew exLook 1 2 4 0 1 5 _ _ _ _ [] _ _ 4 6 5 7 2 rfl rfl rfl rfl rfl rfl rfl rfl rfl rfl rfl rfl rfl rfl
    ⟨rfl, rfl⟩ ⟨rfl, rfl⟩ ⟨rfl, rfl⟩ (by simp) ⟨le_refl _, le_refl _⟩
  have h := C159_resample _ _ exSkew_transposed _ _ exLook_transposed 1 2 4 0 1 5
  rw [ho] at h
  generalize exSkew'.resample exLook' 2 1 4 1 0 5 = z at h
  cases h with
  | ok _ out' h => exact ⟨out, out', ho, rfl, h⟩

/-- `C159_psf` with shifts. -/
example := C159_psf _ _ exSkew_transposed _ _ exLook_transposed 0 1 5 (1/4) (1/3)

/-- `C159_map_image` on it. -/
example : BothOk Transposed (exSkew.mapImage false ⟨9, 8, fun r c => decide (r < c)⟩ 5 7 fun x y => some (x + 1, y))
    (exSkew'.mapImage false ⟨8, 9, fun r c => decide (c < r)⟩ 7 5 fun x y => some (x, y + 1)) :=
  C159_map_image _ _ exSkew_transposed false _ _ ⟨rfl, rfl, fun _ _ _ _ => rfl⟩ 5 7 _ _ fun _ _ => rfl

/-- An epoch that is not symmetric. -/
def exSkewEpoch (v : ℚ) : EpochData :=
  ⟨⟨2, 2, fun r c => v + 3 * r + c⟩, [⟨2, 2, fun r c => v * r - c⟩], ⟨2, 2, fun r _ => r⟩, ⟨1, 1, fun _ _ => some 1⟩,
    ⟨2, 2, fun r c => BitVec.ofNat 32 (2 * r + c)⟩, ⟨2, 2, fun r _ => BitVec.ofNat 32 r⟩⟩

/-- It with rows and columns exchanged. -/
def exSkewEpoch' (v : ℚ) : EpochData :=
  ⟨⟨2, 2, fun r c => v + 3 * c + r⟩, [⟨2, 2, fun r c => v * c - r⟩], ⟨2, 2, fun _ c => c⟩, ⟨1, 1, fun _ _ => some 1⟩,
    ⟨2, 2, fun r c => BitVec.ofNat 32 (2 * c + r)⟩, ⟨2, 2, fun _ c => BitVec.ofNat 32 c⟩⟩

theorem exSkewEpoch_transposed (v : ℚ) : TransposedEpoch (exSkewEpoch v) (exSkewEpoch' v) :=
  ⟨⟨rfl, rfl, fun _ _ _ _ => rfl⟩, .cons ⟨rfl, rfl, fun _ _ _ _ => rfl⟩ .nil, ⟨rfl, rfl, fun _ _ _ _ => rfl⟩,
    ⟨rfl, rfl, fun _ _ _ _ => rfl⟩, ⟨rfl, rfl, fun _ _ _ _ => rfl⟩, ⟨rfl, rfl, fun _ _ _ _ => rfl⟩⟩

/-- `C159_coadd` on two of them: both calls return. -/
example : ∃ out out', coaddSliceInputs 2 1 0 [.ok (exSkewEpoch 1), .ok (exSkewEpoch 4)] [1, 3] = .ok out ∧
    coaddSliceInputs 2 1 0 [.ok (exSkewEpoch' 1), .ok (exSkewEpoch' 4)] [1, 3] = .ok out' ∧ TransposedCoadd out out' := by
  obtain ⟨out, ho⟩ := (C55_succeeds 2 1 0 [(exSkewEpoch 1, 1), (exSkewEpoch 4, 3)]).2 ⟨by simp, by
    intro p hp
    have : ∃ v, p.1 = exSkewEpoch v := by
      simp only [List.mem_cons, List.not_mem_nil, or_false] at hp
      rcases hp with rfl | rfl <;> exact ⟨_, rfl⟩
    obtain ⟨v, hv⟩ := this
    rw [hv]
    refine ⟨⟨rfl, rfl⟩, ⟨rfl, rfl⟩, ⟨rfl, rfl⟩, ⟨rfl, rfl⟩, ⟨rfl, rfl⟩, fun i hi => ?_⟩
    have : i = 0 := by omega
    subst this
    exact ⟨_, rfl, rfl, rfl⟩⟩
  have h := C159_coadd 2 1 0 [.ok (exSkewEpoch 1), .ok (exSkewEpoch 4)] [.ok (exSkewEpoch' 1), .ok (exSkewEpoch' 4)]
    (.cons (.ok _ _ (exSkewEpoch_transposed 1)) (.cons (.ok _ _ (exSkewEpoch_transposed 4)) .nil)) [1, 3]
  have ho' : coaddSliceInputs 2 1 0 [.ok (exSkewEpoch 1), .ok (exSkewEpoch 4)] [1, 3] = .ok out := ho
  rw [ho'] at h
  generalize coaddSliceInputs 2 1 0 [.ok (exSkewEpoch' 1), .ok (exSkewEpoch' 4)] [1, 3] = z at h
  cases h with
  | ok _ out' h => exact ⟨out, out', ho', rfl, h⟩

/-- `C159_bounds` and `C159_contains`: a box on a CCD with 40 rows and 60 columns. -/
example : ccdContainsBounds 60 40 (computeSliceBounds 30 50 8 1) 3 = ccdContainsBounds 40 60 (computeSliceBounds 50 30 8 1) 3 ∧
    ccdContainsBounds 40 60 ⟨26, 33, 46, 53⟩ 3 = true ∧ ccdContainsBounds 40 60 ⟨46, 53, 26, 33⟩ 3 = false :=
  ⟨C159_contains 40 60 _ _ (C159_bounds 50 30 1 8) 3, by decide +kernel, by decide +kernel⟩

/-- `C159_area` and `C159_jacobian` with pixels that are not square. -/
example (cosd : ℚ → ℚ) :
    computeWcsArea false (fun x y => (3 * y, 2 * x + y)) cosd 4 1 1 = computeWcsArea false (fun x y => (3 * x, 2 * y + x)) cosd 1 4 1 ∧
    ∃ a b c d, getJacobian (fun x y => (3 * x, 2 * y + x)) cosd 1 4 1 = (a, b, c, d) ∧
      getJacobian (fun x y => (3 * y, 2 * x + y)) cosd 4 1 1 = (b, a, d, c) :=
  ⟨C159_area false _ _ (fun _ _ => rfl) cosd 1 4 1, _, _, _, _, rfl, C159_jacobian _ _ (fun _ _ => rfl) cosd 1 4 1 _ _ _ _ rfl⟩

/-- A function of the nodes that treats them alike: the value at the last nodes plus a slope. -/
def exAlike : Spline := fun xs ys z =>
  if xs = [] ∨ ys = [] then .error .valueError else .ok fun x y => z.px (xs.length - 1) (ys.length - 1) + x * y

theorem exAlike_alike : SplineAlike exAlike := by
  intro xs ys z z' h1 h2 hz
  unfold exAlike
  by_cases h : xs = [] ∨ ys = []
  · rw [if_pos h, if_pos h.symm]; exact .error _
  · rw [if_neg h, if_neg (fun h' => h h'.symm)]
    refine .ok _ _ fun x y => ?_
    rw [not_or] at h
    have hx := List.length_pos_iff.2 h.1
    have hy := List.length_pos_iff.2 h.2
    rw [hz.px _ (by omega) _ (by omega), mul_comm]

/-- `C159_area_interp` with it. -/
example (cosd : ℚ → ℚ) := C159_area_interp exAlike exAlike_alike true (fun x y => (x + y, 2 * y)) (fun x y => (y + x, 2 * x)) (fun _ _ => rfl) cosd
  40 60 8 0

/-- `C159_full_edge`, `C159_has_flags` and `C159_masked_fraction`: a mask with one bad row becomes one with a bad column. -/
example : sliceFullEdgeMasked ⟨3, 2, fun _ _ => 1⟩ ⟨3, 2, fun _ c => if c = 0 then 4 else 0⟩ 4 =
      sliceFullEdgeMasked ⟨2, 3, fun _ _ => 1⟩ ⟨2, 3, fun r _ => if r = 0 then 4 else 0⟩ 4 ∧
    sliceFullEdgeMasked ⟨2, 3, fun _ _ => 1⟩ ⟨2, 3, fun r _ => if r = 0 then 4 else 0⟩ 4 = .ok true ∧
    sliceHasFlags ⟨3, 2, fun _ c => if c = 0 then 4 else 0⟩ 4 = sliceHasFlags ⟨2, 3, fun r _ => if r = 0 then 4 else 0⟩ 4 ∧
    computeMaskedFraction ⟨3, 2, fun _ _ => 1⟩ ⟨3, 2, fun _ c => if c = 0 then 4 else 0⟩ 4 (some ⟨3, 2, fun r _ => decide (r = 1)⟩) =
      computeMaskedFraction ⟨2, 3, fun _ _ => 1⟩ ⟨2, 3, fun r _ => if r = 0 then 4 else 0⟩ 4 (some ⟨2, 3, fun _ c => decide (c = 1)⟩) := by
  refine ⟨C159_full_edge _ _ _ _ ⟨rfl, rfl, fun _ _ _ _ => rfl⟩ ⟨rfl, rfl, fun _ _ _ _ => rfl⟩ 4 ⟨rfl, rfl⟩ (by decide) (by decide),
    by decide +kernel, C159_has_flags _ _ ⟨rfl, rfl, fun _ _ _ _ => rfl⟩ 4, ?_⟩
  refine C159_masked_fraction _ _ _ _ ⟨rfl, rfl, fun _ _ _ _ => rfl⟩ ⟨rfl, rfl, fun _ _ _ _ => rfl⟩ ⟨rfl, rfl⟩ 4 _ _
    (.some ⟨rfl, rfl, fun _ _ _ _ => rfl⟩) ?_
  rintro g ⟨⟩
  exact ⟨rfl, rfl⟩

end Pizza
