import Verif.Spec.SEObject
import Verif.Lemmas.SEObject
import Verif.Lemmas.Median
import Mathlib.Algebra.BigOperators.Field

/-! Properties C10, C39, C40, C42, C45. -/

namespace Pizza

/-! ### C10 -/

theorem finishPsf_eq (d : Img ℚ) : finishPsf d =
    if d.nrow ≠ d.ncol then .error .assertionError
    else if d.nrow % 2 ≠ 1 then .error .assertionError
    else .ok ⟨d.nrow, d.ncol, fun r c => d.px r c / d.total⟩ := rfl

/-- C10, the image: a returned PSF image is square with odd side, has the shape of the drawn
stamp, is proportional to it, and sums to one if the stamp has non-zero total.  The stamp is drawn with
33 pixels for PSFEx, 25 for Piff, and for GalSim with the side of the first call or five times the next odd
number from GalSim's choice. -/
theorem C10_psf_image (kind : PsfKind) (cached : Option Nat) (setup : Nat)
    (draw : Nat → Except Err (Img ℚ)) (out : Img ℚ)
    (h : getPsfImage kind cached setup draw = .ok out) :
    ∃ d drawn, draw d = .ok drawn ∧
      (kind = .psfex ∧ d = 33 ∨ kind = .piff ∧ d = 25 ∨ kind = .galsim ∧
        (cached = some d ∨ cached = none ∧ d = 5 * (setup + (setup + 1) % 2))) ∧
      out.nrow = out.ncol ∧ out.nrow % 2 = 1 ∧ out.nrow = drawn.nrow ∧ out.ncol = drawn.ncol ∧
      ((∑ r ∈ Finset.range drawn.nrow, ∑ c ∈ Finset.range drawn.ncol, drawn.px r c) ≠ 0 →
        (∑ r ∈ Finset.range out.nrow, ∑ c ∈ Finset.range out.ncol, out.px r c) = 1 ∧
        ∀ r c, out.px r c *
          (∑ r ∈ Finset.range drawn.nrow, ∑ c ∈ Finset.range drawn.ncol, drawn.px r c) =
            drawn.px r c) := by
  unfold getPsfImage at h
  simp only [bind_eq_ok] at h
  obtain ⟨d, hreq, drawn, hdraw, h⟩ := h
  have hd : kind = .psfex ∧ d = 33 ∨ kind = .piff ∧ d = 25 ∨ kind = .galsim ∧
      (cached = some d ∨ cached = none ∧ d = 5 * (setup + (setup + 1) % 2)) := by
    cases kind <;> cases hreq <;> simp
    unfold galsimDim
    cases cached with
    | some n => simp
    | none =>
      simp only [true_and]
      right
      split <;> omega
  rw [finishPsf_eq] at h
  by_cases hsq : drawn.nrow ≠ drawn.ncol
  · rw [if_pos hsq] at h; cases h
  by_cases hodd : drawn.nrow % 2 ≠ 1
  · rw [if_neg hsq, if_pos hodd] at h; cases h
  rw [if_neg hsq, if_neg hodd] at h
  cases h
  refine ⟨d, drawn, hdraw, hd, by simpa using hsq, by simpa using hodd, rfl, rfl, ?_⟩
  intro ht
  refine ⟨?_, fun r c => ?_⟩
  · simp only [Img.total, ← Finset.sum_div]
    exact div_self ht
  · simp only [Img.total]
    exact div_mul_cancel₀ _ ht

/-- `C10_psf_image` for a GalSim PSF drawn for the first time: 25 x 25 pixels. -/
example : ∃ out, getPsfImage .galsim none 4 (fun d => .ok ⟨d, d, fun _ _ => 2⟩) = .ok out ∧
    out.nrow % 2 = 1 := by
  obtain ⟨out, h⟩ : ∃ out, getPsfImage .galsim none 4 (fun d => .ok ⟨d, d, fun _ _ => 2⟩) = .ok out :=
    ⟨_, rfl⟩
  obtain ⟨_, _, _, _, _, ho, _⟩ := C10_psf_image .galsim none 4 _ out h
  exact ⟨out, h, ho⟩

/-- C10, refusals: a drawn stamp that is not square or has an even side raises. -/
theorem C10_refuses (kind : PsfKind) (cached : Option Nat) (setup d : Nat)
    (draw : Nat → Except Err (Img ℚ)) (drawn : Img ℚ) (hd : requestedDim kind cached setup = .ok d)
    (hdraw : draw d = .ok drawn) (h : drawn.nrow ≠ drawn.ncol ∨ drawn.nrow % 2 = 0) :
    getPsfImage kind cached setup draw = .error .assertionError := by
  unfold getPsfImage
  rw [hd, ok_bind, hdraw, ok_bind]
  rw [finishPsf_eq]
  by_cases hsq : drawn.nrow ≠ drawn.ncol
  · rw [if_pos hsq]
  · rw [if_neg hsq, if_pos]
    rcases h with h | h
    · exact absurd h hsq
    · omega

/-- `C10_refuses` for a PSF drawn on 33 x 32 pixels. -/
example := C10_refuses .psfex none 0 33 (fun d => .ok ⟨d, d - 1, fun _ _ => 2⟩) ⟨33, 32, fun _ _ => 2⟩
  rfl rfl (Or.inl (by decide))

/-- C10: the side requested from the PSF library is always odd, over all histories of calls on
one object (the size kept by the first GalSim call is the only state). -/
theorem C10_requested_odd (kind : PsfKind) (setups : List Nat) (setup d : Nat)
    (h : requestedDim kind
      (setups.foldl (fun cached s => some (galsimDim cached s)) none) setup = .ok d) :
    d % 2 = 1 := by
  have hg : ∀ cached s, (∀ k, cached = some k → k % 2 = 1) → galsimDim cached s % 2 = 1 := by
    intro cached s hc
    cases cached with
    | some k => exact hc k rfl
    | none => simp only [galsimDim]; split <;> omega
  have hinv : ∀ (l : List Nat) (cached : Option Nat), (∀ k, cached = some k → k % 2 = 1) →
      ∀ k, l.foldl (fun cached s => some (galsimDim cached s)) cached = some k → k % 2 = 1 := by
    intro l
    induction l with
    | nil => intro c hc; simpa using hc
    | cons s l ih =>
      intro c hc
      rw [List.foldl_cons]
      refine ih _ ?_
      intro k hk
      cases hk
      exact hg _ _ hc
  unfold requestedDim at h
  split at h
  · cases h; exact hg _ _ (hinv _ _ (by simp))
  · cases h; rfl
  · cases h; rfl
  · cases h

/-- `C10_requested_odd` after two uses of a GalSim PSF. -/
example := C10_requested_odd .galsim [4, 7] 6 25 rfl

/-- C10, `set_psf`: when it returns, the object holds the PSF image, its side, and the origin
that puts the centre of the stamp at the pixel nearest to the position; nothing else changes.
When it raises, the object is unchanged. -/
theorem C10_set_psf (o : SEObj) (x y : ℚ) (flag : Except Err Bool) (psf : Except Err (Img ℚ)) :
    (∀ b, (o.setPsf x y flag psf).2 = .ok b →
      flag = .ok b ∧ ∃ im xs ys, psf = .ok im ∧
        (o.setPsf x y flag psf).1 =
          { o with psf := some im, psfBoxSize := some im.nrow, psfXStart := some xs,
                   psfYStart := some ys } ∧
        NearestTo x (xs + (im.nrow - 1) / 2) ∧ NearestTo y (ys + (im.nrow - 1) / 2) ∧
        im.nrow % 2 = 1) ∧
    (∀ e, (o.setPsf x y flag psf).2 = .error e → (o.setPsf x y flag psf).1 = o) := by
  unfold SEObj.setPsf
  rcases flag with e | b
  · simp
  rcases psf with e | im
  · simp
  simp only
  have hodd : psfStampBounds x y im.nrow = .error .assertionError ∨ im.nrow % 2 = 1 := by
    by_cases h : im.nrow % 2 = 1
    · exact .inr h
    · exact .inl ((C09_stamp x y im.nrow).2.1 (by omega))
  rcases hodd with h | h
  · rw [h]; simp
  · obtain ⟨xs, ys, hb, hx, hy⟩ := (C09_stamp x y im.nrow).1 (by omega)
    have hx' := (C09_stamp x y im.nrow).2.2
    have hy' := (C09_stamp y x im.nrow).2.2
    rw [hb]
    simp only [Except.ok.injEq]
    refine ⟨fun b' hb' => ⟨hb', im, xs, ys, rfl, rfl, ?_, ?_, h⟩, fun e he => by cases he⟩
    all_goals
      obtain ⟨k, hk⟩ : ∃ k : ℕ, im.nrow = 2 * k + 1 := ⟨im.nrow / 2, by omega⟩
      rw [hk] at hx hy ⊢
      have e1 : (((2 * k + 1 : ℕ) : ℤ) - 1) / 2 = k := by omega
      rw [e1]
      unfold NearestTo
      push_cast at hx hy ⊢
      constructor <;> linarith [hx'.1, hx'.2, hy'.1, hy'.2]

example : (SEObj.setPsf {} (10 / 3) 5 (.ok true) (.ok ⟨3, 3, fun _ _ => 1 / 9⟩)).2 = .ok true := by
  obtain ⟨xs, ys, hb, -, -⟩ := (C09_stamp (10 / 3) 5 3).1 (by norm_num)
  simp only [SEObj.setPsf]
  rw [show (((⟨3, 3, fun _ _ => 1 / 9⟩ : Img ℚ).nrow : ℕ) : ℤ) = 3 from rfl, hb]

example : ∃ out, getPsfImage .galsim none 4 (fun d => .ok ⟨d, d, fun _ _ => 2⟩) = .ok out ∧
    out.nrow = 25 := ⟨_, rfl, rfl⟩

/-! ### C39 -/

/-- C39: when `set_interp_image_noise_pmask` returns, the interpolated fraction is one exactly
where the mask is non-zero and zero elsewhere, the interp-only image equals the (new) image there
and zero elsewhere, the former image is kept as the original, and the image, noises and mask are
those given.  The slice and the PSF are untouched. -/
theorem C39_interp_bookkeeping (o o' : SEObj) (im : Img ℚ) (noises : List (Img ℚ))
    (mask : Img (BitVec 32)) (h : o.setInterp im noises mask = (o', none)) :
    ∃ old frac only, o.image = some old ∧ o'.origImage = some old ∧ o'.image = some im ∧
      o'.noises = some noises ∧ o'.pmask = some mask ∧
      o'.interpFrac = some frac ∧ o'.interpOnlyImage = some only ∧
      frac.nrow = im.nrow ∧ frac.ncol = im.ncol ∧ only.nrow = im.nrow ∧ only.ncol = im.ncol ∧
      mask.nrow = im.nrow ∧ mask.ncol = im.ncol ∧ old.nrow = im.nrow ∧ old.ncol = im.ncol ∧
      (∀ r < im.nrow, ∀ c < im.ncol,
        ((∃ b < 32, (mask.px r c).getLsbD b = true) → frac.px r c = 1 ∧ only.px r c = im.px r c) ∧
        ((∀ b < 32, (mask.px r c).getLsbD b = false) → frac.px r c = 0 ∧ only.px r c = 0)) ∧
      o'.bmask = o.bmask ∧ o'.weight = o.weight ∧ o'.psf = o.psf ∧ o'.xStart = o.xStart ∧
      o'.yStart = o.yStart ∧ o'.boxSize = o.boxSize ∧ o'.psfXStart = o.psfXStart ∧
      o'.psfYStart = o.psfYStart ∧ o'.psfBoxSize = o.psfBoxSize := by
  unfold SEObj.setInterp at h
  split at h
  · cases h
  rename_i old hold
  split at h
  · cases h
  rename_i h1
  split at h
  · cases h
  rename_i h2
  push Not at h1 h2
  cases h
  refine ⟨old, _, _, hold, rfl, rfl, rfl, rfl, rfl, rfl, ?_, ?_, rfl, rfl, h2.1, h2.2, ?_, ?_, ?_,
    rfl, rfl, rfl, rfl, rfl, rfl, rfl, rfl, rfl⟩
  · exact h1.1.symm.trans h2.1
  · exact h1.2.symm.trans h2.2
  · exact h1.1.symm.trans h2.1
  · exact h1.2.symm.trans h2.2
  · intro r _ c _
    constructor
    · rintro ⟨b, _, hb⟩
      have : mask.px r c ≠ 0 := by rintro h0; rw [h0] at hb; simp at hb
      exact ⟨if_pos this, if_pos this⟩
    · intro hz
      have : mask.px r c = 0 := by
        apply BitVec.eq_of_getLsbD_eq
        intro i hi
        simpa using hz i hi
      simp [this]

/-- `C39_interp_bookkeeping` on a 2 x 3 image whose first row is interpolated. -/
example : ∃ o', SEObj.setInterp { image := some ⟨2, 3, fun _ _ => 7⟩ } ⟨2, 3, fun _ _ => 5⟩ []
    ⟨2, 3, fun r _ => if r = 0 then 4 else 0⟩ = (o', none) ∧ o'.origImage = some ⟨2, 3, fun _ _ => 7⟩ := by
  obtain ⟨old, _, _, h1, h2, _⟩ := C39_interp_bookkeeping { image := some ⟨2, 3, fun _ _ => 7⟩ } _
    ⟨2, 3, fun _ _ => 5⟩ [] ⟨2, 3, fun r _ => if r = 0 then 4 else 0⟩ rfl
  exact ⟨_, rfl, h2.trans h1.symm⟩

/-- C39: before `set_slice` the call raises and changes nothing. -/
theorem C39_needs_slice (o : SEObj) (im : Img ℚ) (noises : List (Img ℚ))
    (mask : Img (BitVec 32)) (h : o.image = none) :
    o.setInterp im noises mask = (o, some .attributeError) := by
  simp [SEObj.setInterp, h]

/-- `C39_needs_slice` on a fresh object. -/
example := C39_needs_slice {} ⟨2, 3, fun _ _ => 5⟩ [] ⟨2, 3, fun _ _ => 4⟩ rfl

example : ∃ o', SEObj.setInterp { image := some ⟨2, 3, fun _ _ => 7⟩ } ⟨2, 3, fun _ _ => 5⟩ []
    ⟨2, 3, fun r _ => if r = 0 then 4 else 0⟩ = (o', none) := ⟨_, rfl⟩

/-! ### C40 -/

theorem roundInt64_some (v : ℚ) (k : ℤ) : roundInt64 (some v) = k ↔ NearestTo v k := by
  simp only [roundInt64, NearestTo, Int.floor_eq_iff]
  constructor <;> rintro ⟨h1, h2⟩ <;> constructor <;> linarith

/-- C40: at every pixel of the slice the mapped image has the value of the source image at the
pixel nearest to the mapped position if that pixel is in the image, and zero otherwise, in
particular when the position is NaN. -/
theorem C40_nearest {α : Type} (o : SEObj) (zero : α) (image : Img α) (xStart yStart : ℤ)
    (inv : ℚ → ℚ → Option (ℚ × ℚ)) (out : Img α) (box sx sy : ℤ)
    (hb : o.boxSize = some box) (hx : o.xStart = some sx) (hy : o.yStart = some sy)
    (h : o.mapImage zero image xStart yStart inv = .ok out) :
    out.nrow = box.toNat ∧ out.ncol = box.toNat ∧
    ∀ r < box.toNat, ∀ c < box.toNat,
      (inv ((c : ℚ) + sx) ((r : ℚ) + sy) = none → out.px r c = zero) ∧
      ∀ x y, inv ((c : ℚ) + sx) ((r : ℚ) + sy) = some (x, y) →
        (∀ i < image.nrow, ∀ j < image.ncol,
          NearestTo (y - yStart) i → NearestTo (x - xStart) j → out.px r c = image.px i j) ∧
        ((∀ i < image.nrow, ∀ j < image.ncol,
          ¬ (NearestTo (y - yStart) i ∧ NearestTo (x - xStart) j)) → out.px r c = zero) := by
  unfold SEObj.mapImage at h
  simp only [hb, hx, hy, attr_some, ok_bind, pure_eq_ok] at h
  subst h
  refine ⟨rfl, rfl, fun r _ c _ => ⟨fun hn => ?_, fun x y hxy => ⟨?_, ?_⟩⟩⟩
  · simp [hn, roundInt64]
  · intro i hi j hj hyi hxj
    rw [← roundInt64_some] at hyi hxj
    simp only [hxy, Option.map_some, hyi, hxj]
    rw [if_pos (by omega)]; simp
  · intro hno
    simp only [hxy, Option.map_some]
    rw [if_neg]
    rintro ⟨h1, h2, h3, h4⟩
    obtain ⟨j, hj⟩ := Int.eq_ofNat_of_zero_le h1
    obtain ⟨i, hi⟩ := Int.eq_ofNat_of_zero_le h3
    refine hno i (by omega) j (by omega) ⟨?_, ?_⟩
    · exact (roundInt64_some _ _).1 hi
    · exact (roundInt64_some _ _).1 hj

/-- C40: the mapping always succeeds on an object with a slice. -/
theorem C40_total {α : Type} (o : SEObj) (zero : α) (image : Img α) (xStart yStart : ℤ)
    (inv : ℚ → ℚ → Option (ℚ × ℚ)) (box sx sy : ℤ)
    (hb : o.boxSize = some box) (hx : o.xStart = some sx) (hy : o.yStart = some sy) :
    ∃ out, o.mapImage zero image xStart yStart inv = .ok out := by
  unfold SEObj.mapImage
  simp only [hb, hx, hy, attr_some, ok_bind]
  exact ⟨_, rfl⟩

/-- `C40_nearest` for a map that halves the columns. -/
example : ∃ out, SEObj.mapImage { boxSize := some 2, xStart := some 3, yStart := some (-1) } (0 : ℚ)
    ⟨3, 3, fun r c => r + c⟩ 1 1 (fun x y => some (x / 2, y + 1 / 2)) = .ok out ∧ out.nrow = 2 := by
  obtain ⟨out, h⟩ := C40_total { boxSize := some 2, xStart := some 3, yStart := some (-1) } (0 : ℚ)
    ⟨3, 3, fun r c => r + c⟩ 1 1 (fun x y => some (x / 2, y + 1 / 2)) 2 3 (-1) rfl rfl rfl
  exact ⟨out, h, (C40_nearest _ _ _ _ _ _ out 2 3 (-1) rfl rfl rfl h).1⟩

/-- Every position has exactly one nearest pixel, so the cases of C40 are exhaustive and
exclusive. -/
theorem C40_nearest_unique (v : ℚ) : ∃! k : ℤ, NearestTo v k := by
  refine ⟨roundInt64 (some v), (roundInt64_some v _).1 rfl, fun k hk => ?_⟩
  exact ((roundInt64_some v k).2 hk).symm

example : ∃ out, SEObj.mapImage { boxSize := some 2, xStart := some 3, yStart := some (-1) } (0 : ℚ)
    ⟨3, 3, fun r c => r + c⟩ 1 1 (fun x y => some (x / 2, y + 1 / 2)) = .ok out :=
  C40_total _ _ _ _ _ _ 2 3 (-1) rfl rfl rfl

/-! ### C42 -/

theorem setSlice_attrs (o : SEObj) (f : SEReads) (scale : ℚ) (b : Bounds ℤ) :
    (o.setSlice f scale b).1.psfBoxSize = o.psfBoxSize ∧
    (o.setSlice f scale b).1.psf = o.psf ∧ (o.setSlice f scale b).1.psfXStart = o.psfXStart ∧
    (o.setSlice f scale b).1.psfYStart = o.psfYStart ∧
    (o.setSlice f scale b).1.pmask = o.pmask ∧
    (o.setSlice f scale b).1.interpFrac = o.interpFrac ∧
    (o.setSlice f scale b).1.interpOnlyImage = o.interpOnlyImage ∧
    ((o.setSlice f scale b).1.boxSize.isSome ↔
      o.boxSize.isSome ∨ b.colmax - b.colmin = b.rowmax - b.rowmin) ∧
    (o.boxSize.isSome = o.xStart.isSome ∧ o.boxSize.isSome = o.yStart.isSome →
      (o.setSlice f scale b).1.boxSize.isSome = (o.setSlice f scale b).1.xStart.isSome ∧
      (o.setSlice f scale b).1.boxSize.isSome = (o.setSlice f scale b).1.yStart.isSome) := by
  unfold SEObj.setSlice
  simp only
  split
  · rename_i h
    have : ¬ (b.colmax - b.colmin = b.rowmax - b.rowmin) := by omega
    simp [this]
  · rename_i h
    have : b.colmax - b.colmin = b.rowmax - b.rowmin := by omega
    split
    · simp [this]
    split
    · simp [this]
    split
    · simp [this]
    split
    · simp [this]
    split
    · simp [this]
    split
    · simp [this]
    · simp [this]

theorem setPsf_attrs (o : SEObj) (x y : ℚ) (flag : Except Err Bool) (psf : Except Err (Img ℚ)) :
    (o.setPsf x y flag psf).1.boxSize = o.boxSize ∧ (o.setPsf x y flag psf).1.pmask = o.pmask ∧
    (o.setPsf x y flag psf).1.xStart = o.xStart ∧ (o.setPsf x y flag psf).1.yStart = o.yStart ∧
    ((o.setPsf x y flag psf).1.psfBoxSize.isSome ↔
      o.psfBoxSize.isSome ∨ (o.setPsf x y flag psf).2.isOk = true) := by
  unfold SEObj.setPsf
  rcases flag with e | b
  · simp [Except.isOk, Except.toBool]
  rcases psf with e | im
  · simp [Except.isOk, Except.toBool]
  simp only
  split <;> simp [Except.isOk, Except.toBool]

theorem setInterp_attrs (o : SEObj) (im : Img ℚ) (ns : List (Img ℚ)) (mask : Img (BitVec 32)) :
    (o.setInterp im ns mask).1.boxSize = o.boxSize ∧
    (o.setInterp im ns mask).1.xStart = o.xStart ∧ (o.setInterp im ns mask).1.yStart = o.yStart ∧
    (o.setInterp im ns mask).1.psfBoxSize = o.psfBoxSize ∧
    ((o.setInterp im ns mask).1.pmask.isSome ↔
      o.pmask.isSome ∨ (o.setInterp im ns mask).2.isNone = true) := by
  unfold SEObj.setInterp
  split
  · simp
  split
  · simp
  split <;> simp

theorem after_concat (ops : List SEOp) (op : SEOp) :
    SEObj.after (ops ++ [op]) = ((SEObj.after ops).call op).1 := by
  simp [SEObj.after]

theorem returned_concat (ops : List SEOp) (op : SEOp) (kind : SEOp → Prop) :
    Returned (ops ++ [op]) kind ↔
      Returned ops kind ∨ (kind op ∧ ((SEObj.after ops).call op).2 = true) := by
  constructor
  · rintro ⟨pre, op', post, h, hk, hr⟩
    rcases List.eq_nil_or_concat post with rfl | ⟨post', last, rfl⟩
    · have := List.append_inj' h rfl
      obtain ⟨rfl, h2⟩ := this
      cases h2
      exact .inr ⟨hk, hr⟩
    · left
      refine ⟨pre, op', post', ?_, hk, hr⟩
      have : ops ++ [op] = (pre ++ op' :: post') ++ [last] := by simpa using h
      exact (List.append_inj' this rfl).1
  · rintro (⟨pre, op', post, rfl, hk, hr⟩ | ⟨hk, hr⟩)
    · exact ⟨pre, op', post ++ [op], by simp, hk, hr⟩
    · exact ⟨ops, op, [], rfl, hk, hr⟩

/-- What each attribute tells about the history. -/
theorem after_attrs (ops : List SEOp) :
    ((SEObj.after ops).boxSize.isSome ↔ ∃ op ∈ ops, op.isSquareSlice) ∧
    ((SEObj.after ops).boxSize.isSome = (SEObj.after ops).xStart.isSome ∧
      (SEObj.after ops).boxSize.isSome = (SEObj.after ops).yStart.isSome) ∧
    ((SEObj.after ops).psfBoxSize.isSome ↔ Returned ops SEOp.isPsf) ∧
    ((SEObj.after ops).pmask.isSome ↔ Returned ops SEOp.isInterp) := by
  induction ops using List.reverseRecOn with
  | nil =>
    refine ⟨by simp [SEObj.after], by simp [SEObj.after], ?_, ?_⟩ <;>
      simp [SEObj.after, Returned]
  | append_singleton ops op ih =>
    obtain ⟨h1, h2, h3, h4⟩ := ih
    rw [after_concat, returned_concat, returned_concat]
    have hmem : (∃ op' ∈ ops ++ [op], op'.isSquareSlice) ↔
        (∃ op' ∈ ops, op'.isSquareSlice) ∨ op.isSquareSlice := by
      simp only [List.mem_append, List.mem_singleton]
      constructor
      · rintro ⟨op', h | h, hs⟩
        · exact .inl ⟨op', h, hs⟩
        · subst h; exact .inr hs
      · rintro (⟨op', h, hs⟩ | hs)
        · exact ⟨op', .inl h, hs⟩
        · exact ⟨op, .inr rfl, hs⟩
    rw [hmem, ← h1, ← h3, ← h4]
    cases op with
    | setSlice f scale b =>
      obtain ⟨a1, _, _, _, a2, _, _, a3, a4⟩ := setSlice_attrs (SEObj.after ops) f scale b
      simp only [SEObj.call, a1, a2, SEOp.isSquareSlice, SEOp.isPsf, SEOp.isInterp, false_and,
        or_false]
      exact ⟨a3, a4 h2, trivial, trivial⟩
    | setPsf x y flag psf =>
      obtain ⟨a1, a2, a3, a4, a5⟩ := setPsf_attrs (SEObj.after ops) x y flag psf
      simp only [SEObj.call, a1, a2, a3, a4, SEOp.isSquareSlice, SEOp.isPsf, SEOp.isInterp,
        false_and, or_false, true_and]
      exact ⟨h2, a5, trivial⟩
    | setInterp im ns mask =>
      obtain ⟨a1, a2, a3, a4, a5⟩ := setInterp_attrs (SEObj.after ops) im ns mask
      simp only [SEObj.call, a1, a2, a3, a4, SEOp.isSquareSlice, SEOp.isPsf, SEOp.isInterp,
        false_and, or_false, true_and]
      exact ⟨h2, a5⟩

theorem bind_ne {α β : Type} {x : Except Err α} {f : α → Except Err β} {e : Err}
    (hx : x ≠ .error e) (hf : ∀ a, f a ≠ .error e) : (x >>= f) ≠ .error e := by
  cases x with
  | error e' => intro h; exact hx (by simpa [bind, Except.bind] using h)
  | ok a => exact hf a

theorem attr_ne_runtime {α : Type} (o : Option α) : attr o ≠ .error .runtimeError := by
  cases o <;> simp [attr]

theorem divArea_ne_runtime (a : Img ℚ) (g : Nat → Nat → ℚ) (b : Nat) :
    divArea a g b ≠ .error .runtimeError := by
  unfold divArea; split <;> simp

theorem mapM_ne {α β : Type} {l : List α} {f : α → Except Err β} {e : Err}
    (hf : ∀ a, f a ≠ .error e) : l.mapM f ≠ .error e := by
  induction l with
  | nil => simp [pure, Except.pure]
  | cons a l ih =>
    rw [List.mapM_cons]
    exact bind_ne (hf a) fun b => bind_ne ih fun bs => by simp [pure, Except.pure]

theorem resamplePsf_runtime (o : SEObj) (w : Lookups) (px py : ℚ) (pb : Nat) (dx dy : ℚ) :
    o.resamplePsf w px py pb dx dy = .error .runtimeError ↔ o.psfBoxSize = none := by
  unfold SEObj.resamplePsf
  constructor
  · intro h
    split at h
    · assumption
    · exfalso
      revert h
      refine bind_ne (attr_ne_runtime _) fun _ => bind_ne (attr_ne_runtime _) fun _ =>
        bind_ne (attr_ne_runtime _) fun _ => bind_ne (divArea_ne_runtime _ _ _) fun _ =>
        bind_ne (by rw [lanczosNan_eq]; simp) fun _ => by simp [pure, Except.pure]
  · intro h; rw [h]

theorem lanczosNan2_ne_runtime (a b : Img ℚ) (pos : List (Option (ℚ × ℚ)))
    (hr : a.nrow = b.nrow) (hc : a.ncol = b.ncol) : lanczosNan2 a b pos ≠ .error .runtimeError := by
  rw [lanczosNan2_eq _ _ hr hc]; simp

theorem bind_ne' {α β : Type} {x : Except Err α} {f : α → Except Err β} {e : Err}
    (hx : x ≠ .error e) (hf : ∀ a, x = .ok a → f a ≠ .error e) : (x >>= f) ≠ .error e := by
  cases x with
  | error e' => intro h; exact hx (by simpa [bind, Except.bind] using h)
  | ok a => exact hf a rfl

theorem resampleGo_runtime (o : SEObj) (w : Lookups) (xs ys : ℚ) (box : Nat) (px py : ℚ)
    (pb sb : Nat) (pm : Img (BitVec 32)) (h : o.psfBoxSize ≠ none) :
    o.resampleGo w xs ys box px py pb sb pm ≠ .error .runtimeError := by
  unfold SEObj.resampleGo
  refine bind_ne (by rw [Ne, resamplePsf_runtime]; exact h) fun _ => bind_ne (attr_ne_runtime _)
    fun _ => bind_ne (attr_ne_runtime _) fun _ => bind_ne (attr_ne_runtime _) fun _ =>
    bind_ne ?_ fun _ => bind_ne (attr_ne_runtime _) fun _ => bind_ne (mapM_ne ?_) fun _ =>
    bind_ne (attr_ne_runtime _) fun iom => bind_ne' (divArea_ne_runtime _ _ _) fun a ha =>
    bind_ne (attr_ne_runtime _) fun frac => bind_ne' (divArea_ne_runtime _ _ _) fun b hb =>
    bind_ne ?_ fun two => bind_ne (attr_ne_runtime _) fun bm => ?_
  · exact bind_ne (divArea_ne_runtime _ _ _) fun _ => bind_ne (by rw [lanczosNan_eq]; simp)
      fun _ => by simp [pure, Except.pure]
  · exact fun _ => bind_ne (divArea_ne_runtime _ _ _) fun _ => bind_ne (by rw [lanczosNan_eq]; simp)
      fun _ => by simp [pure, Except.pure]
  · rw [divArea_ok] at ha hb
    rw [← ha.2, ← hb.2]
    exact lanczosNan2_ne_runtime _ _ _ rfl rfl
  · split <;> simp [pure, Except.pure]

theorem resample_runtime (o : SEObj) (w : Lookups) (xs ys : ℚ) (box : Nat) (px py : ℚ) (pb : Nat) :
    o.resample w xs ys box px py pb = .error .runtimeError ↔
      ¬ (o.boxSize.isSome ∧ o.psfBoxSize.isSome ∧ o.pmask.isSome) := by
  unfold SEObj.resample
  cases h1 : o.boxSize with
  | none => simp
  | some b =>
  cases h2 : o.psfBoxSize with
  | none => simp
  | some pb' =>
  cases h3 : o.pmask with
  | none => simp
  | some pm =>
    simp only [Option.isSome_some, and_self, not_true_eq_false, iff_false]
    exact resampleGo_runtime _ _ _ _ _ _ _ _ _ _ (by simp [h2])

/-- C42, `resample`: after any history of calls the check of `resample` raises RuntimeError,
so that nothing is returned, unless a call of `set_slice` with square bounds was made (and got
past the check of its argument), a call of `set_psf` returned and a call of
`set_interp_image_noise_pmask` returned; and only then. -/
theorem C42_resample_check (ops : List SEOp) (w : Lookups) (xs ys : ℚ) (box : Nat) (px py : ℚ)
    (pb : Nat) :
    (SEObj.after ops).resample w xs ys box px py pb = .error .runtimeError ↔
      ¬ ((∃ op ∈ ops, op.isSquareSlice) ∧ Returned ops SEOp.isPsf ∧ Returned ops SEOp.isInterp) := by
  rw [resample_runtime]
  obtain ⟨h1, _, h3, h4⟩ := after_attrs ops
  rw [h1, h3, h4]

/-- C42, `resample_psf` needs only `set_psf`. -/
theorem C42_resample_psf_check (ops : List SEOp) (w : Lookups) (px py : ℚ) (pb : Nat) (dx dy : ℚ) :
    (SEObj.after ops).resamplePsf w px py pb dx dy = .error .runtimeError ↔
      ¬ Returned ops SEOp.isPsf := by
  rw [resamplePsf_runtime, ← (after_attrs ops).2.2.1]
  simp

/-- C42, `map_image_by_nearest_pixel` needs only `set_slice`, and otherwise succeeds. -/
theorem C42_map_check {α : Type} (ops : List SEOp) (zero : α) (image : Img α) (xStart yStart : ℤ)
    (inv : ℚ → ℚ → Option (ℚ × ℚ)) :
    ((∃ op ∈ ops, op.isSquareSlice) →
      ∃ out, (SEObj.after ops).mapImage zero image xStart yStart inv = .ok out) ∧
    ((¬ ∃ op ∈ ops, op.isSquareSlice) →
      (SEObj.after ops).mapImage zero image xStart yStart inv = .error .runtimeError) := by
  obtain ⟨h1, ⟨h2, h3⟩, _, _⟩ := after_attrs ops
  rw [← h1]
  constructor
  · intro h
    rw [h] at h2 h3
    obtain ⟨b, hb⟩ := Option.isSome_iff_exists.1 h
    obtain ⟨x, hx⟩ := Option.isSome_iff_exists.1 h2.symm
    obtain ⟨y, hy⟩ := Option.isSome_iff_exists.1 h3.symm
    exact C40_total _ _ _ _ _ _ b x y hb hx hy
  · intro h
    have : (SEObj.after ops).boxSize = none := by simpa using h
    simp [SEObj.mapImage, this]

/-- A call of `set_slice` that returned is one with square bounds; so for histories in which
every call returned, C42 says that `resample` passes its check iff all three were called. -/
theorem C42_all_returned (ops : List SEOp)
    (hall : ∀ pre op post, ops = pre ++ op :: post → ((SEObj.after pre).call op).2 = true)
    (w : Lookups) (xs ys : ℚ) (box : Nat) (px py : ℚ) (pb : Nat) :
    (SEObj.after ops).resample w xs ys box px py pb = .error .runtimeError ↔
      ¬ ((∃ op ∈ ops, op.isSlice) ∧ (∃ op ∈ ops, op.isPsf) ∧ (∃ op ∈ ops, op.isInterp)) := by
  rw [C42_resample_check]
  have hret : ∀ kind, Returned ops kind ↔ ∃ op ∈ ops, kind op := by
    intro kind
    constructor
    · rintro ⟨pre, op, post, rfl, hk, _⟩; exact ⟨op, by simp, hk⟩
    · rintro ⟨op, hm, hk⟩
      obtain ⟨pre, post, rfl⟩ := List.append_of_mem hm
      exact ⟨pre, op, post, rfl, hk, hall _ _ _ rfl⟩
  have hsq : (∃ op ∈ ops, op.isSquareSlice) ↔ ∃ op ∈ ops, op.isSlice := by
    constructor
    · rintro ⟨op, hm, h⟩
      refine ⟨op, hm, ?_⟩
      cases op <;> simp_all [SEOp.isSlice, SEOp.isSquareSlice]
    · rintro ⟨op, hm, h⟩
      refine ⟨op, hm, ?_⟩
      obtain ⟨pre, post, rfl⟩ := List.append_of_mem hm
      have := hall _ _ _ rfl
      cases op with
      | setSlice f scale b =>
        by_contra hns
        simp only [SEOp.isSquareSlice] at hns
        simp only [SEObj.call, SEObj.setSlice] at this
        rw [if_pos (by omega)] at this
        simp at this
      | setPsf => cases h
      | setInterp => cases h
  rw [hret, hret, hsq]

theorem setSlice_ok {o o' : SEObj} {f : SEReads} {scale : ℚ} {b : Bounds ℤ}
    (h : o.setSlice f scale b = (o', none)) :
    ∃ im bkg bm wt ns, f.image = .ok im ∧ f.bkg = .ok bkg ∧ f.bmask = .ok bm ∧ f.weight = .ok wt ∧
      f.noises = .ok ns ∧ bkg.nrow = im.nrow ∧ bkg.ncol = im.ncol ∧
      ∃ s, Pizza.setSlice ⟨im, bkg, bm, wt, ns⟩ scale b = .ok s ∧
        o' = { o with xStart := some s.xStart, yStart := some s.yStart, boxSize := some s.boxSize,
                      image := some s.image, bmask := some s.bmask, weight := some s.weight,
                      noises := some s.noises } := by
  unfold SEObj.setSlice at h
  simp only at h
  split at h
  · cases h
  rename_i hsq
  split at h
  · cases h
  rename_i im him
  split at h
  · cases h
  rename_i bkg hbkg
  split at h
  · cases h
  rename_i hshape
  split at h
  · cases h
  rename_i bm hbm
  split at h
  · cases h
  rename_i wt hwt
  split at h
  · cases h
  rename_i ns hns
  cases h
  push Not at hshape
  exact ⟨im, bkg, bm, wt, ns, him, hbkg, hbm, hwt, hns, hshape.1.symm, hshape.2.symm, _,
    if_neg hsq, rfl⟩

theorem resamplePsf_total (o : SEObj) (w : Lookups) (px py : ℚ) (pb : Nat) (dx dy : ℚ) (psf : Img ℚ)
    (xs ys : ℤ) (h1 : o.psf = some psf) (h2 : o.psfBoxSize = some psf.nrow)
    (h3 : o.psfXStart = some xs) (h4 : o.psfYStart = some ys) (h5 : psf.ncol = psf.nrow) :
    ∃ out, o.resamplePsf w px py pb dx dy = .ok out := by
  unfold SEObj.resamplePsf
  rw [h2]
  simp only [h1, h3, h4, attr_some, ok_bind, lanczosNan_eq]
  rw [show ∀ g, divArea psf g psf.nrow = .ok ⟨psf.nrow, psf.nrow, fun r c => psf.px r c / g r c⟩ from
    fun g => if_pos ⟨rfl, h5⟩, ok_bind]
  exact ⟨_, rfl⟩

theorem mapM_total {α β : Type} {l : List α} {f : α → Except Err β}
    (h : ∀ a ∈ l, ∃ b, f a = .ok b) : ∃ out, l.mapM f = .ok out := by
  induction l with
  | nil => exact ⟨[], rfl⟩
  | cons a l ih =>
    obtain ⟨b, hb⟩ := h a (by simp)
    obtain ⟨bs, hbs⟩ := ih fun a' ha' => h a' (by simp [ha'])
    exact ⟨b :: bs, by rw [List.mapM_cons, hb, ok_bind, hbs, ok_bind]; rfl⟩

/-- `resample` returns on an object whose attributes are all set with fitting shapes. -/
theorem resample_total (o : SEObj) (w : Lookups) (xs ys : ℚ) (box : Nat) (px py : ℚ) (pb : Nat)
    (psf im frac only : Img ℚ) (noises : List (Img ℚ)) (bm pm : Img (BitVec 32)) (xp yp sx sy sb : ℤ)
    (e7 : o.psf = some psf) (e13 : o.psfBoxSize = some psf.nrow) (e11 : o.psfXStart = some xp)
    (e12 : o.psfYStart = some yp) (hpsf : psf.ncol = psf.nrow)
    (e8 : o.xStart = some sx) (e9 : o.yStart = some sy) (e10 : o.boxSize = some sb)
    (e1 : o.image = some im) (e2 : o.noises = some noises) (e3 : o.pmask = some pm)
    (e4 : o.interpFrac = some frac) (e5 : o.interpOnlyImage = some only) (e6 : o.bmask = some bm)
    (s1 : im.nrow = sb.toNat ∧ im.ncol = sb.toNat) (s2 : frac.nrow = sb.toNat ∧ frac.ncol = sb.toNat)
    (s3 : only.nrow = sb.toNat ∧ only.ncol = sb.toNat)
    (s4 : ∀ n ∈ noises, n.nrow = sb.toNat ∧ n.ncol = sb.toNat)
    (s5 : bm.nrow ≤ pm.nrow ∧ bm.ncol ≤ pm.ncol) :
    ∃ out, o.resample w xs ys box px py pb = .ok out := by
  unfold SEObj.resample
  rw [e10, e13, e3]
  simp only
  obtain ⟨p, hp⟩ := resamplePsf_total o w px py pb 0 0 psf xp yp e7 e13 e11 e12 hpsf
  unfold SEObj.resampleGo
  rw [hp, ok_bind, e8, e9, e1, e2, e4, e5, e6]
  simp only [attr_some, ok_bind]
  obtain ⟨rim, hrim⟩ := resampleOne_total im (fun r c => w.areaSe ((c : ℚ) + sx) ((r : ℚ) + sy))
    sb.toNat box (gridList box (localPos w xs ys sx sy))
    (gridList box fun r c => w.areaCoadd ((c : ℚ) + xs) ((r : ℚ) + ys)) s1.1 s1.2
  rw [hrim, ok_bind]
  obtain ⟨rns, hrns⟩ := mapM_total (l := noises) (f := fun n => resampleOne n
    (fun r c => w.areaSe ((c : ℚ) + sx) ((r : ℚ) + sy))
    sb.toNat (gridList box (localPos w xs ys sx sy))
    (gridList box fun r c => w.areaCoadd ((c : ℚ) + xs) ((r : ℚ) + ys)) box)
    (fun n hn => resampleOne_total n _ _ _ _ _ (s4 n hn).1 (s4 n hn).2)
  rw [hrns, ok_bind]
  have hd : ∀ (a : Img ℚ) g, a.nrow = sb.toNat ∧ a.ncol = sb.toNat →
      divArea a g sb.toNat = .ok ⟨sb.toNat, sb.toNat, fun r c => a.px r c / g r c⟩ :=
    fun a g h => if_pos h
  rw [hd _ _ s3, ok_bind, hd _ _ s2, ok_bind,
    lanczosNan2_eq _ _ (by rfl) (by rfl), ok_bind, if_neg]
  · exact ⟨_, rfl⟩
  · rw [anyPix_iff]
    rintro ⟨r, _, c, _, h⟩
    simp only [nearIn, Bool.and_eq_true, decide_eq_true_eq, Bool.not_eq_true', decide_eq_false_iff_not] at h
    omega

/-- C42: a slice, PSF and interpolated data of the right shapes, set in this order by calls that
returned, are all that is needed for `resample` to return data, for every destination grid. -/
theorem C42_complete_returns (o o1 o2 o3 : SEObj) (f : SEReads) (scale : ℚ) (b : Bounds ℤ)
    (x y : ℚ) (flag : Except Err Bool) (fl : Bool) (psf : Img ℚ) (im : Img ℚ)
    (noises : List (Img ℚ)) (mask : Img (BitVec 32))
    (h1 : o.setSlice f scale b = (o1, none))
    (h2 : o1.setPsf x y flag (.ok psf) = (o2, .ok fl)) (hpsf : psf.ncol = psf.nrow)
    (h3 : o2.setInterp im noises mask = (o3, none))
    (hshape : ∀ s, o1.boxSize = some s → im.nrow = s.toNat ∧ im.ncol = s.toNat ∧
      (∀ n ∈ noises, n.nrow = s.toNat ∧ n.ncol = s.toNat) ∧
      ∀ m, o1.bmask = some m → m.nrow = s.toNat ∧ m.ncol = s.toNat)
    (w : Lookups) (xs ys : ℚ) (box : Nat) (px py : ℚ) (pb : Nat) :
    ∃ out, o3.resample w xs ys box px py pb = .ok out := by
  obtain ⟨_, _, _, _, _, _, _, _, _, _, _, _, s, _, rfl⟩ := setSlice_ok h1
  obtain ⟨hb, -⟩ := C10_set_psf _ x y flag (.ok psf)
  obtain ⟨-, ip, xp, yp, hip, ho2, -⟩ := hb fl (by rw [h2])
  rw [h2] at ho2
  cases hip
  subst ho2
  obtain ⟨old, frac, only, -, -, e1, e2, e3, e4, e5, d1, d2, d3, d4, d5, d6, -, -, -, e6, -, e7, e8, e9,
    e10, e11, e12, e13⟩ := C39_interp_bookkeeping _ _ _ _ _ h3
  obtain ⟨s1, s2, s3, s4⟩ := hshape s.boxSize rfl
  obtain ⟨s5, s6⟩ := s4 s.bmask rfl
  exact resample_total o3 w xs ys box px py pb psf im frac only noises _ _ _ _ _ _ _ e7 e13 e11 e12
    hpsf e8 e9 e10 e1 e2 e3 e4 e5 e6 ⟨s1, s2⟩ ⟨d1.trans s1, d2.trans s2⟩ ⟨d3.trans s1, d4.trans s2⟩ s3
    ⟨by rw [d5, s1, s5], by rw [d6, s2, s6]⟩

/-- C42, a read that failed: if the mask of the first slice could not be read, then `resample` passes its check and
raises an AttributeError, whatever was set afterwards. -/
theorem C42_unread_mask (o1 o2 o3 : SEObj) (f : SEReads) (scale : ℚ) (b : Bounds ℤ) (e : Err)
    (x y : ℚ) (flag : Except Err Bool) (fl : Bool) (psf : Img ℚ) (im0 bkg im : Img ℚ)
    (noises : List (Img ℚ)) (mask : Img (BitVec 32))
    (hsq : b.colmax - b.colmin = b.rowmax - b.rowmin) (hi : f.image = .ok im0) (hb : f.bkg = .ok bkg)
    (hs : im0.nrow = bkg.nrow ∧ im0.ncol = bkg.ncol) (hm : f.bmask = .error e)
    (h1 : SEObj.setSlice {} f scale b = (o1, some e))
    (h2 : o1.setPsf x y flag (.ok psf) = (o2, .ok fl)) (hpsf : psf.ncol = psf.nrow)
    (h3 : o2.setInterp im noises mask = (o3, none))
    (him : im.nrow = (b.colmax - b.colmin + 1).toNat ∧ im.ncol = (b.colmax - b.colmin + 1).toNat)
    (hns : ∀ n ∈ noises, n.nrow = (b.colmax - b.colmin + 1).toNat ∧ n.ncol = (b.colmax - b.colmin + 1).toNat)
    (w : Lookups) (xs ys : ℚ) (box : Nat) (px py : ℚ) (pb : Nat) :
    o3.resample w xs ys box px py pb = .error .attributeError := by
  unfold SEObj.setSlice at h1
  simp only at h1
  rw [if_neg (by omega), hi] at h1
  simp only [hb] at h1
  rw [if_neg (by omega), hm] at h1
  simp only [Prod.mk.injEq, and_true] at h1
  subst h1
  obtain ⟨hb, -⟩ := C10_set_psf _ x y flag (.ok psf)
  obtain ⟨-, ip, xp, yp, hip, ho2, -⟩ := hb fl (by rw [h2])
  rw [h2] at ho2
  cases hip
  subst ho2
  obtain ⟨old, frac, only, -, -, e1, e2, e3, e4, e5, d1, d2, d3, d4, d5, d6, -, -, -, e6, -, e7, e8, e9,
    e10, e11, e12, e13⟩ := C39_interp_bookkeeping _ _ _ _ _ h3
  unfold SEObj.resample
  rw [e10, e13, e3]
  simp only
  obtain ⟨p, hp⟩ := resamplePsf_total o3 w px py pb 0 0 psf xp yp e7 e13 e11 e12 hpsf
  unfold SEObj.resampleGo
  rw [hp, ok_bind, e8, e9, e1, e2, e4, e5, e6]
  simp only [attr_some, ok_bind]
  set sb := b.colmax - b.colmin + 1
  obtain ⟨rim, hrim⟩ := resampleOne_total im (fun r c => w.areaSe ((c : ℚ) + b.colmin) ((r : ℚ) + b.rowmin))
    sb.toNat box (gridList box (localPos w xs ys b.colmin b.rowmin))
    (gridList box fun r c => w.areaCoadd ((c : ℚ) + xs) ((r : ℚ) + ys)) him.1 him.2
  rw [hrim, ok_bind]
  obtain ⟨rns, hrns⟩ := mapM_total (l := noises) (f := fun n => resampleOne n
    (fun r c => w.areaSe ((c : ℚ) + b.colmin) ((r : ℚ) + b.rowmin))
    sb.toNat (gridList box (localPos w xs ys b.colmin b.rowmin))
    (gridList box fun r c => w.areaCoadd ((c : ℚ) + xs) ((r : ℚ) + ys)) box)
    (fun n hn => resampleOne_total n _ _ _ _ _ (hns n hn).1 (hns n hn).2)
  rw [hrns, ok_bind]
  have hd : ∀ (a : Img ℚ) g, a.nrow = sb.toNat ∧ a.ncol = sb.toNat →
      divArea a g sb.toNat = .ok ⟨sb.toNat, sb.toNat, fun r c => a.px r c / g r c⟩ :=
    fun a g h => if_pos h
  rw [hd only _ ⟨d3.trans him.1, d4.trans him.2⟩, ok_bind, hd frac _ ⟨d1.trans him.1, d2.trans him.2⟩, ok_bind,
    lanczosNan2_eq _ _ (by rfl) (by rfl), ok_bind]
  rfl

/-- The files of the examples: a 4 by 4 image. -/
def exampleReads : SEReads where
  image := .ok ⟨4, 4, fun r c => r + c⟩
  bkg := .ok ⟨4, 4, fun _ _ => 1⟩
  bmask := .ok ⟨4, 4, fun _ _ => 0⟩
  weight := .ok ⟨4, 4, fun _ _ => 2⟩
  noises := .ok []

/-- A complete history. -/
def exampleOps : List SEOp :=
  [.setSlice exampleReads 1 ⟨0, 2, 1, 3⟩, .setPsf 2 1 (.ok false) (.ok ⟨3, 3, fun _ _ => 1 / 9⟩),
    .setInterp ⟨3, 3, fun _ _ => 5⟩ [] ⟨3, 3, fun _ _ => 1⟩]

theorem example_psf : ∃ b, (SEObj.setPsf (SEObj.after [.setSlice exampleReads 1 ⟨0, 2, 1, 3⟩]) 2 1
    (.ok false) (.ok ⟨3, 3, fun _ _ => 1 / 9⟩)).2 = .ok b := by
  obtain ⟨xs, ys, hb, -, -⟩ := (C09_stamp 2 1 3).1 (by norm_num)
  refine ⟨false, ?_⟩
  simp only [SEObj.setPsf]
  rw [show (((⟨3, 3, fun _ _ => 1 / 9⟩ : Img ℚ).nrow : ℕ) : ℤ) = 3 from rfl, hb]

example : (∃ op ∈ exampleOps, op.isSquareSlice) ∧ Returned exampleOps SEOp.isPsf := by
  refine ⟨⟨.setSlice exampleReads 1 ⟨0, 2, 1, 3⟩, by simp [exampleOps],
    show (3 : ℤ) - 1 = 2 - 0 by norm_num⟩, ?_⟩
  obtain ⟨b, hb⟩ := example_psf
  refine ⟨[.setSlice exampleReads 1 ⟨0, 2, 1, 3⟩], _, _, rfl, trivial, ?_⟩
  simp only [SEObj.call]
  rw [hb]; rfl

/-- Finding: the check looks only at attributes, so a new call of `set_slice` does not reset it.
The processing mask and the interpolated data of the former slice stay in place, and `resample`
accepts the object. -/
theorem C42_new_slice_keeps_old_mask (ops : List SEOp) (f : SEReads) (scale : ℚ) (b : Bounds ℤ)
    (w : Lookups) (xs ys : ℚ) (box : Nat) (px py : ℚ) (pb : Nat)
    (h : (SEObj.after ops).resample w xs ys box px py pb ≠ .error .runtimeError) :
    (SEObj.after (ops ++ [.setSlice f scale b])).resample w xs ys box px py pb ≠
      .error .runtimeError ∧
    (SEObj.after (ops ++ [.setSlice f scale b])).pmask = (SEObj.after ops).pmask ∧
    (SEObj.after (ops ++ [.setSlice f scale b])).interpOnlyImage =
      (SEObj.after ops).interpOnlyImage := by
  rw [after_concat]
  obtain ⟨a1, _, _, _, a2, _, a5, a3, -⟩ := setSlice_attrs (SEObj.after ops) f scale b
  refine ⟨?_, a2, a5⟩
  rw [Ne, resample_runtime, not_not] at h ⊢
  simp only [SEObj.call, a1, a2]
  exact ⟨a3.2 (.inl h.1), h.2⟩

/-- The calls of the complete history return (example). -/
theorem example_called : ∃ o1 o2 o3 fl, SEObj.setSlice {} exampleReads 1 ⟨0, 2, 1, 3⟩ = (o1, none) ∧
    o1.setPsf 2 1 (.ok false) (.ok ⟨3, 3, fun _ _ => 1 / 9⟩) = (o2, .ok fl) ∧
    o2.setInterp ⟨3, 3, fun _ _ => 5⟩ [] ⟨3, 3, fun _ _ => 1⟩ = (o3, none) ∧
    o1 = SEObj.after [.setSlice exampleReads 1 ⟨0, 2, 1, 3⟩] ∧
    o2 = SEObj.after [.setSlice exampleReads 1 ⟨0, 2, 1, 3⟩,
      .setPsf 2 1 (.ok false) (.ok ⟨3, 3, fun _ _ => 1 / 9⟩)] ∧
    o1.boxSize = some 3 ∧ ∃ m, o1.bmask = some m ∧ m.nrow = 3 ∧ m.ncol = 3 := by
  obtain ⟨xs, ys, hb, -, -⟩ := (C09_stamp 2 1 3).1 (by norm_num)
  have e1 : SEObj.setSlice {} exampleReads 1 ⟨0, 2, 1, 3⟩ = (_, none) := rfl
  have e2 : SEObj.setPsf (SEObj.setSlice {} exampleReads 1 ⟨0, 2, 1, 3⟩).1
      2 1 (.ok false) (.ok ⟨3, 3, fun _ _ => 1 / 9⟩) =
      ({ (SEObj.setSlice {} exampleReads 1 ⟨0, 2, 1, 3⟩).1 with
        psf := some ⟨3, 3, fun _ _ => 1 / 9⟩, psfXStart := some xs, psfYStart := some ys,
        psfBoxSize := some 3 }, .ok false) := by
    simp only [SEObj.setPsf]
    rw [show (((⟨3, 3, fun _ _ => 1 / 9⟩ : Img ℚ).nrow : ℕ) : ℤ) = 3 from rfl, hb]
  have e3 : SEObj.setInterp { (SEObj.setSlice {} exampleReads 1 ⟨0, 2, 1, 3⟩).1 with
        psf := some ⟨3, 3, fun _ _ => 1 / 9⟩, psfXStart := some xs, psfYStart := some ys,
        psfBoxSize := some 3 } ⟨3, 3, fun _ _ => 5⟩ [] ⟨3, 3, fun _ _ => 1⟩ = (_, none) := rfl
  exact ⟨_, _, _, _, e1, e2, e3, rfl, (congrArg Prod.fst e2).symm, rfl, _, rfl, rfl, rfl⟩

/-- `C42_complete_returns` on the complete history. -/
example (w : Lookups) : ∃ o1 o2 o3 fl, SEObj.setSlice {} exampleReads 1 ⟨0, 2, 1, 3⟩ = (o1, none) ∧
    o1.setPsf 2 1 (.ok false) (.ok ⟨3, 3, fun _ _ => 1 / 9⟩) = (o2, .ok fl) ∧
    o2.setInterp ⟨3, 3, fun _ _ => 5⟩ [] ⟨3, 3, fun _ _ => 1⟩ = (o3, none) ∧
    ∃ out, o3.resample w 0 0 2 0 0 3 = .ok out := by
  obtain ⟨o1, o2, o3, fl, e1, e2, e3, _, _, hbox, m, hm, hm1, hm2⟩ := example_called
  refine ⟨o1, o2, o3, fl, e1, e2, e3, C42_complete_returns {} o1 o2 o3 exampleReads 1 ⟨0, 2, 1, 3⟩ 2 1 _
    fl _ _ _ _ e1 e2 rfl e3 (fun s hs => ?_) w 0 0 2 0 0 3⟩
  rw [hbox] at hs
  cases hs
  refine ⟨rfl, rfl, by simp, fun m' h' => ?_⟩
  rw [hm] at h'
  cases h'
  exact ⟨hm1, hm2⟩

/-- `C42_all_returned` on the complete history: every call returned, and `resample` does not
complain. -/
theorem example_accepted (w : Lookups) : (SEObj.after exampleOps).resample w 0 0 2 0 0 3 ≠ .error .runtimeError := by
  obtain ⟨o1, o2, o3, fl, e1, e2, e3, h1, h2, _⟩ := example_called
  rw [Ne, C42_all_returned exampleOps ?_, not_not]
  · exact ⟨⟨_, List.mem_cons_self .., trivial⟩,
      ⟨_, List.mem_cons_of_mem _ (List.mem_cons_self ..), trivial⟩,
      ⟨_, List.mem_cons_of_mem _ (List.mem_cons_of_mem _ (List.mem_cons_self ..)), trivial⟩⟩
  · intro pre op post h
    rcases pre with _ | ⟨a, _ | ⟨b, _ | ⟨c, t⟩⟩⟩ <;> simp only [exampleOps, List.nil_append,
      List.cons_append, List.cons.injEq] at h
    · rw [← h.1]
      exact congrArg (fun p : SEObj × Option Err => p.2.isNone) e1
    · obtain ⟨rfl, rfl, -⟩ := h
      rw [← h1]
      simp only [SEObj.call]
      rw [e2]
      rfl
    · obtain ⟨rfl, rfl, rfl, -⟩ := h
      rw [← h2]
      simp only [SEObj.call]
      rw [e3]
      rfl
    · exact absurd h.2.2.2 (by simp)

/-- `C42_new_slice_keeps_old_mask` after the complete history (which uses `C42_all_returned`). -/
example (w : Lookups) := C42_new_slice_keeps_old_mask exampleOps exampleReads 1 ⟨1, 3, 0, 2⟩ w 0 0 2 0 0 3
  (example_accepted w)

/-- Finding: a call of `set_slice` that raises while reading the mask leaves the object with the
new position and the former mask, and with the box size set. -/
theorem C42_failed_slice_is_kept (o : SEObj) (f : SEReads) (scale : ℚ) (b : Bounds ℤ) (e : Err)
    (hsq : b.colmax - b.colmin = b.rowmax - b.rowmin)
    (im bkg : Img ℚ) (h1 : f.image = .ok im) (h2 : f.bkg = .ok bkg) (hs : im.nrow = bkg.nrow ∧ im.ncol = bkg.ncol)
    (h3 : f.bmask = .error e) :
    (o.setSlice f scale b).2 = some e ∧
    (o.setSlice f scale b).1.boxSize = some (b.colmax - b.colmin + 1) ∧
    (o.setSlice f scale b).1.xStart = some b.colmin ∧
    (o.setSlice f scale b).1.bmask = o.bmask := by
  unfold SEObj.setSlice
  simp only
  rw [if_neg (by omega), h1]
  simp only [h2]
  rw [if_neg (by omega), h3]
  simp

/-- `C42_failed_slice_is_kept`: the mask file cannot be read. -/
example := C42_failed_slice_is_kept {} { exampleReads with bmask := .error .ioError } 1 ⟨0, 2, 1, 3⟩
  .ioError rfl _ _ rfl rfl ⟨rfl, rfl⟩ rfl

/-- A history of this kind. -/
example (w : Lookups) : ∃ o1 o2 o3 fl, SEObj.setSlice {} { exampleReads with bmask := .error .ioError } 1 ⟨0, 2, 1, 3⟩ =
      (o1, some .ioError) ∧ o1.setPsf 2 1 (.ok false) (.ok ⟨3, 3, fun _ _ => 1 / 9⟩) = (o2, .ok fl) ∧
    o2.setInterp ⟨3, 3, fun _ _ => 5⟩ [] ⟨3, 3, fun _ _ => 1⟩ = (o3, none) ∧
    o3.resample w 0 0 2 0 0 3 = .error .attributeError := by
  obtain ⟨xs, ys, hb, -, -⟩ := (C09_stamp 2 1 3).1 (by norm_num)
  have e1 : SEObj.setSlice {} { exampleReads with bmask := .error .ioError } 1 ⟨0, 2, 1, 3⟩ = (_, some .ioError) := rfl
  have e2 : ∃ o2, SEObj.setPsf (SEObj.setSlice {} { exampleReads with bmask := .error .ioError } 1 ⟨0, 2, 1, 3⟩).1
      2 1 (.ok false) (.ok ⟨3, 3, fun _ _ => 1 / 9⟩) =
      ({ (SEObj.setSlice {} { exampleReads with bmask := .error .ioError } 1 ⟨0, 2, 1, 3⟩).1 with
        psf := some ⟨3, 3, fun _ _ => 1 / 9⟩, psfXStart := some xs, psfYStart := some ys, psfBoxSize := some 3 }, .ok o2) := by
    refine ⟨false, ?_⟩
    simp only [SEObj.setPsf]
    rw [show (((⟨3, 3, fun _ _ => 1 / 9⟩ : Img ℚ).nrow : ℕ) : ℤ) = 3 from rfl, hb]
  obtain ⟨fl, e2⟩ := e2
  have e3 : SEObj.setInterp { (SEObj.setSlice {} { exampleReads with bmask := .error .ioError } 1 ⟨0, 2, 1, 3⟩).1 with
        psf := some ⟨3, 3, fun _ _ => 1 / 9⟩, psfXStart := some xs, psfYStart := some ys, psfBoxSize := some 3 }
      ⟨3, 3, fun _ _ => 5⟩ [] ⟨3, 3, fun _ _ => 1⟩ = (_, none) := rfl
  exact ⟨_, _, _, fl, e1, e2, e3, C42_unread_mask (im0 := ⟨4, 4, fun r c => r + c⟩)
    (bkg := ⟨4, 4, fun _ _ => 1⟩) (hsq := rfl) (hi := rfl) (hb := rfl) (hs := ⟨rfl, rfl⟩) (hm := rfl) (h1 := e1)
    (h2 := e2) (hpsf := rfl) (h3 := e3) (him := ⟨rfl, rfl⟩) (hns := by simp) ..⟩

example : (SEObj.setSlice {} { exampleReads with bmask := .error .ioError } 1 ⟨0, 2, 1, 3⟩).2 =
    some .ioError := rfl

/-! ### C45 -/

/-- C45: a grid with a non-finite value is flagged. -/
theorem C45_non_finite (res : List Flt) (maxDiff : ℚ) (v : Flt) (hv : v ∈ res)
    (hn : ∀ q, v ≠ .fin q) : badPiffFlag res maxDiff = .ok true := by
  unfold badPiffFlag
  simp only
  rw [if_neg (List.ne_nil_of_mem hv), if_pos]
  rw [List.any_eq_true]
  refine ⟨v, hv, ?_⟩
  cases v <;> simp_all [Flt.notFinite]

/-- `C45_non_finite`: one NaN among finite values. -/
example := C45_non_finite [.fin 3, .nan, .fin 1] 10 .nan (by simp) (by simp)

/-- C45: a grid of finite values is flagged iff some value deviates from the median by more than
the threshold. -/
theorem C45_finite (qs : List ℚ) (hne : qs ≠ []) (m : ℚ) (hm : IsMedian qs m) (maxDiff : ℚ) :
    ∃ b, badPiffFlag (qs.map .fin) maxDiff = .ok b ∧
      (b = true ↔ ∃ q ∈ qs, maxDiff < |q - m|) := by
  have hm' : median qs = m := isMedian_unique (median_isMedian hne) hm
  have hany : (qs.map Flt.fin).any Flt.notFinite = false := by
    rw [List.any_eq_false]; simp [Flt.notFinite]
  have hfin : (qs.map Flt.fin).filterMap Flt.fin? = qs := by
    rw [List.filterMap_map]
    exact List.filterMap_some
  unfold badPiffFlag
  simp only
  rw [if_neg (by simpa using hne), hany, if_neg (by simp), hfin, hm']
  obtain ⟨d, hd, hmem, hmax⟩ := qmax?_spec (l := qs.map fun q => |q - m|) (by simpa using hne)
  rw [hd, ok_bind]
  refine ⟨_, rfl, ?_⟩
  rw [decide_eq_true_eq]
  constructor
  · intro hlt
    obtain ⟨q, hq, rfl⟩ := List.mem_map.1 hmem
    exact ⟨q, hq, hlt⟩
  · rintro ⟨q, hq, hlt⟩
    exact lt_of_lt_of_le hlt (hmax _ (List.mem_map.2 ⟨q, hq, rfl⟩))

/-- `C45_finite` on four values with the median 5/2. -/
example := C45_finite [3, 1, 2, 10] (by simp) (5 / 2)
  ⟨[1, 2, 3, 10], by decide, by decide, 2, 3, rfl, rfl, by norm_num⟩ 5

/-- C45: an empty grid raises. -/
theorem C45_empty (maxDiff : ℚ) : badPiffFlag [] maxDiff = .error .valueError := rfl

/-- The hypothesis of `C45_finite` can be met for every non-empty grid, by exactly one `m`. -/
theorem C45_median_exists_unique {qs : List ℚ} (h : qs ≠ []) : ∃! m, IsMedian qs m :=
  ⟨_, median_isMedian h, fun _ h' => isMedian_unique h' (median_isMedian h)⟩

/-- `C45_median_exists_unique` on the same values. -/
example := C45_median_exists_unique (qs := [3, 1, 2, 10]) (by simp)

example : IsMedian [3, 1, 2, 10] (5 / 2) :=
  ⟨[1, 2, 3, 10], by decide, by decide, 2, 3, rfl, rfl, by norm_num⟩

end Pizza
