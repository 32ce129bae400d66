import Verif.Props.PsfMoments
import Verif.Props.PointSourceExamples

/-!
Cases that meet the hypotheses of C150.
-/

namespace Pizza

/-- The source with the star, with the same area for the pixels of the SE image and of the coadd. -/
def exBigSrc : Src :=
  { exStarSrc with lookups := .ok ⟨fun x y => some (x + 10, y + 10), fun _ _ => 2, fun _ _ => 2⟩ }

/-- A row with a coadd stamp of 9 x 9 pixels for the PSF. -/
def bigRow (o : ObjRow) : ObjRow := { o with psfBoxSize := 9 }

/-- A tile with such rows, and one or two such sources. -/
def exBig : SliceEnv Unit Nat Unit :=
  { exStar with
    objects := exStar.objects.map bigRow
    sources := fun ra _ _ _ => if ra = 1 then [exBigSrc, exBigSrc] else [exBigSrc] }

theorem exBig_srcs {a b c d : ℚ} {s : Src} (hs : s ∈ exBig.sources a b c d) : s = exBigSrc := by
  simp only [exBig] at hs
  split at hs <;> simpa using hs

theorem exBig_sound : SoundEnv exBig 3 9 where
  boxPos := by norm_num
  psfOdd := rfl
  rows := by
    intro row hrow
    obtain ⟨o, ho, rfl⟩ := List.mem_map.1 hrow
    exact ⟨(exStar_sound.rows o ho).1, rfl⟩
  frac := by show (1 : ℚ) ≤ 4; norm_num
  shape := by
    intro a b c d s hs
    rw [exBig_srcs hs]
    refine ⟨?_, ?_, ?_, ?_⟩ <;> intro a ha <;> cases ha
    · exact ⟨rfl, rfl⟩
    · exact ⟨rfl, rfl⟩
    · exact ⟨rfl, rfl⟩
    · simp only [List.mem_singleton, forall_eq]
      exact ⟨rfl, rfl⟩
  noises := by
    intro a b c d s hs l hl
    rw [exBig_srcs hs] at hl
    cases hl
    rfl
  psf := by
    intro a b c d s hs l hl
    rw [exBig_srcs hs] at hl
    cases hl
    rfl
  keeps := exTile_sound.keeps
  fwhm := exTile_sound.fwhm

/-- The slice is computed without an error, and has pixels. -/
theorem exBig_ok : (match coaddSingleSlice exBig 0 7 with | .ok r => r.pix.isSome | _ => false) = true := by
  decide +kernel

/-- The corner of the coadd stamp of the PSF. -/
theorem exBig_layout : (match coaddPsfLayout exBig.fwd exBig.inv (bigRow exRow0).ra (bigRow exRow0).dec 9 exBig.offset with
    | .ok lay => decide (lay.startCol = -3 ∧ lay.startRow = -3) | _ => false) = true := by decide +kernel

/-- C150: the epochs of the slice meet the hypothesis, with a centroid at column 1 of the coadd. -/
theorem exBig_along (lay : PsfLayout) (h1 : lay.startCol = -3) (h2 : lay.startRow = -3) (e : Epoch) (he : e.src = exBigSrc) :
    PsfAlong lay 9 1 0 1 (3 / 8) (3 / 8) e := by
  refine ⟨⟨fun x y => some (x + 10, y + 10), fun _ _ => 2, fun _ _ => 2⟩, exStamp, 10, 10, 10, 10, by rw [he]; rfl,
    by rw [he]; exact ⟨rfl, exStar_stamp.x, exStar_stamp.y⟩, ⟨fun _ _ _ _ => rfl, ⟨2, by norm_num, fun _ _ _ _ => rfl, fun _ _ _ _ => rfl⟩,
      ?_, ?_, ?_, ?_⟩, ?_, by decide +kernel, by decide +kernel, by decide +kernel, by decide +kernel⟩
  · rw [h1]; norm_num
  · rw [h1]; show ((10 : ℤ) : ℚ) + ((3 : Nat) : ℚ) + 2 < -3 + 10 + ((9 : Nat) : ℚ); norm_num
  · rw [h2]; norm_num
  · rw [h2]; show ((10 : ℤ) : ℚ) + ((3 : Nat) : ℚ) + 2 < -3 + 10 + ((9 : Nat) : ℚ); norm_num
  · intro i _ j _
    show (0 : ℚ) ≤ if i = 1 ∧ j = 1 then 1 / 2 else 1 / 16
    split_ifs <;> norm_num

/-- C150: the centroid of the PSF of the slice. -/
example : ∃ r p, ∃ f : Nat → Nat → ℚ, coaddSingleSlice exBig 0 7 = .ok r ∧ r.pix = some p ∧
    (∀ y < 9, ∀ x < 9, p.psf[y * 9 + x]? = some (.fin (f y x))) ∧
    |(∑ y ∈ Finset.range 9, ∑ x ∈ Finset.range 9, f y x * ((x : ℚ) - 3)) - 1| ≤ (0.03 : ℚ) := by
  have hok : ∃ r p, coaddSingleSlice exBig 0 7 = .ok r ∧ r.pix = some p := by
    have h := exBig_ok
    split at h
    · exact ⟨_, _, by assumption, (Option.isSome_iff_exists.1 h).choose_spec⟩
    · cases h
  obtain ⟨r, p, hr, hp⟩ := hok
  obtain ⟨row, lay, gaia, cfg, inp, h1, h2, h3, h4, h5, h6⟩ :=
    C150_centroid_and_size exBig 3 9 exBig_sound sincVal sincPade_eq 0 7 r hr
  obtain ⟨_, row', lay', gaia', cfg', inp', h1', h2', h3', h4', h5', _, _, h7', _⟩ :=
    C93_slice exBig 3 9 exBig_sound 0 7 r hr
  have hrow : row = bigRow exRow0 := by
    have : (exObjects.map bigRow)[0]? = some (bigRow exRow0) := by
      rw [List.getElem?_map, show exObjects[0]? = some exRow0 from List.getElem?_eq_getElem _]
      rfl
    exact Option.some.inj (h1.symm.trans this)
  subst hrow
  have hlay : lay.startCol = -3 ∧ lay.startRow = -3 := by
    have h := exBig_layout
    rw [show coaddPsfLayout exBig.fwd exBig.inv (bigRow exRow0).ra (bigRow exRow0).dec 9 exBig.offset = _ from h2] at h
    simpa using h
  have hx := exBig_sound.sane (List.mem_of_getElem? h1) gaia (bigRow exRow0).ra (bigRow exRow0).dec lay.raPsf lay.decPsf
  rw [← h4.eq] at hx
  have hsrc : ∀ e ∈ inp.slices, e.src = exBigSrc := fun e he => exBig_srcs (used_epoch _ _ _ _ _ hx h5 e he).1
  have hne : inp.slices ≠ [] := by
    intro h0
    cases h1.symm.trans h1'
    cases h2.symm.trans h2'
    have hg : gaia = gaia' := by
      cases h3 with
      | none => cases h3' with
        | none => rfl
        | some _ _ _ _ _ h => cases h
      | some _ _ _ _ _ h => cases h
    subst hg
    have hc : cfg = cfg' := by rw [h4.eq, h4'.eq]
    subst hc
    cases h5.symm.trans h5'
    rw [(h7' h0).2] at hp
    cases hp
  obtain ⟨p', f, k1, k2, k3⟩ := h6 hne
  refine ⟨r, p', f, hr, k1, k2, ?_⟩
  have := (k3 1 0 1 (3 / 8) (3 / 8) fun e he => exBig_along lay hlay.1 hlay.2 e (hsrc e he)).1
  rw [hlay.1, hlay.2] at this
  simp only [one_mul, zero_mul, add_zero, abs_one, abs_zero, ← sub_eq_add_neg] at this
  exact this.trans (by norm_num)

end Pizza
