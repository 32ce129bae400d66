import Verif.Props.Masked
import Verif.Props.SliceExamples

/-!
Cases that meet the hypotheses of C120.
-/

namespace Pizza

/-- A source whose CCD pixel (4, 4) has weight `w`, mask `m`, and `z` in the image, in the background and in
the noise image. -/
def exStain (w : ℚ) (m : BitVec 32) (z : ℚ) : Src :=
  { exNoisy (exSrc 0 w m false) with
    imageId := 2
    reads := { (exNoisy (exSrc 0 w m false)).reads with
      image := .ok ⟨8, 8, fun r c => if r = 4 ∧ c = 4 then z else 5⟩
      bkg := .ok ⟨8, 8, fun r c => if r = 4 ∧ c = 4 then 2 * z else 0⟩
      noises := .ok [⟨8, 8, fun r c => if r = 4 ∧ c = 4 then z else 1⟩] } }

/-- A tile with such a source and another one. -/
def exStained (w : ℚ) (m : BitVec 32) (z : ℚ) : SliceEnv Unit Nat Unit :=
  { exTile with
    sources := fun ra _ _ _ => if ra = 1 then [exNoisy (exSrc 0 2 0 false), exStain w m z] else [] }

theorem exStained_srcs {w : ℚ} {m : BitVec 32} {z a b c d : ℚ} {s : Src}
    (hs : s ∈ (exStained w m z).sources a b c d) :
    s = exNoisy (exSrc 0 2 0 false) ∨ s = exStain w m z := by
  simp only [exStained] at hs
  split at hs
  · simpa using hs
  · cases hs

theorem exStained_sound (w : ℚ) (m : BitVec 32) (z : ℚ) : SoundEnv (exStained w m z) 3 3 where
  boxPos := by norm_num
  psfOdd := rfl
  rows := exTile_sound.rows
  frac := le_refl _
  shape := by
    intro a b c d s hs
    rcases exStained_srcs hs with rfl | rfl
    all_goals
      refine ⟨?_, ?_, ?_, ?_⟩ <;> intro a ha <;> cases ha
      · exact ⟨rfl, rfl⟩
      · exact ⟨rfl, rfl⟩
      · exact ⟨rfl, rfl⟩
      · simp only [List.mem_singleton, forall_eq]
        exact ⟨rfl, rfl⟩
  noises := by
    intro a b c d s hs l hl
    rcases exStained_srcs hs with rfl | rfl <;> cases hl <;> rfl
  psf := by
    intro a b c d s hs l hl
    rcases exStained_srcs hs with rfl | rfl <;> cases hl <;> rfl
  keeps := exTile_sound.keeps
  fwhm := exTile_sound.fwhm

theorem sameBut_refl (Z : Nat → Nat → Prop) (s : Src) : SameBut Z s s := by
  have hoff : ∀ a : Img ℚ, SameOff Z a a := fun a => ⟨rfl, rfl, fun _ _ _ _ _ => rfl⟩
  refine ⟨rfl, ?_, ?_, ?_⟩
  · cases h : s.reads.image with
    | ok a => exact .inr ⟨_, _, rfl, rfl, hoff a⟩
    | error e => exact .inl ⟨e, rfl, rfl⟩
  · cases h : s.reads.bkg with
    | ok a => exact .inr ⟨_, _, rfl, rfl, hoff a⟩
    | error e => exact .inl ⟨e, rfl, rfl⟩
  · cases h : s.reads.noises with
    | ok a => exact .inr ⟨_, _, rfl, rfl, List.forall₂_same.2 fun a _ => hoff a⟩
    | error e => exact .inl ⟨e, rfl, rfl⟩

/-- Two values of `z` are seen by nobody if the pixel is hidden. -/
theorem exStained_same {Z : Src → Nat → Nat → Prop} (w : ℚ) (m : BitVec 32) (z z' : ℚ)
    (hz : Z (exStain w m z) 4 4) : SameEnv Z (exStained w m z) (exStained w m z') := by
  refine ⟨rfl, fun ra dec a b => ?_⟩
  simp only [exStained]
  split
  swap
  · exact .nil
  refine .cons (sameBut_refl _ _) (.cons ⟨rfl, .inr ⟨_, _, rfl, rfl, rfl, rfl, fun r _ j _ hn => ?_⟩,
    .inr ⟨_, _, rfl, rfl, rfl, rfl, fun r _ j _ hn => ?_⟩, .inr ⟨_, _, rfl, rfl, .cons ⟨rfl, rfl, fun r _ j _ hn => ?_⟩ .nil⟩⟩ .nil)
  all_goals
    have : ¬ (r = 4 ∧ j = 4) := by
      rintro ⟨rfl, rfl⟩
      exact hn hz
    simp only [if_neg this]

/-- C120: a pixel with a flag of pixels to be interpolated. -/
example : SoundEnv (exStained 1 2 5) 3 3 ∧ (exStained 1 2 5).cfg.rejectOutliers = false ∧
    SameEnv (Hidden { (exStained 1 2 5).cfg with boxSize := (3 : Nat) }) (exStained 1 2 5) (exStained 1 2 (-7)) ∧
    exHas (coaddSingleSlice (exStained 1 2 5) 0 7) = some (2, some 9) := by
  refine ⟨exStained_sound _ _ _, rfl, exStained_same _ _ _ _ ?_, by decide +kernel⟩
  exact .inr ⟨_, rfl, .inr ⟨rfl, 1, by decide, by decide, by decide⟩⟩

/-- C120: a pixel with a flag of pixels to be replaced by noise. -/
example : SameEnv (Hidden { (exStained 1 1 5).cfg with boxSize := (3 : Nat) }) (exStained 1 1 5)
    (exStained 1 1 (-7)) ∧ exHas (coaddSingleSlice (exStained 1 1 5) 0 7) = some (2, some 9) := by
  refine ⟨exStained_same _ _ _ _ ?_, by decide +kernel⟩
  exact .inr ⟨_, rfl, .inl ⟨0, by decide, by decide, by decide⟩⟩

/-- What can be seen of the images used. -/
def exUsedIds (r : Except Err (SliceRes Flt EpochRow)) : Option (List ℤ) :=
  match r with
  | .ok r => some ((r.epochs.filter fun e => decide (e.flags = 0)).map (·.imageId))
  | .error _ => none

/-- `C120_coadd`: a pixel without weight, with two different values: the same images are used. -/
example : (∀ ra dec a b, (((exStained 0 0 5).sources ra dec a b).map (·.imageId)).Nodup) ∧
    SameEnv (Unseen { (exStained 0 0 5).cfg with boxSize := (3 : Nat) }) (exStained 0 0 5) (exStained 0 0 (-7)) ∧
    exUsedIds (coaddSingleSlice (exStained 0 0 5) 0 7) = some [1, 2] ∧
    exUsedIds (coaddSingleSlice (exStained 0 0 (-7)) 0 7) = some [1, 2] := by
  refine ⟨fun ra dec a b => ?_, exStained_same _ _ _ _ (.inr (.inr ⟨_, rfl, le_refl _⟩)), by decide +kernel,
    by decide +kernel⟩
  simp only [exStained]
  split
  · decide
  · exact List.nodup_nil

/-- The values of a good pixel do reach the coadd. -/
example : ((coaddSingleSlice (exStained 1 0 5) 0 7).toOption.bind fun r => r.pix.map (·.image)) ≠
    ((coaddSingleSlice (exStained 1 0 (-7)) 0 7).toOption.bind fun r => r.pix.map (·.image)) := by
  decide +kernel

/-- `C120_slice` and `C120_run` for the pixel with a flag of pixels to be interpolated. -/
theorem exStained_alike : coaddSingleSlice (exStained 1 2 (-7)) 0 7 = coaddSingleSlice (exStained 1 2 5) 0 7 :=
  C120_slice (exStained 1 2 5) (exStained 1 2 (-7)) 3 3 (exStained_sound _ _ _) rfl
    (exStained_same _ _ _ _ (.inr ⟨_, rfl, .inr ⟨rfl, 1, by decide, by decide, by decide⟩⟩)) 0 7

/-- `C120_slice` and `C120_run`: the same, and for the steps of a run with two jobs. -/
example (ops : PixelOps Flt) (s t : PState Flt EpochRow) :=
  And.intro exStained_alike
    (C120_run (exStained 1 2 5) (exStained 1 2 (-7)) 3 3 (exStained_sound _ _ _) rfl
      (exStained_same _ _ _ _ (.inr ⟨_, rfl, .inr ⟨rfl, 1, by decide, by decide, by decide⟩⟩)) ops none 4 2 8 3 s t)

end Pizza
