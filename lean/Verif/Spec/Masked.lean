import Verif.Spec.BuildInputs
import Verif.Spec.Slice

/-! What it means for two sets of SE files to differ only in pixels that are masked or outside
the cut-out. -/

namespace Pizza

/-- Pixel `(r, j)` of the CCD is in the cut-out made around the position of the source. -/
def InCutOut {A : Type} (c : BuildCfg A) (s : Src) (r j : Nat) : Prop :=
  ∃ col row b, s.pos = .ok (col, row) ∧ computeSliceBounds col row c.boxSize c.fracBuffer = b ∧
    b.rowmin ≤ r ∧ (r : ℤ) ≤ b.rowmax ∧ b.colmin ≤ j ∧ (j : ℤ) ≤ b.colmax

/-- The bit mask of the file asks for the pixel to be replaced: by noise, or by interpolation
(without the copying of edges, which takes pixels out of the interpolation). -/
def Flagged {A : Type} (c : BuildCfg A) (s : Src) (r j : Nat) : Prop :=
  ∃ bm, s.reads.bmask = .ok bm ∧ (Carries (bm.px r j) c.noiseFlags ∨
    (c.copyEdges = false ∧ Carries (bm.px r j) c.splineFlags))

/-- The files mark the pixel as bad in some way: one of the two kinds of flags, or no weight. -/
def MarkedBad {A : Type} (c : BuildCfg A) (s : Src) (r j : Nat) : Prop :=
  (∃ bm, s.reads.bmask = .ok bm ∧
    (Carries (bm.px r j) c.noiseFlags ∨ Carries (bm.px r j) c.splineFlags)) ∨
  ∃ w, s.reads.weight = .ok w ∧ w.px r j ≤ 0

/-- The pixel is outside the cut-out or is replaced because of its flags. -/
def Hidden {A : Type} (c : BuildCfg A) (s : Src) (r j : Nat) : Prop :=
  ¬ InCutOut c s r j ∨ Flagged c s r j

/-- The pixel is outside the cut-out or marked as bad. -/
def Unseen {A : Type} (c : BuildCfg A) (s : Src) (r j : Nat) : Prop :=
  ¬ InCutOut c s r j ∨ MarkedBad c s r j

/-- Arrays of one shape with the same pixels except in `Z`. -/
def SameOff {α : Type} (Z : Nat → Nat → Prop) (a a' : Img α) : Prop :=
  a'.nrow = a.nrow ∧ a'.ncol = a.ncol ∧
  ∀ r < a.nrow, ∀ j < a.ncol, ¬ Z r j → a'.px r j = a.px r j

/-- Reading gives the same error, or related results. -/
def SameRead {α : Type} (R : α → α → Prop) (a a' : Except Err α) : Prop :=
  (∃ e, a = .error e ∧ a' = .error e) ∨ ∃ x x', a = .ok x ∧ a' = .ok x' ∧ R x x'

/-- Two sources that differ at most in pixels of the image, of the background and of the noise
images that are in `Z`. -/
structure SameBut (Z : Nat → Nat → Prop) (s s' : Src) : Prop where
  rest : s' = { s with reads := { s.reads with
    image := s'.reads.image, bkg := s'.reads.bkg, noises := s'.reads.noises } }
  image : SameRead (SameOff Z) s.reads.image s'.reads.image
  bkg : SameRead (SameOff Z) s.reads.bkg s'.reads.bkg
  noises : SameRead (List.Forall₂ (SameOff Z)) s.reads.noises s'.reads.noises

variable {A σ S : Type}

/-- Two runs on the same slice that differ only in pixels `Z` of the SE files. -/
structure SameEnv (Z : Src → Nat → Nat → Prop) (v v' : SliceEnv A σ S) : Prop where
  rest : v' = { v with sources := v'.sources }
  sources : ∀ ra dec raPsf decPsf, List.Forall₂ (fun s s' => SameBut (Z s) s s')
    (v.sources ra dec raPsf decPsf) (v'.sources ra dec raPsf decPsf)

end Pizza
