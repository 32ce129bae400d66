import Verif.Model.BuildInputs
import Verif.Spec.Interp

/-! Vocabulary for the properties of `_build_slice_inputs`. -/

namespace Pizza

/-- `l` is obtained by merging `a` and `b`, keeping the order of each (specification). -/
inductive Interleave {α : Type} : List α → List α → List α → Prop where
  | nil : Interleave [] [] []
  | left (x : α) {l a b : List α} : Interleave l a b → Interleave (x :: l) (x :: a) b
  | right (x : α) {l a b : List α} : Interleave l a b → Interleave (x :: l) a (x :: b)

/-- The SE image is not flagged, its object can be built, its rough sky bounds contain the
patch centre, and every pixel of the patch is on the CCD at least `edge_buffer` away from its
border (specification). -/
def Src.Passes {A : Type} (c : BuildCfg A) (s : Src) : Prop :=
  s.imageFlags = 0 ∧ s.init = .ok () ∧ s.containsRadec = .ok true ∧
  ∃ col row, s.pos = .ok (col, row) ∧
    ∀ i j : ℤ, ∀ b, computeSliceBounds col row c.boxSize c.fracBuffer = b →
      b.rowmin ≤ i → i ≤ b.rowmax → b.colmin ≤ j → j ≤ b.colmax →
      max c.edgeBuffer 0 ≤ i ∧ i < s.nrow - max c.edgeBuffer 0 ∧
      max c.edgeBuffer 0 ≤ j ∧ j < s.ncol - max c.edgeBuffer 0

/-- The files of a source have the shape of its CCD. -/
def Src.WellShaped (s : Src) : Prop :=
  (∀ a, s.reads.image = .ok a → a.nrow = s.nrow ∧ a.ncol = s.ncol) ∧
  (∀ a, s.reads.bmask = .ok a → a.nrow = s.nrow ∧ a.ncol = s.ncol) ∧
  (∀ a, s.reads.weight = .ok a → a.nrow = s.nrow ∧ a.ncol = s.ncol) ∧
  (∀ l, s.reads.noises = .ok l → ∀ a ∈ l, a.nrow = s.nrow ∧ a.ncol = s.ncol)

/-- Outlier rejection does not change the shape of the weights. -/
def Ext.KeepsShape {A σ : Type} (x : Ext A σ) : Prop :=
  ∀ ims wts f, x.outliers ims wts = .ok f → ∀ (i : Nat) w, wts[i]? = some w →
    (f i).nrow = w.nrow ∧ (f i).ncol = w.ncol

/-- The data of the source at the patch, as read by `set_slice` (whose values are settled by
C08). -/
def Src.ReadsAs {A : Type} (c : BuildCfg A) (s : Src) (d : SESlice) : Prop :=
  ∃ col row im bkg bm wt ns, s.pos = .ok (col, row) ∧
    s.reads.image = .ok im ∧ s.reads.bkg = .ok bkg ∧ s.reads.bmask = .ok bm ∧
    s.reads.weight = .ok wt ∧ s.reads.noises = .ok ns ∧
    setSlice ⟨im, bkg, bm, wt, ns⟩ s.scale
      (computeSliceBounds col row c.boxSize c.fracBuffer) = .ok d

/-- An array is `n` by `n`. -/
def Img.Sq {α : Type} (n : Nat) (a : Img α) : Prop := a.nrow = n ∧ a.ncol = n

/-- One edge is fully masked: everywhere a non-positive weight, or everywhere a flag. -/
def FullEdge (weight : Img ℚ) (bmask : Img (BitVec 32)) (flags : BitVec 32) : Prop :=
  (∃ e : Edge, ∀ r c, e.On weight.nrow weight.ncol r c → weight.px r c ≤ 0) ∨
  (∃ e : Edge, ∀ r c, e.On weight.nrow weight.ncol r c → Carries (bmask.px r c) flags)

/-- `q` is the fraction of the counted pixels that satisfy `P`; 1 when no pixel counts. -/
def IsFraction (n : Nat) (ignore : Option (Img Bool)) (P : Nat × Nat → Prop) (q : ℚ) : Prop :=
  ∃ all bad : Finset (Nat × Nat), (∀ p, p ∈ all ↔ Counted n n ignore p) ∧
    (∀ p, p ∈ bad ↔ Counted n n ignore p ∧ P p) ∧
    ((0 < all.card ∧ q = (bad.card : ℚ) / (all.card : ℚ)) ∨ (all.card = 0 ∧ q = 1))

/-- Too much to interpolate: there are unusable pixels, and they are all pixels or more than
nine tenths of them. -/
def TooMuchBad (n : Nat) (weight : Img ℚ) (bmask : Img (BitVec 32)) (flags : BitVec 32) : Prop :=
  ∃ bad : Finset (Nat × Nat),
    (∀ p, p ∈ bad ↔ p.1 < n ∧ p.2 < n ∧ Unusable weight bmask flags p) ∧
    bad.card ≠ 0 ∧ (bad.card = n * n ∨ (9 / 10 : ℚ) < (bad.card : ℚ) / ((n * n : Nat) : ℚ))

/-- The GAIA mask as seen by the SE slice (`map_image_by_nearest_pixel` is settled by C40). -/
def SeesGaia {A : Type} (c : BuildCfg A) (s : Src) (d : SESlice) (g : Option (Img Bool)) : Prop :=
  (c.gaia = none ∧ g = none) ∨
  ∃ m m' f, c.gaia = some m ∧ g = some m' ∧ s.toCoadd = .ok f ∧
    ({ xStart := some d.xStart, yStart := some d.yStart, boxSize := some d.boxSize } : SEObj).mapImage
      false m c.startCol c.startRow f = .ok m'

end Pizza
