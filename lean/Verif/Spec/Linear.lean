import Mathlib.Algebra.Module.LinearMap.Defs
import Mathlib.Algebra.Module.Rat
import Verif.Spec.PixelLaw

/-! Vocabulary for C126: the pixels of a slice as a function of the pixels of the SE images. -/

namespace Pizza

variable {A σ S : Type}

/-- The same SE image with any other values of the pixels of the image, the background and the noise fields. -/
def OtherPixels (s s' : Src) : Prop :=
  s' = { s with reads := { s.reads with image := s'.reads.image, bkg := s'.reads.bkg, noises := s'.reads.noises } }

/-- Interpolated values are linear in the values that they are interpolated from. -/
def Ext.LinearInterp (x : Ext A σ) : Prop :=
  ∀ pts, ∃ G : (Nat → ℚ) →ₗ[ℚ] (Nat × Nat → ℚ), ∀ vals f, vals.length = pts.length → x.interp pts vals = .ok f →
    f = G fun k => vals.getD k 0

/-- The list is that of the SE images of the slice. -/
def SourcesOf (v : SliceEnv A σ S) (i : Nat) (l : List Src) : Prop :=
  ∃ row lay, v.objects[i]? = some row ∧
    coaddPsfLayout v.fwd v.inv row.ra row.dec row.psfBoxSize v.offset = .ok lay ∧
    l = v.sources row.ra row.dec lay.raPsf lay.decPsf

/-- `f` holds, for each SE image of the list, its calibrated pixels. -/
def ImagePlanes (l : List Src) (f : ℤ → Nat → Nat → ℚ) : Prop :=
  ∀ s ∈ l, ∀ im bkg, s.reads.image = .ok im → s.reads.bkg = .ok bkg →
    ∀ r < s.nrow, ∀ c < s.ncol, f s.imageId r c = calibrated s im bkg r c

/-- `f` holds, for each SE image of the list, the pixels of its noise field number `k`. -/
def NoisePlanes (k : Nat) (l : List Src) (f : ℤ → Nat → Nat → ℚ) : Prop :=
  ∀ s ∈ l, ∀ ns a, s.reads.noises = .ok ns → ns[k]? = some a →
    ∀ r < s.nrow, ∀ c < s.ncol, f s.imageId r c = a.px r c

/-- The list is the array of side `n`, row by row. -/
def HoldsPlane (n : Nat) (l : List Flt) (f : Nat → Nat → ℚ) : Prop :=
  l.length = n * n ∧ ∀ y < n, ∀ x < n, l[y * n + x]? = some (.fin (f y x))

/-- The pixels of the third SE image are `α` times those of the first plus `β` times those of the second: the calibrated pixels
of the image and the pixels of each noise field. -/
structure SumOf (α β : ℚ) (s1 s2 s3 : Src) : Prop where
  image : ∃ im1 bkg1 im2 bkg2 im3 bkg3, s1.reads.image = .ok im1 ∧ s1.reads.bkg = .ok bkg1 ∧ s2.reads.image = .ok im2 ∧
    s2.reads.bkg = .ok bkg2 ∧ s3.reads.image = .ok im3 ∧ s3.reads.bkg = .ok bkg3 ∧ ∀ r < s1.nrow, ∀ c < s1.ncol,
    calibrated s3 im3 bkg3 r c = α * calibrated s1 im1 bkg1 r c + β * calibrated s2 im2 bkg2 r c
  noises : ∃ ns1 ns2 ns3, s1.reads.noises = .ok ns1 ∧ s2.reads.noises = .ok ns2 ∧ s3.reads.noises = .ok ns3 ∧
    ∀ (k : Nat) (a1 a2 a3 : Img ℚ), ns1[k]? = some a1 → ns2[k]? = some a2 → ns3[k]? = some a3 → ∀ r < s1.nrow, ∀ c < s1.ncol,
      a3.px r c = α * a1.px r c + β * a2.px r c

/-- The numbers of the third list are `α` times those of the first plus `β` times those of the second. -/
def SumOfLists (n : Nat) (α β : ℚ) (l1 l2 l3 : List Flt) : Prop :=
  l1.length = n ∧ l2.length = n ∧ l3.length = n ∧ ∀ j < n, ∃ x y, l1[j]? = some (.fin x) ∧ l2[j]? = some (.fin y) ∧
    l3[j]? = some (.fin (α * x + β * y))

end Pizza
