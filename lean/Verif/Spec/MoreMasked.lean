import Verif.Spec.BuildInputs
import Verif.Spec.Process

/-! What it means that more is masked. -/

namespace Pizza

/-- Every flag of `b` is in `b'`. -/
def MoreBits (b b' : Img (BitVec 32)) : Prop :=
  b'.nrow = b.nrow ∧ b'.ncol = b.ncol ∧
    ∀ r < b.nrow, ∀ j < b.ncol, ∀ k < 32, (b.px r j).getLsbD k = true → (b'.px r j).getLsbD k = true

/-- The weights `w'` are those of `w`, some of them replaced by zero. -/
def MoreZeros (w w' : Img ℚ) : Prop :=
  w'.nrow = w.nrow ∧ w'.ncol = w.ncol ∧
    ∀ r < w.nrow, ∀ j < w.ncol, w'.px r j = w.px r j ∨ w'.px r j = 0

/-- The same SE image with more flags and more weights that are zero; image, background, noise fields and the image of
the PSF may be any others. -/
structure MoreMasked (s s' : Src) : Prop where
  flags : s'.imageFlags = s.imageFlags
  init : s'.init = s.init
  radec : s'.containsRadec = s.containsRadec
  pos : s'.pos = s.pos
  nrow : s'.nrow = s.nrow
  ncol : s'.ncol = s.ncol
  scale : s'.scale = s.scale
  psf : s'.psfFlag = s.psfFlag
  toCoadd : s'.toCoadd = s.toCoadd
  id : s'.imageId = s.imageId
  bits : ∀ b b', s.reads.bmask = .ok b → s'.reads.bmask = .ok b' → MoreBits b b'
  weight : ∀ w w', s.reads.weight = .ok w → s'.reads.weight = .ok w' → MoreZeros w w'

/-- Rotating more ones gives positive values in more places, as it is with linear interpolation. -/
def Ext.RotatesMore {A σ : Type} (x : Ext A σ) : Prop :=
  ∀ a (m m' : Img ℚ), m'.nrow = m.nrow → m'.ncol = m.ncol →
    (∀ r < m.nrow, ∀ j < m.ncol, m.px r j ≤ m'.px r j) →
    ∀ r < m.nrow, ∀ j < m.ncol, 0 < (x.rotate a m).px r j → 0 < (x.rotate a m').px r j

/-- Other files and arrays in memory, with which the masks of the SE images of the tile have more flags and some of
the weights are zero; images and backgrounds may be any others. -/
structure MoreMaskedFiles {A σ S P : Type} (w w' : ProcWorld A σ S P) (t : Tile A S P) : Prop where
  world : w' = { w with files := w'.files, arrays := w'.arrays }
  mask : ∀ e ∈ t.entries, ∀ b b', w.original e.bmask = .ok (.bits b) → w'.original e.bmask = .ok (.bits b') →
    MoreBits b b'
  weight : ∀ e ∈ t.entries, ∀ a a', w.original e.weight = .ok a → w'.original e.weight = .ok a' →
    MoreZeros a.asNum a'.asNum

end Pizza
