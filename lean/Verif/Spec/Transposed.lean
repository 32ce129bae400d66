import Verif.Model.Coadd
import Verif.Spec.Moved
import Verif.Spec.SEObject
import Verif.Model.WcsGrid

/-! Vocabulary for C159: rows and columns are exchanged. -/

namespace Pizza

/-- The image `b` is `a` with rows and columns exchanged. -/
structure Transposed {α : Type} (a b : Img α) : Prop where
  nrow : b.nrow = a.ncol
  ncol : b.ncol = a.nrow
  px : ∀ r < a.nrow, ∀ c < a.ncol, b.px c r = a.px r c

/-- A box of pixels with rows and columns exchanged. -/
def TransposedBox {α : Type} (b b' : Bounds α) : Prop :=
  b'.rowmin = b.colmin ∧ b'.rowmax = b.colmax ∧ b'.colmin = b.rowmin ∧ b'.colmax = b.rowmax

/-- An SE slice with rows and columns exchanged: its arrays are transposed, where they start is exchanged. -/
structure TransposedObj (o o' : SEObj) : Prop where
  xStart : o'.xStart = o.yStart
  yStart : o'.yStart = o.xStart
  boxSize : o'.boxSize = o.boxSize
  psfXStart : o'.psfXStart = o.psfYStart
  psfYStart : o'.psfYStart = o.psfXStart
  psfBoxSize : o'.psfBoxSize = o.psfBoxSize
  image : Option.Rel Transposed o.image o'.image
  bmask : Option.Rel Transposed o.bmask o'.bmask
  pmask : Option.Rel Transposed o.pmask o'.pmask
  noises : Option.Rel (List.Forall₂ Transposed) o.noises o'.noises
  interpOnlyImage : Option.Rel Transposed o.interpOnlyImage o'.interpOnlyImage
  interpFrac : Option.Rel Transposed o.interpFrac o'.interpFrac
  psf : Option.Rel Transposed o.psf o'.psf
  weight : Option.Rel Transposed o.weight o'.weight
  origImage : Option.Rel Transposed o.origImage o'.origImage

/-- The files of an SE image with rows and columns exchanged. -/
structure TransposedReads (f f' : SEReads) : Prop where
  image : BothOk Transposed f.image f'.image
  bkg : BothOk Transposed f.bkg f'.bkg
  bmask : BothOk Transposed f.bmask f'.bmask
  weight : BothOk Transposed f.weight f'.weight
  noises : BothOk (List.Forall₂ Transposed) f.noises f'.noises

/-- A call on an SE slice object, and the same with rows and columns exchanged. -/
inductive TransposedOp : SEOp → SEOp → Prop
  | setSlice (f f' scale b b') (hf : TransposedReads f f') (hb : TransposedBox b b') : TransposedOp (.setSlice f scale b) (.setSlice f' scale b')
  | setPsf (x y flag psf psf') (h : BothOk (fun a b => Transposed a b ∧ a.nrow = a.ncol) psf psf') :
      TransposedOp (.setPsf x y flag psf) (.setPsf y x flag psf')
  | setInterp (im im' ns ns' mask mask') (hi : Transposed im im') (hn : List.Forall₂ Transposed ns ns') (hm : Transposed mask mask') :
      TransposedOp (.setInterp im ns mask) (.setInterp im' ns' mask')

/-- The WCSs with `x` and `y` exchanged, in the SE image and in the coadd. -/
structure TransposedLookups (w w' : Lookups) : Prop where
  toSe : ∀ x y, w'.toSe y x = (w.toSe x y).map Prod.swap
  areaSe : ∀ x y, w'.areaSe y x = w.areaSe x y
  areaCoadd : ∀ x y, w'.areaCoadd y x = w.areaCoadd x y

/-- The spline treats its two directions alike. -/
def SplineAlike (spl : Spline) : Prop :=
  ∀ xs ys z z', z.nrow = xs.length → z.ncol = ys.length → Transposed z z' →
    BothOk (fun (g g' : ℚ → ℚ → ℚ) => ∀ x y, g' y x = g x y) (spl xs ys z) (spl ys xs z')

/-- Everything `resample` returns, with rows and columns exchanged. -/
structure TransposedResampling (r r' : Resampling) : Prop where
  psf : Transposed r.psf r'.psf
  image : Transposed r.image r'.image
  noises : List.Forall₂ Transposed r.noises r'.noises
  interpOnlyImage : Transposed r.interpOnlyImage r'.interpOnlyImage
  interpFrac : Transposed r.interpFrac r'.interpFrac
  bmask : Transposed r.bmask r'.bmask
  pmask : Transposed r.pmask r'.pmask

/-- The resampled data of an epoch with rows and columns exchanged. -/
structure TransposedEpoch (d d' : EpochData) : Prop where
  image : Transposed d.image d'.image
  noises : List.Forall₂ Transposed d.noises d'.noises
  interpFrac : Transposed d.interpFrac d'.interpFrac
  psf : Transposed d.psf d'.psf
  bmask : Transposed d.bmask d'.bmask
  pmask : Transposed d.pmask d'.pmask

/-- A coadd with rows and columns exchanged. -/
structure TransposedCoadd (o o' : Coadd) : Prop where
  image : Transposed o.image o'.image
  bmask : Transposed o.bmask o'.bmask
  ormask : Transposed o.ormask o'.ormask
  noises : List.Forall₂ Transposed o.noises o'.noises
  psf : Transposed o.psf o'.psf
  weight : Transposed o.weight o'.weight
  interpFrac : Transposed o.interpFrac o'.interpFrac

end Pizza
