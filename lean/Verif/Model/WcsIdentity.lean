import Verif.Model.Wcs
import Verif.Model.WcsGrid
import Verif.Model.Cache
import Verif.Model.CheckInfo

/-!
Identity of WCS and SE image objects as cache keys.  Models `AffineWCS.__repr__`, `__hash__`, `__eq__`
(pizza_cutter/des_pizza_cutter/_affine_wcs.py:58-77), `SEImageSlice.__repr__`, `__hash__`, `__eq__`
(pizza_cutter/des_pizza_cutter/_se_image.py:616-651) and the cache of `_get_wcs_inverse`
(_se_image.py:133-167).

`fmt` is `'%s' % number`, `pformat` is `pprint.pformat`, `hash` is Python's hash of a string; they are
parameters.
-/

namespace Pizza

/-- `AffineWCS.__repr__` (_affine_wcs.py:58-66). -/
def affineRepr (fmt : ℚ → PyStr) (w : AffineWCS) : PyStr :=
  "AffineWCS(dudx=".toList ++ fmt w.dudx ++ ", dudy=".toList ++ fmt w.dudy ++ ", dvdx=".toList ++
    fmt w.dvdx ++ ", dvdy=".toList ++ fmt w.dvdy ++ ", x0=".toList ++ fmt w.x0 ++ ", y0=".toList ++
    fmt w.y0 ++ ")".toList

/-- `AffineWCS.__hash__` (_affine_wcs.py:73-74). -/
def affineHash {κ : Type} (fmt : ℚ → PyStr) (hash : PyStr → κ) (w : AffineWCS) : κ := hash (affineRepr fmt w)

/-- `AffineWCS.__eq__` (_affine_wcs.py:76-77). -/
def affineEq {κ : Type} [DecidableEq κ] (fmt : ℚ → PyStr) (hash : PyStr → κ) (a b : AffineWCS) : Bool :=
  decide (affineHash fmt hash a = affineHash fmt hash b)

/-- An SE image with an affine WCS, as far as its representation and its position transformations go.
The texts are the `repr` of the attributes. -/
structure SEIdent (R : Type) where
  sourceInfo : R
  psfModel : PyStr
  wcs : AffineWCS
  offset : ℚ
  color : PyStr
  seeds : PyStr
  tapeBumps : PyStr

/-- The dict that `SEImageSlice.__repr__` prints (_se_image.py:618-630). -/
structure SEState (R : Type) where
  sourceInfo : R
  psfModel : PyStr
  wcs : PyStr
  offset : PyStr
  color : PyStr
  seeds : PyStr
  tapeBumps : PyStr

/-- (_se_image.py:618-630). -/
def SEIdent.state {R : Type} (fmt : ℚ → PyStr) (s : SEIdent R) : SEState R :=
  ⟨s.sourceInfo, s.psfModel, affineRepr fmt s.wcs, fmt s.offset, s.color, s.seeds, s.tapeBumps⟩

/-- `SEImageSlice.__repr__` (_se_image.py:616-633). -/
def SEIdent.repr {R : Type} (fmt : ℚ → PyStr) (pformat : SEState R → PyStr) (s : SEIdent R) : PyStr :=
  "SEImageSlice: ".toList ++ pformat (s.state fmt)

/-- The arguments of `_get_wcs_inverse` (_se_image.py:134). -/
structure InvArgs (R : Type) where
  wcs : AffineWCS
  off : ℚ
  se : SEIdent R
  nrow : Nat
  ncol : Nat
  delta : Nat

/-- What the cache compares: the hashes of the two objects and the other arguments
(_se_image.py:133-134; `__eq__` compares hashes). -/
def InvArgs.key {κ R : Type} (fmt : ℚ → PyStr) (pformat : SEState R → PyStr) (hash : PyStr → κ)
    (a : InvArgs R) : κ × ℚ × κ × Nat × Nat × Nat :=
  (affineHash fmt hash a.wcs, a.off, hash (a.se.repr fmt pformat), a.nrow, a.ncol, a.delta)

/-- `_get_wcs_inverse` without its cache, for affine WCSs (_se_image.py:150-167). -/
def InvArgs.eval {R : Type} (fit : Fit) (a : InvArgs R) : Except Err (InvInterp × InvInterp) :=
  getWcsInverse fit a.wcs.sky2image a.off ⟨a.se.wcs.image2sky, a.se.wcs.sky2image, a.se.offset⟩
    a.nrow a.ncol a.delta

end Pizza
