import Verif.Model.SEGeom
import Verif.Model.CheckInfo

/-!
Construction of an `SEImageSlice` (pizza_cutter/des_pizza_cutter/_se_image.py:519-614) and its methods
`is_celestial`, `get_wcs_pixel_area` and `get_wcs_jacobian` (652-659, 865-942).

A WCS object is its class as far as the code tells classes apart, its forward and inverse evaluation and its
Jacobian, all in its own pixel convention.  What is in the files is a parameter; reads of files are recorded.
-/

namespace Pizza

/-- The classes that the code tells apart with `isinstance` (_se_image.py:592-596, 652-659, 788-803,
919-938): `AffineWCS`, `esutil.wcsutil.WCS`, the two kinds of `galsim.BaseWCS`, anything else. -/
inductive WcsClass where
  | affine
  | esutil
  | galsimEuclidean
  | galsimCelestial
  | other
  deriving DecidableEq, Repr

/-- A WCS object: `fwd` is `image2sky` (for GalSim `xyToradec` with the colour of the object,
_se_image.py:794-799), `inv` is `sky2image` (`radecToxy`, _se_image.py:841-856), `jac` is `get_jacobian` (for GalSim `local`, _se_image.py:931-935) as
(dudx, dudy, dvdx, dvdy). -/
structure WcsObj where
  cls : WcsClass
  fwd : ℚ → ℚ → ℚ × ℚ
  inv : ℚ → ℚ → ℚ × ℚ
  jac : ℚ → ℚ → ℚ × ℚ × ℚ × ℚ

/-- An `AffineWCS` object (_affine_wcs.py). -/
def WcsObj.ofAffine (w : AffineWCS) : WcsObj := ⟨.affine, w.image2sky, w.sky2image, w.getJacobian⟩

/-- A `FastHashingWCS` object (wcs.py:44-118): the Jacobian with the default step of 1. -/
def WcsObj.ofEsutil (image2sky sky2image : ℚ → ℚ → ℚ × ℚ) (cosd : ℚ → ℚ) : WcsObj :=
  ⟨.esutil, image2sky, sky2image, fun x y => getJacobian image2sky cosd x y 1⟩

/-- `SEImageSlice.is_celestial` (_se_image.py:652-659). -/
def WcsObj.isCelestial (w : WcsObj) : Bool :=
  match w.cls with
  | .affine => false
  | .galsimEuclidean => false
  | _ => true

/-- The test for `_wcs_is_celestial` in the constructor (_se_image.py:592-596). -/
def WcsObj.initCelestial (w : WcsObj) : Bool :=
  if w.cls = .affine ∨ ((w.cls = .galsimEuclidean ∨ w.cls = .galsimCelestial) ∧ ¬ w.cls = .galsimCelestial) then false
  else true

/-- The evaluation in `image2sky` with its refusals (_se_image.py:788-803); the position offset is
added. -/
def WcsObj.evaluable (w : WcsObj) (offset : ℚ) : Except Err (ℚ → ℚ → ℚ × ℚ) :=
  match w.cls with
  | .affine => .ok fun x y => w.fwd (x + offset) (y + offset)
  | .esutil => .ok fun x y => w.fwd (x + offset) (y + offset)
  | .galsimEuclidean => .error .assertionError
  | .galsimCelestial => .ok fun x y => w.fwd (x + offset) (y + offset)
  | .other => .error .valueError

/-- `SEImageSlice.get_wcs_pixel_area` (_se_image.py:865-900); `cosd` is the cosine of a declination in
degrees, see `computeWcsArea`. -/
def WcsObj.pixelArea (w : WcsObj) (cosd : ℚ → ℚ) (offset : ℚ) (x y : Arg) : Except Err Arg :=
  let isScalar := x.ndim = 0 ∧ y.ndim = 0
  if ¬ (x.ndim ≤ 1 ∧ y.ndim ≤ 1) then .error .assertionError
  else if x.ndim ≠ y.ndim then .error .assertionError
  else do
    let f ← w.evaluable offset
    let out ← broadcast (fun x y => computeWcsArea w.isCelestial f cosd x y 1) x.flat y.flat
    if isScalar then
      match out with
      | a :: _ => pure (.scalar a)
      | [] => .error .indexError
    else pure (.arr out)

/-- `SEImageSlice.get_wcs_jacobian` (_se_image.py:902-942), as (dudx, dudy, dvdx, dvdy). -/
def WcsObj.jacobianAt (w : WcsObj) (offset : ℚ) (x y : Arg) : Except Err (ℚ × ℚ × ℚ × ℚ) :=
  match x, y with
  | .scalar x, .scalar y =>
    match w.cls with
    | .other => .error .valueError
    | _ => .ok (w.jac (x + offset) (y + offset))
  | _, _ => .error .assertionError

/-! ### construction -/

/-- A read of a file during construction. -/
inductive SERead where
  | imageHeader (path ext : PyStr)
  | headFile (head image ext : PyStr)
  | piff (path : PyStr) (ccd : ℤ)
  | psfex (path : PyStr)
  | shape (path ext : PyStr)
  deriving DecidableEq, Repr

/-- The entries of `source_info` that the constructor looks at; `none` is a missing key. -/
structure SESource (P : Type) where
  imagePath : Option PyStr
  imageExt : Option PyStr
  headPath : Option PyStr
  affineWcs : Option WcsObj
  piffPath : Option PyStr
  ccdnum : Option ℤ
  galsimPsf : Option P
  psfexPath : Option PyStr
  imageShape : Option (Nat × Nat)

/-- What is in the files: `_load_image_wcs`, `_load_head_wcs`, `_load_piff_pixmappy`, `_load_psfex`
(_se_image.py:230-328) and the header keywords read by `_get_image_shape` (61-67); `skyBounds` is
`get_rough_sky_bounds` for an image of positive size (`Model/SEGeom.roughSkyBounds` if not celestial). -/
structure SEDisk (P : Type) where
  imageWcs : PyStr → PyStr → Except Err WcsObj
  headWcs : PyStr → PyStr → PyStr → Except Err WcsObj
  piff : PyStr → ℤ → Except Err (P × WcsObj)
  psfex : PyStr → Except Err P
  header : PyStr → PyStr → Except Err (String → Option Nat)
  skyBounds : Nat × Nat → (ℚ → ℚ → ℚ × ℚ) → Bool → Except Err (Bounds ℚ × ℚ × ℚ)

/-- The argument `wcs` or `psf_model`: a type name or an object (_se_image.py:540, 569). -/
inductive Req (α : Type) where
  | named (s : String)
  | object (a : α)

/-- A computation with its reads. -/
structure Reads (α : Type) where
  log : List SERead
  out : Except Err α

instance : Monad Reads where
  pure a := ⟨[], .ok a⟩
  bind m f :=
    match m.out with
    | .error e => ⟨m.log, .error e⟩
    | .ok a => ⟨m.log ++ (f a).log, (f a).out⟩

/-- A value or exception without reading. -/
def Reads.ofExcept {α : Type} (e : Except Err α) : Reads α := ⟨[], e⟩

/-- `source_info[key]`. -/
def Reads.key {α : Type} (o : Option α) : Reads α :=
  ⟨[], match o with
    | none => .error .keyError
    | some a => .ok a⟩

/-- A recorded read. -/
def Reads.read {α : Type} (r : SERead) (e : Except Err α) : Reads α := ⟨[r], e⟩

/-- `raise`. -/
def Reads.raise {α : Type} (e : Err) : Reads α := ⟨[], .error e⟩

/-- The WCS (_se_image.py:540-567). -/
def seWcs {P : Type} (disk : SEDisk P) (info : SESource P) : Req WcsObj → Reads WcsObj
  | .object w => pure w
  | .named s =>
    if s = "image" then do
      let p ← Reads.key info.imagePath
      let e ← Reads.key info.imageExt
      Reads.read (.imageHeader p e) (disk.imageWcs p e)
    else if s = "head" then do
      let h ← Reads.key info.headPath
      let p ← Reads.key info.imagePath
      let e ← Reads.key info.imageExt
      Reads.read (.headFile h p e) (disk.headWcs h p e)
    else if s = "affine" then Reads.key info.affineWcs
    else if s = "pixmappy" then do
      let p ← Reads.key info.piffPath
      let n ← Reads.key info.ccdnum
      let r ← Reads.read (.piff p n) (disk.piff p n)
      pure r.2
    else Reads.raise .runtimeError

/-- The PSF model (_se_image.py:569-581). -/
def sePsf {P : Type} (disk : SEDisk P) (info : SESource P) : Req P → Reads P
  | .object m => pure m
  | .named s =>
    if s = "galsim" then Reads.key info.galsimPsf
    else if s = "psfex" then do
      let p ← Reads.key info.psfexPath
      Reads.read (.psfex p) (disk.psfex p)
    else if s = "piff" then do
      let p ← Reads.key info.piffPath
      let n ← Reads.key info.ccdnum
      let r ← Reads.read (.piff p n) (disk.piff p n)
      pure r.1
    else Reads.raise .runtimeError

/-- `_get_image_shape` (_se_image.py:61-67) on the header keywords: the sizes of a compressed image are in
`znaxis1`, `znaxis2`. -/
def headerShape (h : String → Option Nat) : Except Err (Nat × Nat) :=
  let get (k : String) : Except Err Nat := match h k with
    | none => .error .keyError
    | some v => .ok v
  if (h "znaxis1").isSome = true then do
    let r ← get "znaxis2"
    let c ← get "znaxis1"
    pure (r, c)
  else do
    let r ← get "naxis2"
    let c ← get "naxis1"
    pure (r, c)

/-- The shape of the image (_se_image.py:587-594). -/
def seShape {P : Type} (disk : SEDisk P) (info : SESource P) : Reads (Nat × Nat) :=
  match info.imageShape with
  | some s => pure s
  | none => do
    let p ← Reads.key info.imagePath
    let e ← Reads.key info.imageExt
    let h ← Reads.read (.shape p e) (disk.header p e)
    Reads.ofExcept (headerShape h)

/-- The attributes set by the constructor that are derived from its arguments (_se_image.py:583-614). -/
structure SEConstructed (P : Type) where
  wcs : WcsObj
  wcsType : Option String
  psf : P
  shape : Nat × Nat
  celestial : Bool
  skyBnds : Bounds ℚ
  raCcd : ℚ
  decCcd : ℚ
  ccdBnds : Bounds ℤ

/-- `SEImageSlice.__init__` (_se_image.py:519-614).  Images with a side of length zero divide by zero in
`get_rough_sky_bounds` before the WCS is evaluated (_sky_bounds.py:52-62). -/
def seInit {P : Type} (disk : SEDisk P) (info : SESource P) (offset : ℚ) (wcs : Req WcsObj) (psf : Req P) :
    Reads (SEConstructed P) := do
  let w ← seWcs disk info wcs
  let m ← sePsf disk info psf
  let shape ← seShape disk info
  if shape.1 = 0 ∨ shape.2 = 0 then Reads.raise .zeroDivision
  else do
    let f ← Reads.ofExcept (w.evaluable offset)
    let b ← Reads.ofExcept (disk.skyBounds shape f w.initCelestial)
    pure ⟨w, match wcs with | .named s => some s | .object _ => none, m, shape, w.initCelestial, b.1, b.2.1,
      b.2.2, ⟨0, (shape.1 : ℤ) - 1, 0, (shape.2 : ℤ) - 1⟩⟩

end Pizza
