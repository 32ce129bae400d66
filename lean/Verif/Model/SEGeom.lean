import Verif.Model.Wcs

/-!
Model of the geometry code of `pizza_cutter/des_pizza_cutter/_se_image.py`
(coordinates, bounds, slice reading, PSF stamps), `_sky_bounds.py` and
`_pizza_cutter.py:_build_coadd_psf_layout`.
-/

namespace Pizza

/-- Python `int(q)` on a float: truncation toward zero
(used at _se_image.py:998-1003,1209,1215; _pizza_cutter.py:279,286; locate.py:37,40). -/
def truncQ (q : ℚ) : ℤ := if 0 ≤ q then ⌊q⌋ else ⌈q⌉

/-- `meds.bounds.Bounds(rowmin, rowmax, colmin, colmax)` (external class, imported at
_se_image.py and _sky_bounds.py:2). -/
structure Bounds (α : Type) where
  rowmin : α
  rowmax : α
  colmin : α
  colmax : α
  deriving DecidableEq, Repr

/-- `meds.bounds.Bounds.contains_points` for one point, closed on all sides (external;
used at _se_image.py:980). -/
def Bounds.containsPoint (b : Bounds ℚ) (row col : ℚ) : Bool :=
  decide (b.rowmin ≤ row ∧ row ≤ b.rowmax ∧ b.colmin ≤ col ∧ col ≤ b.colmax)

/-- `meds.bounds.Bounds.contains_bounds`, closed on all sides (external; used at
_se_image.py:1183). -/
def Bounds.containsBounds (b o : Bounds ℤ) : Bool :=
  decide (b.rowmin ≤ o.rowmin ∧ o.rowmax ≤ b.rowmax ∧ b.colmin ≤ o.colmin ∧ o.colmax ≤ b.colmax)

/-! ### coordinate calls -/

/-- A coordinate argument: scalar, 1-d array, or array with two or more dimensions
(`np.ndim`, _se_image.py:775-783). -/
inductive Arg where
  | scalar (q : ℚ)
  | arr (l : List ℚ)
  | deep
  deriving DecidableEq

/-- `np.ndim` up to "two or more" (_se_image.py:775). -/
def Arg.ndim : Arg → Nat
  | .scalar _ => 0
  | .arr _ => 1
  | .deep => 2

/-- `np.atleast_1d(x).ravel()` (_se_image.py:785-786). -/
def Arg.flat : Arg → List ℚ
  | .scalar q => [q]
  | .arr l => l
  | .deep => []

/-- numpy arithmetic on two 1-d arrays: equal lengths, or one of length one is broadcast,
otherwise ValueError (numpy semantics of the WCS evaluation, _affine_wcs.py:96-97). -/
def broadcast {β : Type} (f : ℚ → ℚ → β) (xs ys : List ℚ) : Except Err (List β) :=
  if xs.length = ys.length then .ok (List.zipWith f xs ys)
  else match xs, ys with
    | [x], ys => .ok (ys.map (f x))
    | xs, [y] => .ok (xs.map (f · y))
    | _, _ => .error .valueError

/-- The common body of `SEImageSlice.image2sky` / `sky2image`
(_se_image.py:775-807 and 828-863): shape checks, flattening, evaluation, and unpacking of
scalars (`ra[0]`).  `f` is the WCS evaluation including the position offset. -/
def coordCall (f : ℚ → ℚ → ℚ × ℚ) (x y : Arg) : Except Err (Arg × Arg) :=
  let isScalar := x.ndim = 0 ∧ y.ndim = 0
  if ¬ (x.ndim ≤ 1 ∧ y.ndim ≤ 1) then .error .assertionError
  else if x.ndim ≠ y.ndim then .error .assertionError
  else do
    let out ← broadcast f x.flat y.flat
    if isScalar then
      match out with
      | p :: _ => pure (.scalar p.1, .scalar p.2)
      | [] => .error .indexError
    else pure (.arr (out.map Prod.fst), .arr (out.map Prod.snd))

/-- The WCS of an SE image: forward and inverse evaluation in the WCS's own pixel
convention, and the offset of that convention (_se_image.py:519-562). -/
structure SEWcs where
  fwd : ℚ → ℚ → ℚ × ℚ
  inv : ℚ → ℚ → ℚ × ℚ
  offset : ℚ

/-- _se_image.py:788-800 forward evaluation with the position offset added. -/
def SEWcs.fwd0 (w : SEWcs) (x y : ℚ) : ℚ × ℚ := w.fwd (x + w.offset) (y + w.offset)

/-- _se_image.py:841-856 inverse evaluation with the position offset removed. -/
def SEWcs.inv0 (w : SEWcs) (ra dec : ℚ) : ℚ × ℚ :=
  ((w.inv ra dec).1 - w.offset, (w.inv ra dec).2 - w.offset)

/-- _se_image.py:756-807 `SEImageSlice.image2sky`. -/
def SEWcs.image2sky (w : SEWcs) (x y : Arg) : Except Err (Arg × Arg) := coordCall w.fwd0 x y

/-- _se_image.py:809-863 `SEImageSlice.sky2image`. -/
def SEWcs.sky2image (w : SEWcs) (ra dec : Arg) : Except Err (Arg × Arg) := coordCall w.inv0 ra dec

/-! ### rough sky bounds -/

/-- numpy `.min()` of an array; an empty array raises ValueError (_sky_bounds.py:97,99). -/
def qmin? : List ℚ → Except Err ℚ
  | [] => .error .valueError
  | a :: t => .ok (t.foldl min a)

/-- numpy `.max()` of an array (_sky_bounds.py:98,100). -/
def qmax? : List ℚ → Except Err ℚ
  | [] => .error .valueError
  | a :: t => .ok (t.foldl max a)

/-- _sky_bounds.py:52-57 the numbers of grid cells in row and column direction. -/
def gridShape (nrow ncol nGrid : Nat) : Nat × Nat :=
  if ncol < nrow then ((⌈(nrow : ℚ) / (ncol : ℚ)⌉).toNat, nGrid)
  else (nGrid, (⌈(ncol : ℚ) / (nrow : ℚ)⌉).toNat)

/-- _sky_bounds.py:61-62 `np.arange(n+1)*(dim-1.0)/n`. -/
def gridAxis (n dim : Nat) : List ℚ :=
  (List.range (n + 1)).map fun (i : Nat) => (i : ℚ) * ((dim : ℚ) - 1) / (n : ℚ)

/-- _sky_bounds.py:64-66 the raveled meshgrid as (row, col) pairs. -/
def gridPoints (nrow ncol nGrid : Nat) : List (ℚ × ℚ) :=
  let g := gridShape nrow ncol nGrid
  (gridAxis g.2 ncol).flatMap fun c => (gridAxis g.1 nrow).map fun r => (r, c)

/-- _sky_bounds.py:6-102 `get_rough_sky_bounds` for a non-celestial WCS
(`celestial=False`, lines 91-95).  Returns bounds, `ra_ccd`, `dec_ccd`.  Zero-size images
divide by zero (lines 54,57,61,62). -/
def roughSkyBounds (nrow ncol nGrid : Nat) (image2sky : ℚ → ℚ → ℚ × ℚ) (offset buffer : ℚ) :
    Except Err (Bounds ℚ × ℚ × ℚ) := do
  if nrow = 0 ∨ ncol = 0 ∨ nGrid = 0 then throw .zeroDivision
  let pts := gridPoints nrow ncol nGrid
  let sky := pts.map fun p => image2sky (p.2 + offset) (p.1 + offset)
  let rowCcd := ((nrow : ℚ) - 1) / 2
  let colCcd := ((ncol : ℚ) - 1) / 2
  let ccd := image2sky (colCcd + offset) (rowCcd + offset)
  let u := sky.map fun s => s.1 - ccd.1
  let v := sky.map fun s => s.2 - ccd.2
  let umin ← qmin? u
  let umax ← qmax? u
  let vmin ← qmin? v
  let vmax ← qmax? v
  return (⟨umin - buffer, umax + buffer, vmin - buffer, vmax + buffer⟩, ccd.1, ccd.2)

/-- _se_image.py:944-985 `ccd_contains_radec` for a scalar position and non-celestial WCS
(lines 977-980). -/
def ccdContainsRadec (sb : Bounds ℚ × ℚ × ℚ) (ra dec : ℚ) : Bool :=
  sb.1.containsPoint (ra - sb.2.1) (dec - sb.2.2)

/-! ### slice bounds and reading -/

/-- _se_image.py:1209-1211 size of the SE box: `int(frac_buffer*box_size)`, made one larger
when its parity differs from that of the coadd box. -/
def buffBoxSize (boxSize : ℤ) (fracBuffer : ℚ) : ℤ :=
  let b := truncQ (fracBuffer * boxSize)
  if b % 2 ≠ boxSize % 2 then b + 1 else b

/-- _se_image.py:1185-1223 `compute_slice_bounds`; `(col, row)` is the SE position
`sky2image(ra, dec)`. -/
def computeSliceBounds (col row : ℚ) (boxSize : ℤ) (fracBuffer : ℚ) : Bounds ℤ :=
  let b := buffBoxSize boxSize fracBuffer
  let cen : ℚ := ((b : ℚ) - 1) / 2
  let startRow := ⌊row - cen + 1/2⌋
  let startCol := ⌊col - cen + 1/2⌋
  ⟨startRow, startRow + b - 1, startCol, startCol + b - 1⟩

/-- _se_image.py:614 `self._ccd_bnds`. -/
def ccdBnds (nrow ncol : Nat) : Bounds ℤ := ⟨0, (nrow : ℤ) - 1, 0, (ncol : ℤ) - 1⟩

/-- _se_image.py:1155-1183 `ccd_contains_bounds`. -/
def ccdContainsBounds (nrow ncol : Nat) (b : Bounds ℤ) (buffer : ℤ) : Bool :=
  let ccd := ccdBnds nrow ncol
  if buffer > 0 then
    Bounds.containsBounds
      ⟨ccd.rowmin + buffer, ccd.rowmax - buffer, ccd.colmin + buffer, ccd.colmax - buffer⟩ b
  else Bounds.containsBounds ccd b

/-- Python slice bound normalisation for an axis of length `n`: negative values count from
the end, everything is clipped to `[0, n]`. -/
def pySliceIdx (n : Nat) (i : ℤ) : Nat :=
  if i < 0 then (i + n).toNat else min i.toNat n

/-- numpy `a[r0:r1, c0:c1].copy()` with Python slice semantics. -/
def Img.slice {α : Type} (a : Img α) (r0 r1 c0 c1 : ℤ) : Img α :=
  let rs := pySliceIdx a.nrow r0
  let cs := pySliceIdx a.ncol c0
  ⟨pySliceIdx a.nrow r1 - rs, pySliceIdx a.ncol c1 - cs, fun i j => a.px (rs + i) (cs + j)⟩

/-- The files of one SE image as read (and cached): image, background, bit mask, weight and
one noise field per noise seed (_se_image.py:684-724). -/
structure SEFiles where
  image : Img ℚ
  bkg : Img ℚ
  bmask : Img (BitVec 32)
  weight : Img ℚ
  noises : List (Img ℚ)

/-- Slice attributes set by `set_slice` (_se_image.py:675-724). -/
structure SESlice where
  xStart : ℤ
  yStart : ℤ
  boxSize : ℤ
  image : Img ℚ
  bmask : Img (BitVec 32)
  weight : Img ℚ
  noises : List (Img ℚ)

/-- _se_image.py:661-724 `set_slice` without tape-bump masking (that is modelled in
`Model/TapeBumps.lean`).  `scale = 10**(0.4*(MAGZP_REF-magzp))` is a parameter; the
difference image - background has the image's shape (numpy requires equal shapes). -/
def setSlice (f : SEFiles) (scale : ℚ) (b : Bounds ℤ) : Except Err SESlice :=
  let xStart := b.colmin
  let yStart := b.rowmin
  let box := b.colmax - b.colmin + 1
  if box ≠ b.rowmax - b.rowmin + 1 then .error .assertionError
  else
    let im : Img ℚ := ⟨f.image.nrow, f.image.ncol, fun r c => f.image.px r c - f.bkg.px r c⟩
    let cut {α : Type} (a : Img α) : Img α :=
      a.slice yStart (yStart + box) xStart (xStart + box)
    .ok {
      xStart := xStart, yStart := yStart, boxSize := box
      image := (cut im).map (· * scale)
      bmask := cut f.bmask
      weight := (cut f.weight).map (· / scale ^ 2)
      noises := f.noises.map cut }

/-! ### PSF stamps -/

/-- _se_image.py:987-1005 `_compute_psf_stamp_bounds`: returns `(xmin, ymin)`. -/
def psfStampBounds (x y : ℚ) (dim : ℤ) : Except Err (ℤ × ℤ) :=
  let half : ℚ := ((dim : ℚ) - 1) / 2
  let xCen : ℤ := ⌊x + 1/2⌋
  let yCen : ℤ := ⌊y + 1/2⌋
  if ((yCen : ℚ) - half) ≠ (truncQ ((yCen : ℚ) - half) : ℚ) then .error .assertionError
  else if ((xCen : ℚ) - half) ≠ (truncQ ((xCen : ℚ) - half) : ℚ) then .error .assertionError
  else .ok (truncQ ((xCen : ℚ) - half), truncQ ((yCen : ℚ) - half))

/-- _se_image.py:1038-1039 sub-pixel offset used when drawing the PSF. -/
def psfSubPixel (x : ℚ) : ℚ := x - (⌊x + 1/2⌋ : ℤ)

/-- Output of `_build_coadd_psf_layout` (_pizza_cutter.py:293). -/
structure PsfLayout where
  raPsf : ℚ
  decPsf : ℚ
  startRow : ℚ
  startCol : ℚ

/-- _pizza_cutter.py:273-293 `_build_coadd_psf_layout`. -/
def coaddPsfLayout (fwd inv : ℚ → ℚ → ℚ × ℚ) (ra dec : ℚ) (boxSize : ℤ) (offset : ℚ) :
    Except Err PsfLayout :=
  let cr := inv ra dec
  let col : ℤ := ⌊cr.1 + 1/2⌋
  let row : ℤ := ⌊cr.2 + 1/2⌋
  let sky := fwd col row
  let half : ℚ := ((boxSize : ℚ) - 1) / 2
  if ((truncQ half : ℤ) : ℚ) ≠ half then .error .assertionError
  else .ok ⟨sky.1, sky.2, (row : ℚ) - offset - half, (col : ℚ) - offset - half⟩

end Pizza
