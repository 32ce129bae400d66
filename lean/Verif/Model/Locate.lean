import Verif.Model.SEGeom

/-!
Model of `pizza_cutter/slice_utils/locate.py` and of `_build_object_data` in
`pizza_cutter/des_pizza_cutter/_pizza_cutter.py`.
-/

namespace Pizza

/-- One slice location: `(row, col, start_row, start_col)` (locate.py:49). -/
structure SliceLoc where
  row : ℚ
  col : ℚ
  startRow : ℚ
  startCol : ℚ
  deriving DecidableEq, Repr

/-- locate.py:4-49 `build_slice_locations`.  `np.arange(nobj)` of a negative number is empty
(line 42); `np.meshgrid(loc, loc)` raveled runs over rows first, columns inside
(lines 43-45). -/
def buildSliceLocations (central buffer width : ℤ) : Except Err (List SliceLoc) :=
  if central = 0 then .error .zeroDivision
  else
    let cenOffset : ℚ := ((central : ℚ) - 1) / 2
    let nobj : ℚ := ((width - 2 * buffer : ℤ) : ℚ) / (central : ℚ)
    if ((truncQ nobj : ℤ) : ℚ) ≠ nobj then .error .valueError
    else
      let n := truncQ nobj
      let loc : List ℚ :=
        (List.range n.toNat).map fun (i : Nat) => (i : ℚ) * central + buffer + cenOffset
      .ok (loc.flatMap fun r => loc.map fun c =>
        ⟨r, c, r - buffer - cenOffset, c - buffer - cenOffset⟩)

/-- The object_data fields filled by `_build_object_data` (_pizza_cutter.py:874-903). -/
structure ObjRow where
  id : Nat
  boxSize : ℤ
  fileId : ℤ
  psfBoxSize : ℤ
  psfCutoutRow : ℚ
  psfCutoutCol : ℚ
  ra : ℚ
  dec : ℚ
  origRow : ℚ
  origCol : ℚ
  origStartRow : ℚ
  origStartCol : ℚ
  cutoutRow : ℚ
  cutoutCol : ℚ
  dudcol : ℚ
  dudrow : ℚ
  dvdcol : ℚ
  dvdrow : ℚ

/-- _pizza_cutter.py:832-905 `_build_object_data`.  The WCS is given by its evaluation and
its Jacobian `(dudx, dudy, dvdx, dvdy)`; fields are stored exactly (float width not
modelled). -/
def buildObjectData (central buffer width psfBox : ℤ) (image2sky : ℚ → ℚ → ℚ × ℚ)
    (jac : ℚ → ℚ → ℚ × ℚ × ℚ × ℚ) (offset : ℚ) : Except Err (List ObjRow) := do
  let locs ← buildSliceLocations central buffer width
  let boxSize := central + 2 * buffer
  let cenOffset : ℚ := ((central : ℚ) - 1) / 2
  let psfCen : ℚ := ((psfBox : ℚ) - 1) / 2
  return locs.mapIdx fun index l =>
    let sky := image2sky (l.col + offset) (l.row + offset)
    let j := jac (l.col + offset) (l.row + offset)
    { id := index, boxSize := boxSize, fileId := -1, psfBoxSize := psfBox
      psfCutoutRow := psfCen, psfCutoutCol := psfCen
      ra := sky.1, dec := sky.2
      origRow := l.row, origCol := l.col
      origStartRow := l.startRow, origStartCol := l.startCol
      cutoutRow := cenOffset + buffer, cutoutCol := cenOffset + buffer
      dudcol := j.1, dudrow := j.2.1, dvdcol := j.2.2.1, dvdrow := j.2.2.2 }

end Pizza
