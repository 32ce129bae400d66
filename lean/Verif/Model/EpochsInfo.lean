import Verif.Model.BuildInputs

/-!
`_make_epochs_info` (pizza_cutter/des_pizza_cutter/_pizza_cutter.py:759-829).
-/

namespace Pizza

/-- A row of `epochs_info` (_pizza_cutter.py:781-792); 64-bit integers and doubles are exact here. -/
structure EpochRow where
  id : ℤ := 0
  imageId : ℤ := 0
  flags : BitVec 32 := 0
  rowStart : ℤ := 0
  colStart : ℤ := 0
  boxSize : ℤ := 0
  psfRowStart : ℤ := 0
  psfColStart : ℤ := 0
  psfBoxSize : ℤ := 0
  weight : ℚ := 0
  deriving DecidableEq

/-- The assignments to one row (_pizza_cutter.py:800-810, 815-825): AttributeError if the slice or
the PSF was never set. -/
def epochRow (old : EpochRow) (e : Epoch) (flags : BitVec 32) (weight : ℚ) : Except Err EpochRow := do
  let y ← attr e.obj.yStart
  let x ← attr e.obj.xStart
  let b ← attr e.obj.boxSize
  let py ← attr e.obj.psfYStart
  let px ← attr e.obj.psfXStart
  let pb ← attr e.obj.psfBoxSize
  pure { old with
    flags := flags, imageId := e.src.imageId, rowStart := y, colStart := x, boxSize := b,
    psfRowStart := py, psfColStart := px, psfBoxSize := pb, weight := weight }

/-- `data[...][loc] = ...`: IndexError beyond the end (_pizza_cutter.py:800). -/
def setRow (data : List EpochRow) (loc : Nat) (e : Epoch) (flags : BitVec 32) (weight : ℚ) :
    Except Err (List EpochRow) :=
  match data[loc]? with
  | none => .error .indexError
  | some old => do
    let r ← epochRow old e flags weight
    pure (data.set loc r)

/-- The first loop (_pizza_cutter.py:799-812), over `zip(weights, slices)`. -/
def fillUsed : List EpochRow → Nat → List (ℚ × Epoch) → Except Err (List EpochRow × Nat)
  | data, loc, [] => .ok (data, loc)
  | data, loc, (w, e) :: l => do
    let data ← setRow data loc e 0 w
    fillUsed data (loc + 1) l

/-- The second loop (_pizza_cutter.py:814-827), over `zip(flags_not_used, slices_not_used)`. -/
def fillUnused : List EpochRow → Nat → List (BitVec 32 × Epoch) → Except Err (List EpochRow)
  | data, _, [] => .ok data
  | data, loc, (f, e) :: l => do
    let data ← setRow data loc e f 0
    fillUnused data (loc + 1) l

/-- `_make_epochs_info` (_pizza_cutter.py:759-829); `id` is `object_data['id']`. -/
def makeEpochsInfo (id : ℤ) (weights : List ℚ) (slices notUsed : List Epoch) (flags : List (BitVec 32)) :
    Except Err (List EpochRow) := do
  let data := List.replicate (slices.length + notUsed.length) ({ id := id } : EpochRow)
  let r ← fillUsed data 0 (weights.zip slices)
  fillUnused r.1 r.2 (flags.zip notUsed)

end Pizza
