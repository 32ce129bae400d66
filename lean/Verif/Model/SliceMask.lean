import Verif.Model.Cache
import Verif.Model.TapeBumps

/-!
Reading the bit mask of an SE image slice through the image cache, with tape-bump masking.

Models pizza_cutter/des_pizza_cutter/_se_image.py:70-92 (`_read_image`, `_read_image_cached`),
694-702 (the bmask part of `set_slice`) and 726-754 (`_set_tape_bump_mask`).
-/

namespace Pizza

section
variable {κ : Type} [DecidableEq κ]

/-- Where a mask comes from: a file path and extension, or an array in memory
(_se_image.py:70-74). -/
inductive Loc (κ : Type) where
  | file (k : κ)
  | mem (n : Nat)
  deriving DecidableEq

/-- `source_info['bmask_path'/'bmask_ext']` and `source_info['ccdnum']`. -/
structure MaskSrc (κ : Type) where
  loc : Loc κ
  ccd : Nat

/-- The process state: the image cache (shared by all images read) and the arrays in memory.
Arrays of all types are represented by masks; only masks are ever modified in place. -/
structure ReadState (κ : Type) where
  cache : Lru κ (Img (BitVec 32))
  arrays : Nat → Img (BitVec 32)

/-- `_read_image` (_se_image.py:70-92); `files` are the files on disk. -/
def readImage (files : κ → Except Err (Img (BitVec 32))) (st : ReadState κ) (loc : Loc κ) :
    Except Err (Img (BitVec 32)) × ReadState κ :=
  match loc with
  | .mem n => (.ok (st.arrays n), st)
  | .file k =>
    let r := lruCall files id st.cache k
    (r.1, { st with cache := r.2.1 })

/-- Pixel `(r, c)` is in `bmask[row1:row2+1, col1:col2+1]` (_se_image.py:747-754). -/
def Bump.covers (b : Bump) (r c : Nat) : Bool :=
  decide (b.row1 ≤ r ∧ r < b.row2 + 1 ∧ b.col1 ≤ c ∧ c < b.col2 + 1)

/-- The two in-place updates for one box (_se_image.py:746-754). -/
def bumpStep (m : Img (BitVec 32)) (b : Bump) : Img (BitVec 32) :=
  let m1 : Img (BitVec 32) := ⟨m.nrow, m.ncol, fun r c =>
    if b.covers r c then m.px r c ||| BitVec.ofNat 32 b.flag else m.px r c⟩
  ⟨m1.nrow, m1.ncol, fun r c =>
    if b.covers r c then m1.px r c &&& ~~~ (2048#32) else m1.px r c⟩

/-- `_set_tape_bump_mask` for the boxes of the CCD (_se_image.py:745-754). -/
def setTapeBumps (bumps : List Bump) (m : Img (BitVec 32)) : Img (BitVec 32) :=
  bumps.foldl bumpStep m

/-- `TAPE_BUMPS[ccdnum]` (_se_image.py:744); a missing CCD raises KeyError. -/
def bumpsOf (table : List (Nat × List Bump)) (ccd : Nat) : Except Err (List Bump) :=
  match table.find? fun e => e.1 == ccd with
  | some e => .ok e.2
  | none => .error .keyError

/-- `a[y:y+n, x:x+n].copy()` for non-negative starts (slices are clipped at the shape). -/
def Img.window {α : Type} (a : Img α) (y x n : Nat) : Img α :=
  ⟨min (y + n) a.nrow - y, min (x + n) a.ncol - x, fun r c => a.px (y + r) (x + c)⟩

/-- Modify in place the array read from `loc`. -/
def mutateAt (st : ReadState κ) (loc : Loc κ) (g : Img (BitVec 32) → Img (BitVec 32)) :
    ReadState κ :=
  match loc with
  | .mem n => { st with arrays := fun m => if m = n then g (st.arrays m) else st.arrays m }
  | .file k => { st with cache := st.cache.mutate k g }

/-- The bmask part of `set_slice` (_se_image.py:694-702): `mask` is `self._mask_tape_bumps`. -/
def sliceBmask (table : List (Nat × List Bump)) (files : κ → Except Err (Img (BitVec 32)))
    (st : ReadState κ) (src : MaskSrc κ) (mask : Bool) (y x n : Nat) :
    Except Err (Img (BitVec 32)) × ReadState κ :=
  match readImage files st src.loc with
  | (.error e, st) => (.error e, st)
  | (.ok bmask, st) =>
    if mask then
      match bumpsOf table src.ccd with
      | .error e => (.error e, st)
      | .ok bumps =>
        (.ok ((setTapeBumps bumps bmask).window y x n), mutateAt st src.loc (setTapeBumps bumps))
    else (.ok (bmask.window y x n), st)

/-- Operations of a process on the image cache: reading a slice mask, reading any other image,
clearing the caches. -/
inductive ReadOp (κ : Type) where
  | slice (src : MaskSrc κ) (mask : Bool) (y x n : Nat)
  | other (loc : Loc κ)
  | clear

/-- The state after one operation. -/
def readOp (table : List (Nat × List Bump)) (files : κ → Except Err (Img (BitVec 32)))
    (st : ReadState κ) : ReadOp κ → ReadState κ
  | .slice src mask y x n => (sliceBmask table files st src mask y x n).2
  | .other loc => (readImage files st loc).2
  | .clear => { st with cache := st.cache.clear }

/-- The state after a history of operations. -/
def readHistory (table : List (Nat × List Bump)) (files : κ → Except Err (Img (BitVec 32)))
    (st : ReadState κ) (ops : List (ReadOp κ)) : ReadState κ :=
  ops.foldl (readOp table files) st

end
end Pizza
