import Verif.Model.Basic

/-!
`_extract_slice_range` (pizza_cutter/des_pizza_cutter/_pizza_cutter.py:1034-1060).
-/

namespace Pizza

/-- `s.split(':')` (_pizza_cutter.py:1041): the pieces between the separators. -/
def splitColon : List Char → List (List Char)
  | [] => [[]]
  | c :: l =>
    if c = ':' then [] :: splitColon l
    else
      match splitColon l with
      | [] => [[c]]
      | p :: ps => (c :: p) :: ps

/-- White space that `int` strips (the ASCII part of it). -/
def isPySpace (c : Char) : Bool := c = ' ' || ('\t' ≤ c && c ≤ '\r') || ('\x1c' ≤ c && c ≤ '\x1f')

/-- `str.strip`. -/
def pyStrip (s : List Char) : List Char :=
  ((s.dropWhile isPySpace).reverse.dropWhile isPySpace).reverse

/-- The decimal digits of an integer literal, with single underscores between digits; `acc` is the
value so far and `ok` says whether the last character was a digit. -/
def pyDigits : List Char → Nat → Bool → Option Nat
  | [], acc, ok => if ok then some acc else none
  | c :: l, acc, ok =>
    if '0' ≤ c ∧ c ≤ '9' then pyDigits l (10 * acc + (c.toNat - '0'.toNat)) true
    else if c = '_' ∧ ok then pyDigits l acc false
    else none

/-- An optional sign and digits. -/
def pySigned : List Char → Option ℤ
  | '-' :: l => (pyDigits l 0 false).map fun (n : Nat) => -(n : ℤ)
  | '+' :: l => (pyDigits l 0 false).map fun (n : Nat) => (n : ℤ)
  | l => (pyDigits l 0 false).map fun (n : Nat) => (n : ℤ)

/-- `int(s)` for a string in base 10 (_pizza_cutter.py:1043-1044).  Not modelled: digits outside
ASCII. -/
def pyInt (s : List Char) : Except Err ℤ :=
  match pySigned (pyStrip s) with
  | some n => .ok n
  | none => .error .valueError

/-- The values `slice_range` may have: `None`, a string, a `range` object, another object with a
length (list, tuple, array), or an object without length. -/
inductive RangeSpec where
  | none
  | str (s : List Char)
  | range (start stop step : ℤ)
  | sized (l : List ℤ)
  | other

/-- The elements of `range(start, stop, step)` (Python language reference; `step = 0` cannot be
constructed). -/
def pyRange3 (start stop step : ℤ) : List ℤ :=
  let n : ℤ := if 0 < step then (stop - start + step - 1) / step
    else if step < 0 then (start - stop - step - 1) / (-step) else 0
  (List.range n.toNat).map fun (k : Nat) => start + (k : ℤ) * step

/-- The bounds check (_pizza_cutter.py:1055-1058). -/
def checkRange (num : Nat) (start stop step : ℤ) : Except Err (List ℤ) :=
  if start < 0 ∨ stop > num then .error .valueError else .ok (pyRange3 start stop step)

/-- `_extract_slice_range` (_pizza_cutter.py:1034-1060), with the elements of the range returned.
A list has no `start`: AttributeError (line 1055). -/
def extractSliceRange (spec : RangeSpec) (num : Nat) : Except Err (List ℤ) :=
  match spec with
  | .none => .ok (pyRange3 0 num 1)
  | .str s =>
    match splitColon s with
    | [a, b] => do
      let start ← pyInt a
      let stop ← pyInt b
      checkRange num start stop 1
    | _ => .error .assertionError
  | .range start stop step => checkRange num start stop step
  | .sized _ => .error .attributeError
  | .other => .error .valueError

end Pizza
