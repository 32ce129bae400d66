import Verif.Model.Basic
import Mathlib.Analysis.Real.Sqrt

/-!
The memory mapped noise image.  Models pizza_cutter/memmappednoise.py.

The random stream of `np.random.RandomState(seed)` is a function `z : Nat → ℝ` (the k-th unit
normal drawn); `rng.normal(size=(h, w))` takes the next `h*w` of them in row-major order.  The
memory mapped file is a function from pixels to values; float32 rounding is not modelled.
-/

namespace Pizza

/-- `n_sx` / `n_sy` (memmappednoise.py:39-45); `n // 0` raises. -/
def nChunks (n s : Nat) : Except Err Nat :=
  if s = 0 then .error .zeroDivision
  else
    let q := n / s
    .ok (if q * s < n then q + 1 else q)

/-- `zwgt` for one pixel (memmappednoise.py:68-72): with a fill weight,
`wgt * (~zmsk) + fill_weight * zmsk`. -/
noncomputable def fillWeight (fill : Option ℝ) (w : ℝ) : ℝ :=
  match fill with
  | some f => w * (if w ≤ 0 then 0 else 1) + f * (if w ≤ 0 then 1 else 0)
  | none => w

/-- `np.sqrt(1.0 / w)` (memmappednoise.py:74): `none` stands for the infinity or nan that numpy
returns for non-positive `w`. -/
noncomputable def sqrtInv (w : ℝ) : Option ℝ := if 0 < w then some (√(1 / w)) else none

/-- State of the filling loop: the memory mapped array, how many draws have been taken, and, as
a ghost variable for the statement of C27, how often each pixel was written. -/
structure NoiseState where
  noise : Nat → Nat → Option ℝ
  drawn : Nat
  writes : Nat → Nat → Nat

/-- Body of the double loop (memmappednoise.py:60-75). -/
noncomputable def noiseStep (z : Nat → ℝ) (weight : Img ℝ) (fill : Option ℝ) (sx sy : Nat)
    (st : NoiseState) (cell : Nat × Nat) : NoiseState :=
  let xl := cell.1 * sx
  let xu := min (xl + sx) weight.nrow
  let yl := cell.2 * sy
  let yu := min (yl + sy) weight.ncol
  { noise := fun r c =>
      if xl ≤ r ∧ r < xu ∧ yl ≤ c ∧ c < yu then
        (sqrtInv (fillWeight fill (weight.px r c))).map
          fun s => z (st.drawn + ((r - xl) * (yu - yl) + (c - yl))) * s
      else st.noise r c
    drawn := st.drawn + (xu - xl) * (yu - yl)
    writes := fun r c =>
      if xl ≤ r ∧ r < xu ∧ yl ≤ c ∧ c < yu then st.writes r c + 1 else st.writes r c }

/-- `MemMappedNoiseImage.__init__` (memmappednoise.py:24-76): a new file is all zeros. -/
noncomputable def memMappedNoise (z : Nat → ℝ) (weight : Img ℝ) (fill : Option ℝ) (sx sy : Nat) :
    Except Err NoiseState := do
  let nsx ← nChunks weight.nrow sx
  let nsy ← nChunks weight.ncol sy
  let cells := (List.range nsx).flatMap fun isx => (List.range nsy).map fun isy => (isx, isy)
  pure (cells.foldl (noiseStep z weight fill sx sy) ⟨fun _ _ => some 0, 0, fun _ _ => 0⟩)

end Pizza
