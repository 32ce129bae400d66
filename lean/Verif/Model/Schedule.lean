import Verif.Model.SEGeom

/-!
Ordering, seeds and job chunks of `_coadd_and_write_images`
(pizza_cutter/des_pizza_cutter/_pizza_cutter.py:514-585).
-/

namespace Pizza

/-! ### ordering -/

/-- `ph_order` (_pizza_cutter.py:524). -/
def phOrder : ℤ := 8

/-- `min(max(int(col / dx), 0), ph_order-1)` with `dx = size / ph_order`
(_pizza_cutter.py:527-533); a side of 0 pixels makes a division by zero. -/
def curveIndex (v : ℚ) (size : Nat) : Except Err ℤ :=
  if size = 0 then .error .zeroDivision
  else .ok (min (max (truncQ (v / ((size : ℚ) / (phOrder : ℚ)))) 0) (phOrder - 1))

/-- The distance along the curve of one slice (_pizza_cutter.py:530-534).  `sky` is
`wcs.sky2image` at the centre of the slice, as (col, row); `dist` is
`hilbert_curve.distance_from_point`. -/
def curveDistance (sky : Nat → Except Err (ℚ × ℚ)) (dist : ℤ → ℤ → Nat) (nrow ncol : Nat) (i : Nat) :
    Except Err Nat := do
  let p ← sky i
  let x ← curveIndex p.1 ncol
  let y ← curveIndex p.2 nrow
  pure (dist x y)

/-- The ordering of the slices (_pizza_cutter.py:523-536).  `argsort` is `np.argsort`, whose order
of equal elements is not specified. -/
def orderSlices (sky : Nat → Except Err (ℚ × ℚ)) (dist : ℤ → ℤ → Nat) (argsort : List Nat → List Nat)
    (nrow ncol : Nat) (slices : List Nat) : Except Err (List Nat) := do
  let ds ← slices.mapM (curveDistance sky dist nrow ncol)
  pure ((argsort ds).map fun k => slices.getD k 0)

/-! ### seeds -/

/-- A random stream: `randint(low, high)` gives a value and a new state. -/
structure RandInt (σ : Type) where
  draw : Nat → Nat → σ → Nat × σ

/-- `rng.randint(low, high, size=n)`: `n` draws. -/
def RandInt.many {σ : Type} (r : RandInt σ) (low high : Nat) : Nat → σ → List Nat × σ
  | 0, s => ([], s)
  | n + 1, s =>
    let d := r.draw low high s
    let t := r.many low high n d.2
    (d.1 :: t.1, t.2)

/-- The seeds stored in one `src_info` entry (_pizza_cutter.py:555-557). -/
structure SrcSeeds where
  noise : List Nat
  piff : Nat
  deriving DecidableEq

/-- The loop over the images (_pizza_cutter.py:554-557). -/
def srcSeeds {σ : Type} (r : RandInt σ) (nExtra : Nat) : Nat → σ → List SrcSeeds
  | 0, _ => []
  | n + 1, s =>
    let a := r.many 1 (2 ^ 30) (nExtra + 1) s
    let b := r.draw 1 (2 ^ 30) a.2
    ⟨a.1, b.1⟩ :: srcSeeds r nExtra n b.2

/-- All seeds of a run (_pizza_cutter.py:549-557). -/
structure Seeds where
  slices : List Nat
  srcs : List SrcSeeds
  deriving DecidableEq

/-- The seeds made from the state of `RandomState(seed=seed)` (_pizza_cutter.py:549-557). -/
def makeSeeds {σ : Type} (r : RandInt σ) (s : σ) (nSlices nSrc nExtra : Nat) : Seeds :=
  let a := r.many 1 (2 ^ 32 - 1) nSlices s
  ⟨a.1, srcSeeds r nExtra nSrc a.2⟩

/-! ### chunks -/

/-- `nsub` (_pizza_cutter.py:567-569). -/
def nSub (n nChunks : Nat) : Nat :=
  let q := n / nChunks
  if q * nChunks < n then q + 1 else q

/-- `jobs[w]` and `worker_seeds[w]` as pairs (_pizza_cutter.py:577-585); `seeds` has an entry for
every slice number. -/
def chunkJobs (slices : List Nat) (seeds : List Nat) (nChunks w : Nat) : List (Nat × Nat) :=
  let nsub := nSub slices.length nChunks
  (List.range nsub).filterMap fun s =>
    let loc := w * nsub + s
    if loc < slices.length then
      let i := slices.getD loc 0
      some (i, seeds.getD i 0)
    else none

/-- All chunks (_pizza_cutter.py:567-585): ZeroDivisionError without chunks. -/
def allChunks (slices seeds : List Nat) (nChunks : Nat) : Except Err (List (List (Nat × Nat))) :=
  if nChunks = 0 then .error .zeroDivision
  else .ok ((List.range nChunks).map (chunkJobs slices seeds nChunks))

end Pizza
