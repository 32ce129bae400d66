import Mathlib.Data.List.Perm.Basic
import Mathlib.Data.List.Sort
import Mathlib.Data.Rat.Defs
import Mathlib.Algebra.Order.Ring.Unbundled.Rat

/-!
Vocabulary for the properties of scheduling.
-/

namespace Pizza

/-- `f` sorts indices: for every list it returns the positions, each once, in an order in which the
elements do not decrease. -/
def IsArgsort (f : List Nat → List Nat) : Prop :=
  ∀ l : List Nat, (f l).Perm (List.range l.length) ∧ ((f l).map fun k => l.getD k 0).Pairwise (· ≤ ·)

/-- `k` is the number of the one of eight equal strips of `0..size` that holds `v`; what lies before
the first strip belongs to the first, what lies behind the last to the last. -/
def InStrip (size : Nat) (v : ℚ) (k : ℤ) : Prop :=
  0 ≤ k ∧ k ≤ 7 ∧ (0 < k → (k : ℚ) * size ≤ 8 * v) ∧ (k < 7 → 8 * v < ((k : ℚ) + 1) * size)

/-- The `k`-th value of a stream of draws with the given bounds. -/
def nthDraw {σ : Type} (draw : Nat → Nat → σ → Nat × σ) : List (Nat × Nat) → Nat → σ → Option Nat
  | [], _, _ => none
  | (lo, hi) :: _, 0, s => some (draw lo hi s).1
  | (lo, hi) :: l, k + 1, s => nthDraw draw l k (draw lo hi s).2

end Pizza
