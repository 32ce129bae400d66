import Verif.Model.Basic

/-!
`functools.lru_cache`, as used by the readers of pizza_cutter/des_pizza_cutter/_se_image.py
(lines 46-60, 61-68, 77-92, 120-131, 134-167, 193-227, 230-360) and
pizza_cutter/des_pizza_cutter/_pizza_cutter.py:651-683.  The behaviour of `lru_cache` itself is
modelled from the Python documentation; it is not part of /repo.
-/

namespace Pizza

/-- The contents of a cache: most recently used entry first. -/
structure Lru (κ V : Type) where
  maxsize : Nat
  entries : List (κ × V)

section
variable {κ V A : Type} [DecidableEq κ]

/-- The stored value for a key. -/
def Lru.find? (c : Lru κ V) (k : κ) : Option V :=
  (c.entries.find? fun e => decide (e.1 = k)).map Prod.snd

/-- One call of a cached function: a hit moves the entry to the front; a miss calls the
function, and stores a result (evicting the least recently used entries beyond `maxsize`)
unless it raised.  The last component tells if the function was called. -/
def lruCall (f : A → Except Err V) (key : A → κ) (c : Lru κ V) (a : A) :
    Except Err V × Lru κ V × Bool :=
  match c.find? (key a) with
  | some v =>
    (.ok v, { c with entries := (key a, v) :: c.entries.filter fun e => decide (e.1 ≠ key a) }, false)
  | none =>
    match f a with
    | .error e => (.error e, c, true)
    | .ok v => (.ok v, { c with entries := ((key a, v) :: c.entries).take c.maxsize }, true)

/-- `cache_clear()` (_se_image.py:373-380, `clear_image_and_wcs_caches`). -/
def Lru.clear (c : Lru κ V) : Lru κ V := { c with entries := [] }

/-- What can happen to a cached function: a call, or `cache_clear`. -/
inductive CacheOp (A : Type) where
  | call (a : A)
  | clear

/-- A history of operations on one cache: the results of the calls, the final cache, and the
arguments for which the underlying function was called. -/
def runCache (f : A → Except Err V) (key : A → κ) :
    Lru κ V → List (CacheOp A) → List (Except Err V) × Lru κ V × List A
  | c, [] => ([], c, [])
  | c, .clear :: ops => runCache f key c.clear ops
  | c, .call a :: ops =>
    let r := lruCall f key c a
    let rest := runCache f key r.2.1 ops
    (r.1 :: rest.1, rest.2.1, if r.2.2 then a :: rest.2.2 else rest.2.2)

/-- In-place modification of the array that a cached call returned: the cache holds a reference
to the same array, so its entry changes too. -/
def Lru.mutate (c : Lru κ V) (k : κ) (g : V → V) : Lru κ V :=
  { c with entries := c.entries.map fun e => if e.1 = k then (e.1, g e.2) else e }

end
end Pizza
