import Verif.Model.Process
import Verif.Model.Run

/-!
Runs with the processes that compute the slices (pizza_cutter/des_pizza_cutter/_pizza_cutter.py:562-642): the
sequential run in one process, and the parallel run with a pool of processes that are copies of the parent.
-/

namespace Pizza

section
variable {A σ S P : Type}

/-- The sequential run (_pizza_cutter.py:622-642) in a process. -/
def runSeqP (w : ProcWorld A σ S P) (t : Tile A S P) (c : RunShape Flt) (o : Out Flt EpochRow) :
    List (Nat × Nat) → PM P (Out Flt EpochRow)
  | [] => pure o
  | j :: l => do
    let r ← coaddSingleSliceP w t j.1 j.2
    let o ← PM.lift (processResults c.ops c.npix c.npixPsf o r)
    runSeqP w t c o l

/-- The state of a parallel run with its processes: those that wait for a chunk and those that work on one; see
`PState` for the rest. -/
structure QState (P : Type) where
  pending : List (List (Nat × Nat))
  idle : List (Proc P)
  working : List (Proc P × List (Nat × Nat))
  queue : List (Except Err (SliceRes Flt EpochRow))
  out : Out Flt EpochRow
  got : Nat
  status : Status

/-- The state after all chunks have been submitted to a pool of processes forked from the parent
(_pizza_cutter.py:571-604). -/
def QState.init (chunks : List (List (Nat × Nat))) (parent : Proc P) (nJobs : Nat) (o : Out Flt EpochRow) : QState P :=
  ⟨chunks, List.replicate nJobs parent, [], [], o, 0, .running⟩

/-- The steps of a parallel run, see `Step`.  The arguments of a chunk are pickled, so that the process that takes it
gets new copies of the arrays in the memory of the parent. -/
inductive QStep (w : ProcWorld A σ S P) (t : Tile A S P) (c : RunShape Flt) (arrays : Nat → Arr) (n cap : Nat) :
    QState P → QState P → Prop
  | start (ch p1 p2 i1 x i2 k q o g) :
      QStep w t c arrays n cap ⟨p1 ++ ch :: p2, i1 ++ x :: i2, k, q, o, g, .running⟩
        ⟨p1 ++ p2, i1 ++ i2, ({ x with arrays := arrays }, ch) :: k, q, o, g, .running⟩
  | work (p i k1 x j js k2 q o g r x') : q.length < cap → coaddSingleSliceP w t j.1 j.2 x = (.ok r, x') →
      QStep w t c arrays n cap ⟨p, i, k1 ++ (x, j :: js) :: k2, q, o, g, .running⟩
        ⟨p, i, k1 ++ (x', js) :: k2, .ok r :: q, o, g, .running⟩
  | fail (p i k1 x j js k2 q o g e x') : q.length < cap → coaddSingleSliceP w t j.1 j.2 x = (.error e, x') →
      QStep w t c arrays n cap ⟨p, i, k1 ++ (x, j :: js) :: k2, q, o, g, .running⟩
        ⟨p, x' :: i, k1 ++ k2, .error .runtimeError :: q, o, g, .running⟩
  | finish (p i k1 x k2 q o g) :
      QStep w t c arrays n cap ⟨p, i, k1 ++ (x, []) :: k2, q, o, g, .running⟩
        ⟨p, x :: i, k1 ++ k2, q, o, g, .running⟩
  | get (p i k q1 r q2 o o' g) : g < n → processResults c.ops c.npix c.npixPsf o r = .ok o' →
      QStep w t c arrays n cap ⟨p, i, k, q1 ++ .ok r :: q2, o, g, .running⟩ ⟨p, i, k, q1 ++ q2, o', g + 1, .running⟩
  | getBad (p i k q1 r q2 o g e) : g < n → processResults c.ops c.npix c.npixPsf o r = .error e →
      QStep w t c arrays n cap ⟨p, i, k, q1 ++ .ok r :: q2, o, g, .running⟩ ⟨p, i, k, q1 ++ q2, o, g, .raised e⟩
  | getError (p i k q1 e q2 o g) : g < n →
      QStep w t c arrays n cap ⟨p, i, k, q1 ++ .error e :: q2, o, g, .running⟩ ⟨p, i, k, q1 ++ q2, o, g, .raised e⟩
  | join (i q o) : QStep w t c arrays n cap ⟨[], i, [], q, o, n, .running⟩ ⟨[], i, [], q, o, n, .done⟩

/-- `k` steps. -/
inductive QSteps (w : ProcWorld A σ S P) (t : Tile A S P) (c : RunShape Flt) (arrays : Nat → Arr) (n cap : Nat) :
    Nat → QState P → QState P → Prop
  | refl (s) : QSteps w t c arrays n cap 0 s s
  | tail {k s u v} : QSteps w t c arrays n cap k s u → QStep w t c arrays n cap u v →
      QSteps w t c arrays n cap (k + 1) s v

end
end Pizza
