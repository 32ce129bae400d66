import Verif.Model.Fits

/-!
The two ways of running the slices in `_coadd_and_write_images`
(pizza_cutter/des_pizza_cutter/_pizza_cutter.py:564-642) and `_process_slice_chunk` (417-443).

A job is a slice number with its seed.  `compute i seed` is `_coadd_single_slice`: it is a function of
the slice number and the seed here (the caches are transparent, see C34-C36; the in-place change of
cached masks by the tape-bump option, C37, is not modelled).
-/

namespace Pizza

variable {V E : Type}

/-- Everything that is fixed in a run: the pixel operations, the fpack parameters, the number of slices,
`npix` and `npix_psf` (_pizza_cutter.py:540-541), the number of extra noise images. -/
structure RunShape (V : Type) where
  ops : PixelOps V
  pars : Option (List (String × String))
  n : Nat
  npix : Nat
  npixPsf : Nat
  nExtra : Nat

/-- `_process_results` called for results one after the other (_pizza_cutter.py:606-618, 635-642). -/
def processAllResults (c : RunShape V) (o : Out V E) : List (SliceRes V E) → Except Err (Out V E)
  | [] => .ok o
  | r :: l => do
    let o ← processResults c.ops c.npix c.npixPsf o r
    processAllResults c o l

/-- The sequential run (_pizza_cutter.py:622-642). -/
def runSeq (c : RunShape V) (compute : Nat → Nat → Except Err (SliceRes V E)) (o : Out V E) :
    List (Nat × Nat) → Except Err (Out V E)
  | [] => .ok o
  | j :: l => do
    let r ← compute j.1 j.2
    let o ← processResults c.ops c.npix c.npixPsf o r
    runSeq c compute o l

/-! ### the parallel run -/

/-- The state of the parent: waiting for results, ended by an exception, or returned. -/
inductive Status where
  | running
  | raised (e : Err)
  | done

/-- The state of a parallel run: chunks not yet given to a worker, the remaining jobs of the chunks in
work, the messages in the queue (as a bag: the feeder threads of different workers may overtake each
other), what the parent has written, how many results it has received, its status. -/
structure PState (V E : Type) where
  pending : List (List (Nat × Nat))
  working : List (List (Nat × Nat))
  queue : List (Except Err (SliceRes V E))
  out : Out V E
  got : Nat
  status : Status

/-- The state after all chunks have been submitted (_pizza_cutter.py:589-604). -/
def PState.init (chunks : List (List (Nat × Nat))) (o : Out V E) : PState V E :=
  ⟨chunks, [], [], o, 0, .running⟩

/-- The steps of a parallel run with `n` slices, `nJobs` workers and a queue of `cap` places
(`10 * n_jobs`, _pizza_cutter.py:571).
* `start`: an idle worker takes a chunk (_pizza_cutter.py:589-604);
* `work`: a worker computes a slice and puts the result once there is room (421-435);
* `fail`: the computation raises, the worker puts a RuntimeError and ends its chunk (436-443);
* `finish`: a worker has no more slices (423);
* `get`: the parent takes a result and stores it (606-618);
* `getBad`: storing it raises in the parent;
* `getError`: the parent takes an exception and raises it (609-610);
* `join`: all results are in and all chunks have ended, `[fut.get() for fut in futs]` (606,620). -/
inductive Step (c : RunShape V) (compute : Nat → Nat → Except Err (SliceRes V E)) (n nJobs cap : Nat) :
    PState V E → PState V E → Prop
  | start (ch p1 p2 w q o g) : w.length < nJobs →
      Step c compute n nJobs cap ⟨p1 ++ ch :: p2, w, q, o, g, .running⟩ ⟨p1 ++ p2, ch :: w, q, o, g, .running⟩
  | work (p w1 j js w2 q o g r) : q.length < cap → compute j.1 j.2 = .ok r →
      Step c compute n nJobs cap ⟨p, w1 ++ (j :: js) :: w2, q, o, g, .running⟩
        ⟨p, w1 ++ js :: w2, .ok r :: q, o, g, .running⟩
  | fail (p w1 j js w2 q o g e) : q.length < cap → compute j.1 j.2 = .error e →
      Step c compute n nJobs cap ⟨p, w1 ++ (j :: js) :: w2, q, o, g, .running⟩
        ⟨p, w1 ++ w2, .error .runtimeError :: q, o, g, .running⟩
  | finish (p w1 w2 q o g) :
      Step c compute n nJobs cap ⟨p, w1 ++ [] :: w2, q, o, g, .running⟩ ⟨p, w1 ++ w2, q, o, g, .running⟩
  | get (p w q1 r q2 o o' g) : g < n → processResults c.ops c.npix c.npixPsf o r = .ok o' →
      Step c compute n nJobs cap ⟨p, w, q1 ++ .ok r :: q2, o, g, .running⟩ ⟨p, w, q1 ++ q2, o', g + 1, .running⟩
  | getBad (p w q1 r q2 o g e) : g < n → processResults c.ops c.npix c.npixPsf o r = .error e →
      Step c compute n nJobs cap ⟨p, w, q1 ++ .ok r :: q2, o, g, .running⟩ ⟨p, w, q1 ++ q2, o, g, .raised e⟩
  | getError (p w q1 e q2 o g) : g < n →
      Step c compute n nJobs cap ⟨p, w, q1 ++ .error e :: q2, o, g, .running⟩ ⟨p, w, q1 ++ q2, o, g, .raised e⟩
  | join (q o) : Step c compute n nJobs cap ⟨[], [], q, o, n, .running⟩ ⟨[], [], q, o, n, .done⟩

/-- `k` steps. -/
inductive Steps (c : RunShape V) (compute : Nat → Nat → Except Err (SliceRes V E)) (n nJobs cap : Nat) :
    Nat → PState V E → PState V E → Prop
  | refl (s) : Steps c compute n nJobs cap 0 s s
  | tail {k s t u} : Steps c compute n nJobs cap k s t → Step c compute n nJobs cap t u →
      Steps c compute n nJobs cap (k + 1) s u

/-- The same with workers that can be killed from outside (the pool replaces the process, the chunk it
had is lost; nothing in _pizza_cutter.py:564-621 notices).  Not part of the code itself: used to
state what is not guarded against. -/
inductive KStep (c : RunShape V) (compute : Nat → Nat → Except Err (SliceRes V E)) (n nJobs cap : Nat) :
    PState V E → PState V E → Prop
  | step {s t} : Step c compute n nJobs cap s t → KStep c compute n nJobs cap s t
  | kill (p w1 ch w2 q o g) : KStep c compute n nJobs cap ⟨p, w1 ++ ch :: w2, q, o, g, .running⟩
      ⟨p, w1 ++ w2, q, o, g, .running⟩

end Pizza
