import Verif.Model.MakeProc
import Verif.Spec.Make
import Verif.Spec.Process

/-! Specification of whole calls in processes that have done other things before. -/

namespace Pizza

section
variable {A σ S P W ρ : Type}

/-- The call with nothing kept in memory: for every slice the SE images are read anew; the seeds of image `i` are those
drawn for it. -/
def MakeP.fresh (q : MakeP A σ S P W ρ) : MakeIn A σ S W ρ :=
  { q.args with
    slice := { freshEnv q.world q.tile with sources := fun _ _ _ _ => [], objects := [] }
    sourcesOf := fun seeds ra dec raPsf decPsf => (q.tile.entries.zip seeds).map fun x =>
      freshSrc q.world q.tile ra dec raPsf decPsf { x.1 with noiseSeeds := x.2.noise, piffSeed := x.2.piff } }

/-- The call is one with the files of `w`, and its tile, whatever its slices, with the seeds that are drawn for them, is among
those of `U`. -/
def MakeP.Within (q : MakeP A σ S P W ρ) (w : ProcWorld A σ S P) (U : Tile A S P → Prop) : Prop :=
  q.world = w ∧ ∀ t,
    List.Forall₂ (fun (e : Entry P) (x : Entry P × SrcSeeds) => e = { x.1 with noiseSeeds := x.2.noise, piffSeed := x.2.piff })
      t.entries (q.tile.entries.zip (runSeeds q.fresh t.objects.length).srcs) →
    { t with entries := q.tile.entries, objects := q.tile.objects } = q.tile → U t

/-- The processes there may be: new ones with caches of any sizes, and those that have computed slices, cleared their
caches or made whole calls, with or without errors. -/
inductive Reached (w : ProcWorld A σ S P) (U : Tile A S P → Prop) : Proc P → Prop
  | fresh (sizes : CacheId → Nat) (count : Nat) : Reached w U (Proc.fresh sizes w.arrays count)
  | step (st : Proc P) (op : ProcOp A S P) : Reached w U st → OpsIn U [op] → Reached w U (procStep w st op)
  | call {W ρ : Type} (q : MakeP A σ S P W ρ) (p : Prepared) (st st' : Proc P) (ss : List Section) (r : Option Err) :
      Reached w U st → q.Within w U → FitsBodyP q p st ss r st' → Reached w U st'

/-- The same call but for the number of jobs and of chunks and the temporary directory. -/
def MakeP.With (q : MakeP A σ S P W ρ) (nJobs : Nat) (nChunks : Option Nat) (tmpdir : Option PyStr) : MakeP A σ S P W ρ :=
  { q with args := { q.args with nJobs := nJobs, nChunks := nChunks }, tile := { q.tile with tmpdir := tmpdir }, same := q.same }

end
end Pizza
