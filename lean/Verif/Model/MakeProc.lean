import Verif.Model.Make
import Verif.Model.ProcessRun

/-!
`make_des_pizza_slices` as a whole in a process (pizza_cutter/des_pizza_cutter/_pizza_cutter.py:78-238, 507-648): the
caches of the process are what earlier calls have left in them, and the slices are computed with them.  See `Model/Make`
for the same without caches.
-/

namespace Pizza

section
variable {A σ S P W ρ : Type}

/-- The arguments of a call: `args` as in `MakeIn`, where `slice` and `sourcesOf` are not used; instead the SE images, the
coadd and the options are in `tile` (without seeds and slices) and the files in `world`.  `args.srcs` and `tile.entries`
are both `info['src_info']`. -/
structure MakeP (A σ S P W ρ : Type) where
  args : MakeIn A σ S W ρ
  world : ProcWorld A σ S P
  tile : Tile A S P
  same : args.srcs.length = tile.entries.length

/-- What is used of a tile outside of the loop over the slices (_pizza_cutter.py:156-181, 519-557): nothing of the SE
images. -/
def planEnv (w : ProcWorld A σ S P) (t : Tile A S P) : SliceEnv A σ S where
  ext := w.ext
  seeded := w.seeded
  fwd := t.fwd
  inv := t.inv
  offset := t.offset
  cfg := t.cfg
  gaiaFile := t.gaiaPath.map w.gaia
  gaiaCfg := t.gaiaCfg
  draw := w.draw
  pow10 := w.pow10
  f4 := w.f4
  sources := fun _ _ _ _ => []
  nExtra := t.nExtra
  objects := []

/-- The call as far as it does not depend on the SE images. -/
def MakeP.plan (q : MakeP A σ S P W ρ) : MakeIn A σ S W ρ :=
  { q.args with slice := planEnv q.world q.tile, sourcesOf := fun _ _ _ _ _ => [] }

/-- `info['src_info'][i]['noise_seeds'] = …` and `["mask_piff_failure_seed"] = …` (_pizza_cutter.py:555-557). -/
def Entry.withSeeds (e : Entry P) (s : SrcSeeds) : Entry P := { e with noiseSeeds := s.noise, piffSeed := s.piff }

/-- What the slices are computed from (_pizza_cutter.py:552-557, 590-602, 625-636). -/
def Tile.prepared (t : Tile A S P) (seeds : List SrcSeeds) (objs : List ObjRow) : Tile A S P :=
  { t with entries := List.zipWith Entry.withSeeds t.entries seeds, objects := objs }

/-- The tile of a call, with its seeds and slices. -/
def MakeP.tileFor (q : MakeP A σ S P W ρ) (objs : List ObjRow) : Tile A S P :=
  q.tile.prepared (seedsFor q.plan objs).srcs objs

/-- The loop over the slices, see `SliceRun`, with the process that it leaves: the workers of a parallel run end with the
pool and their caches are lost. -/
inductive SliceRunP (w : ProcWorld A σ S P) (t : Tile A S P) (c : RunShape Flt) (nJobs : Nat) (nChunks : Option Nat)
    (slices seeds : List Nat) (o : Out Flt EpochRow) (st : Proc P) : Except Err (Out Flt EpochRow) → Proc P → Prop
  | seq : nJobs ≤ 1 →
      SliceRunP w t c nJobs nChunks slices seeds o st
        (runSeqP w t c o (slices.map fun i => (i, seeds.getD i 0)) st).1
        (runSeqP w t c o (slices.map fun i => (i, seeds.getD i 0)) st).2
  | noChunks (e) : 1 < nJobs → allChunks slices seeds (nChunks.getD nJobs) = .error e →
      SliceRunP w t c nJobs nChunks slices seeds o st (.error e) st
  | parDone (chunks k s) : 1 < nJobs → allChunks slices seeds (nChunks.getD nJobs) = .ok chunks →
      QSteps w t c st.arrays slices.length (10 * nJobs) k (QState.init chunks st nJobs o) s → s.status = .done →
      SliceRunP w t c nJobs nChunks slices seeds o st (.ok s.out) st
  | parRaised (chunks k s e) : 1 < nJobs → allChunks slices seeds (nChunks.getD nJobs) = .ok chunks →
      QSteps w t c st.arrays slices.length (10 * nJobs) k (QState.init chunks st nJobs o) s → s.status = .raised e →
      SliceRunP w t c nJobs nChunks slices seeds o st (.error e) st

/-- The end of the block that writes the FITS file (_pizza_cutter.py:644-648, 204-216), see `finishFile`: the stars may be
in the cache. -/
def finishFileP (w : ProcWorld A σ S P) (t : Tile A S P) (p : Prepared) (n : Nat) (o : Out Flt EpochRow) (st : Proc P) :
    (List Section × Option Err) × Proc P :=
  let ss := o.fits.map .image ++ [.objectData (p.objects.zip o.rows)]
  if o.epochs.length ≠ n then ((ss, some .assertionError), st)
  else
    match o.epochs with
    | [] => ((ss, some .indexError), st)
    | es =>
      let ss := ss ++ [.epochsInfo es.flatten, .metadata p.md, .tileInfo p.json, .imageInfo p.imageInfo]
      match t.gaiaPath with
      | none => ((ss, none), st)
      | some path =>
        match readGaiaP w t path st with
        | (.error e, st) => ((ss, some e), st)
        | (.ok stars, st) => ((ss ++ [.gaiaStars stars], none), st)

/-- The block `with fitsio.FITS(...)` (_pizza_cutter.py:186-216 with 507-648), see `FitsBody`, from a process to the
process that it leaves. -/
inductive FitsBodyP (q : MakeP A σ S P W ρ) (p : Prepared) (st : Proc P) : List Section → Option Err → Proc P → Prop
  | select (e) : selectSlices q.plan p.objects = .error e → FitsBodyP q p st [] (some e) st
  | counts (slices e) : selectSlices q.plan p.objects = .ok slices → pixelCounts p.objects = .error e →
      FitsBodyP q p st [] (some e) st
  | reserve (slices n ss e) : selectSlices q.plan p.objects = .ok slices → pixelCounts p.objects = .ok n →
      reserveImages q.args.ops q.args.pars n.2.2.1 n.2.2.2 q.tile.nExtra n.1 n.2.1 = .error e →
      FitsBodyP q p st ss (some e) st
  | slices (slices n fits ss e st') : selectSlices q.plan p.objects = .ok slices → pixelCounts p.objects = .ok n →
      reserveImages q.args.ops q.args.pars n.2.2.1 n.2.2.2 q.tile.nExtra n.1 n.2.1 = .ok fits →
      SliceRunP q.world (q.tileFor p.objects) ⟨q.args.ops, q.args.pars, p.objects.length, n.1, n.2.1, q.tile.nExtra⟩
        q.args.nJobs q.args.nChunks slices (seedsFor q.plan p.objects).slices
        ⟨fits, q.args.rows0 p.objects.length, []⟩ st (.error e) st' → FitsBodyP q p st ss (some e) st'
  | finish (slices n fits o st') : selectSlices q.plan p.objects = .ok slices → pixelCounts p.objects = .ok n →
      reserveImages q.args.ops q.args.pars n.2.2.1 n.2.2.2 q.tile.nExtra n.1 n.2.1 = .ok fits →
      SliceRunP q.world (q.tileFor p.objects) ⟨q.args.ops, q.args.pars, p.objects.length, n.1, n.2.1, q.tile.nExtra⟩
        q.args.nJobs q.args.nChunks slices (seedsFor q.plan p.objects).slices
        ⟨fits, q.args.rows0 p.objects.length, []⟩ st (.ok o) st' →
      FitsBodyP q p st (finishFileP q.world (q.tileFor p.objects) p slices.length o st').1.1
        (finishFileP q.world (q.tileFor p.objects) p slices.length o st').1.2
        (finishFileP q.world (q.tileFor p.objects) p slices.length o st').2

/-- `make_des_pizza_slices` (_pizza_cutter.py:78-238) in a process: the programs on the file system that a call may be,
with the process that it leaves. -/
inductive MakeRunP {D : Type} (q : MakeP A σ S P W ρ) (sto : Storage D) (env : FsEnv D) (meds : FPath)
    (tmpdir : Option FPath) (removeFits : Bool) (valid : D → Bool) (st : Proc P) : FM D Unit → Proc P → Prop
  | early (e) : prepare q.plan = .error e → MakeRunP q sto env meds tmpdir removeFits valid st (FM.raise e) st
  | run (p ss raised st') : prepare q.plan = .ok p → FitsBodyP q p st ss raised st' →
      MakeRunP q sto env meds tmpdir removeFits valid st
        (publishRun env meds tmpdir ⟨sto.plain ss, raised⟩ (sto.fpack (hashToInt q.args.digest) ss) removeFits valid) st'

end
end Pizza
