import Verif.Props.Make
import Verif.Props.Process
import Verif.Spec.MakeProc

/-!
C116: a call of `make_des_pizza_slices` in a process with any history writes what is computed from the files alone.
-/

namespace Pizza

section
variable {A σ S P W ρ : Type} {w : ProcWorld A σ S P} {U : Tile A S P → Prop}

theorem prepared_entries (l : List (Entry P)) (seeds : List SrcSeeds) :
    List.zipWith Entry.withSeeds l seeds = (l.zip seeds).map fun x : Entry P × SrcSeeds =>
      { x.1 with noiseSeeds := x.2.noise, piffSeed := x.2.piff } := by
  rw [List.zip, List.map_zipWith]
  rfl

theorem MakeP.env_eq (q : MakeP A σ S P W ρ) (objs : List ObjRow) :
    sliceEnvFor q.fresh objs = freshEnv q.world (q.tileFor objs) := by
  unfold sliceEnvFor freshEnv MakeP.tileFor Tile.prepared
  dsimp only [MakeP.fresh]
  congr 1
  funext ra dec raPsf decPsf
  rw [prepared_entries, List.map_map]
  rfl

theorem MakeP.prepare_eq (q : MakeP A σ S P W ρ) : prepare q.plan = prepare q.fresh := rfl

theorem MakeP.select_eq (q : MakeP A σ S P W ρ) (objs : List ObjRow) :
    selectSlices q.plan objs = selectSlices q.fresh objs := rfl

theorem MakeP.seeds_eq (q : MakeP A σ S P W ρ) (objs : List ObjRow) : seedsFor q.plan objs = seedsFor q.fresh objs := rfl

theorem within_tile {q : MakeP A σ S P W ρ} (h : q.Within w U) (objs : List ObjRow) : U (q.tileFor objs) := by
  refine h.2 _ ?_ rfl
  unfold MakeP.tileFor Tile.prepared
  dsimp only
  rw [prepared_entries, List.forall₂_map_left_iff]
  exact List.forall₂_same.2 fun _ _ => rfl

theorem sliceRunP_sim (ho : Orderly w U) {t : Tile A S P} (ht : U t) {c : RunShape Flt} {nJobs : Nat}
    {nChunks : Option Nat} {slices seeds : List Nat} {o : Out Flt EpochRow} {st st' : Proc P}
    {r : Except Err (Out Flt EpochRow)} (hs : PInv w U st)
    (h : SliceRunP w t c nJobs nChunks slices seeds o st r st') :
    SliceRun c (coaddSingleSlice (freshEnv w t)) nJobs nChunks slices seeds o r ∧ PInv w U st' := by
  cases h with
  | seq hj =>
    obtain ⟨h1, h2⟩ := seq_runs ho ht c (slices.map fun i => (i, seeds.getD i 0)) o st hs
    refine ⟨?_, h1⟩
    rw [h2.eq]
    exact .seq hj
  | noChunks e hj hc => exact ⟨.noChunks e hj hc, hs⟩
  | parDone chunks k s hj hc hrun hd =>
    obtain ⟨-, h⟩ := q_steps ho ht hs.arrays hrun (q_init hs _ _ _)
    exact ⟨.parDone chunks k s.seen hj hc h hd, hs⟩
  | parRaised chunks k s e hj hc hrun hd =>
    obtain ⟨-, h⟩ := q_steps ho ht hs.arrays hrun (q_init hs _ _ _)
    exact ⟨.parRaised chunks k s.seen e hj hc h hd, hs⟩

theorem finishFileP_sim (ho : Orderly w U) {q : MakeP A σ S P W ρ} (hq : q.Within w U) (p : Prepared) (n : Nat)
    (o : Out Flt EpochRow) {st : Proc P} (hs : PInv w U st) :
    (finishFileP q.world (q.tileFor p.objects) p n o st).1 = finishFile q.fresh p n o ∧
      PInv w U (finishFileP q.world (q.tileFor p.objects) p n o st).2 := by
  obtain rfl := hq.1
  unfold finishFileP finishFile
  dsimp only
  split
  · exact ⟨rfl, hs⟩
  · cases o.epochs with
    | nil => exact ⟨rfl, hs⟩
    | cons a l =>
      dsimp only
      have e1 : (q.tileFor p.objects).gaiaPath = q.tile.gaiaPath := rfl
      have e2 : q.fresh.slice.gaiaFile = q.tile.gaiaPath.map q.world.gaia := rfl
      rw [e1, e2]
      cases q.tile.gaiaPath with
      | none => exact ⟨rfl, hs⟩
      | some path =>
        obtain ⟨h1, h2⟩ := readGaia_runs ho (within_tile hq p.objects) path st hs
        have h2 := h2.eq
        revert h1 h2
        dsimp only [Option.map_some]
        generalize readGaiaP q.world (q.tileFor p.objects) path st = x
        obtain ⟨x, st'⟩ := x
        intro h1 h2
        dsimp only at h2
        subst h2
        cases q.world.gaia path with
        | error e => exact ⟨rfl, h1⟩
        | ok cat => exact ⟨rfl, h1⟩

theorem fitsBodyP_sim (ho : Orderly w U) {q : MakeP A σ S P W ρ} (hq : q.Within w U) {p : Prepared} {st st' : Proc P}
    {ss : List Section} {r : Option Err} (hs : PInv w U st) (h : FitsBodyP q p st ss r st') :
    FitsBody q.fresh p ss r ∧ PInv w U st' := by
  have hw := hq.1
  cases h with
  | select e h => exact ⟨.select e h, hs⟩
  | counts slices e h1 h2 => exact ⟨.counts slices e h1 h2, hs⟩
  | reserve slices n ss e h1 h2 h3 => exact ⟨.reserve slices n ss e h1 h2 h3, hs⟩
  | slices slices n fits ss e _ h1 h2 h3 h4 =>
    rw [hw] at h4
    obtain ⟨g1, g2⟩ := sliceRunP_sim ho (within_tile hq p.objects) hs h4
    refine ⟨.slices slices n fits ss e h1 h2 h3 ?_, g2⟩
    rw [MakeP.env_eq, hw]
    exact g1
  | finish slices n fits o st1 h1 h2 h3 h4 =>
    have h4' := h4
    rw [hw] at h4
    obtain ⟨g1, g2⟩ := sliceRunP_sim ho (within_tile hq p.objects) hs h4
    obtain ⟨f1, f2⟩ := finishFileP_sim ho hq p slices.length o g2
    rw [f1]
    refine ⟨.finish slices n fits o h1 h2 h3 ?_, f2⟩
    rw [MakeP.env_eq, hw]
    exact g1

theorem Reached.inv (ho : Orderly w U) {st : Proc P} (h : Reached w U st) : PInv w U st := by
  induction h with
  | fresh sizes count => exact fresh_inv sizes count
  | step st op _ hop ih => exact procRun_inv ho hop ih
  | call q p st st' ss r _ hq hb ih => exact (fitsBodyP_sim ho hq ih hb).2

/-- **C116** Whatever a process has done before — slices, whole calls for other tiles and with other options, with or
without errors, clearing of caches, with caches of any sizes — a call writes what is computed from the files with nothing
kept in between, and raises what is raised then. -/
theorem C116_call (ho : Orderly w U) (q : MakeP A σ S P W ρ) (hq : q.Within w U) (p : Prepared) (st st' : Proc P)
    (hst : Reached w U st) (ss : List Section) (r : Option Err) (h : FitsBodyP q p st ss r st') :
    FitsBody q.fresh p ss r :=
  (fitsBodyP_sim ho hq (hst.inv ho) h).1

/-- **C116** The same for what is done on the file system. -/
theorem C116_program {D : Type} (ho : Orderly w U) (q : MakeP A σ S P W ρ) (hq : q.Within w U) (st st' : Proc P)
    (hst : Reached w U st) (sto : Storage D) (env : FsEnv D) (meds : FPath) (tmpdir : Option FPath) (rm : Bool)
    (valid : D → Bool) (act : FM D Unit) (h : MakeRunP q sto env meds tmpdir rm valid st act st') :
    MakeRun q.fresh sto env meds tmpdir rm valid act ∧ Reached w U st' := by
  cases h with
  | early e he => exact ⟨.early e he, hst⟩
  | run p ss raised _ hp hb => exact ⟨.run p ss raised hp (C116_call ho q hq p st st' hst ss raised hb),
      .call q p st st' ss raised hst hq hb⟩

theorem sliceRunP_ends (ho : Orderly w U) {t : Tile A S P} (ht : U t) {c : RunShape Flt} {nJobs : Nat}
    {nChunks : Option Nat} {slices seeds : List Nat} {rows0 : List RunRow} {st : Proc P} (hs : PInv w U st)
    (hrows : rows0.length = c.n) (hc : ∀ jobs, GoodCompute c (coaddSingleSlice (freshEnv w t)) jobs) (hnd : slices.Nodup)
    (hf : reserveImages c.ops c.pars (c.n * c.npix) (c.n * c.npixPsf) c.nExtra c.npix c.npixPsf = .ok c.reserved) :
    ∃ r st', SliceRunP w t c nJobs nChunks slices seeds ⟨c.reserved, rows0, []⟩ st r st' := by
  by_cases hj : nJobs ≤ 1
  · exact ⟨_, _, .seq hj⟩
  · cases hch : allChunks slices seeds (nChunks.getD nJobs) with
    | error e => exact ⟨_, _, .noChunks e (by omega) hch⟩
    | ok chunks =>
      obtain ⟨k, u, h1, h2⟩ := q_completes ho ht c slices.length nJobs (10 * nJobs) 0 chunks hs ⟨c.reserved, rows0, []⟩ _
        (.refl _)
      obtain ⟨hq, h3⟩ := q_steps ho ht hs.arrays h1 (q_init hs _ _ _)
      cases hst : u.status with
      | done => exact ⟨_, _, .parDone _ _ _ (by omega) hch h1 hst⟩
      | raised e => exact ⟨_, _, .parRaised _ _ _ e (by omega) hch h1 hst⟩
      | running =>
        exact absurd (q_lift ho ht hq (C61_progress c _ rows0 hrows _ hf slices seeds hnd (hc _) _ nJobs (10 * nJobs) _
          (by omega) (by omega) chunks hch u.seen h3 hst)) h2

/-- **C116** A call comes to an end in every process. -/
theorem C116_ends (ho : Orderly w U) (q : MakeP A σ S P W ρ) (hq : q.Within w U) (box psfBox : Nat)
    (hm : SoundMake q.fresh box psfBox) (p : Prepared) (hp : prepare q.plan = .ok p) (st : Proc P) (hst : Reached w U st) :
    ∃ ss r st', FitsBodyP q p st ss r st' := by
  have hw := hq.1
  cases hsel : selectSlices q.plan p.objects with
  | error e => exact ⟨_, _, _, .select e hsel⟩
  | ok slices =>
    cases hcnt : pixelCounts p.objects with
    | error e => exact ⟨_, _, _, .counts slices e hsel hcnt⟩
    | ok n =>
      have hv := hm.sound (m := q.fresh) hp
      have hn := pixelCounts_ok hv.rows hcnt
      subst hn
      obtain ⟨_, _, _, _, _, hnd⟩ := selectSlices_ok (m := q.fresh) hm.argsort hsel
      rw [MakeP.env_eq, hw] at hv
      have hgood := C95_good _ box psfBox hv q.args.ops hm.ops q.args.pars
      obtain ⟨fits, hres, _⟩ := C63_reserved q.args.ops q.args.pars (p.objects.length * (box * box))
        (p.objects.length * (psfBox * psfBox)) q.tile.nExtra (box * box) (psfBox * psfBox)
      have hfits := reserved_of (c := runShapeOf (freshEnv w (q.tileFor p.objects)) q.args.ops q.args.pars box psfBox) hres
      subst hfits
      obtain ⟨r, st', h⟩ := sliceRunP_ends ho (within_tile hq p.objects) (nJobs := q.args.nJobs)
        (nChunks := q.args.nChunks) (seeds := (seedsFor q.plan p.objects).slices)
        (c := runShapeOf (freshEnv w (q.tileFor p.objects)) q.args.ops q.args.pars box psfBox) (hst.inv ho) (hm.rows0 _)
        hgood hnd hres
      subst hw
      cases r with
      | ok o => exact ⟨_, _, _, .finish slices _ _ o st' hsel hcnt hres h⟩
      | error e => exact ⟨[], _, _, .slices slices _ _ _ e st' hsel hcnt hres h⟩

/-- Whether a call raises does not depend on the jobs and chunks. -/
theorem fitsBody_success {m : MakeIn A σ S W ρ} {box psfBox : Nat} (hm : SoundMake m box psfBox) {p : Prepared}
    (hp : prepare m = .ok p) {nJobs : Nat} {nChunks : Option Nat} {ss ss' : List Section} {r : Option Err}
    (h : FitsBody m p ss none) (h' : FitsBody { m with nJobs := nJobs, nChunks := nChunks } p ss' r)
    (hk : 1 < nJobs → nChunks ≠ some 0) : r = none := by
  have hm' : SoundMake { m with nJobs := nJobs, nChunks := nChunks } box psfBox :=
    ⟨hm.env, hm.boxSize, hm.psfBoxSize, hm.ops, hm.argsort, hm.rows0⟩
  obtain ⟨slices, n, fits, o, a1, a2, a3, a4, -, a6⟩ := fitsBody_none h
  have hv := hm.sound hp
  have hn := pixelCounts_ok hv.rows a2
  subst hn
  obtain ⟨_, _, _, _, _, hnd⟩ := selectSlices_ok hm.argsort a1
  have hgood := C95_good (sliceEnvFor m p.objects) box psfBox hv m.ops hm.ops m.pars
  have hfits := reserved_of (c := runShapeOf (sliceEnvFor m p.objects) m.ops m.pars box psfBox) a3
  subst hfits
  obtain ⟨rs, r1, r2, r3⟩ := sliceRun_ok
    (c := runShapeOf (sliceEnvFor m p.objects) m.ops m.pars box psfBox) (hm.rows0 _) hgood hnd a4
  have hlen : o.epochs.length = slices.length := by
    rw [r3.epochs, List.length_map, ← List.length_map (f := SliceRes.i), r1.length_eq]
  unfold finishFile at a6
  simp only [hlen, ne_eq, not_true_eq_false, if_false] at a6
  have hne : slices ≠ [] := by
    rintro rfl
    rw [List.length_nil, List.length_eq_zero_iff] at hlen
    rw [hlen] at a6
    cases a6
  have hg : ∀ e, m.slice.gaiaFile ≠ some (.error e) := by
    intro e he
    rw [he] at a6
    split at a6 <;> cases a6
  cases r with
  | none => rfl
  | some e =>
    refine absurd h' ((fitsBody_outcome { m with nJobs := nJobs, nChunks := nChunks } box psfBox hm' p hp slices a1 hne hg
      hk).2.1 (fun i hi => ?_) ss' e)
    obtain ⟨r, hr, rfl⟩ := List.mem_map.1 (r1.symm.subset hi)
    exact ⟨r, r2 r hr⟩

/-- **C116** The same call in two processes with any histories and caches of any sizes, with any numbers of jobs and of
chunks and any temporary directories: if one does not raise, neither does the other, and they write the same extensions in
the same order, but for the order of the blocks of `epochs_info`. -/
theorem C116_same (ho : Orderly w U) (q : MakeP A σ S P W ρ) (box psfBox : Nat) (hm : SoundMake q.fresh box psfBox)
    (p : Prepared) (hp : prepare q.plan = .ok p) (nJobs : Nat) (nChunks : Option Nat) (tmpdir : Option PyStr)
    (hq : q.Within w U) (hq' : (q.With nJobs nChunks tmpdir).Within w U) (st st' su su' : Proc P) (hst : Reached w U st)
    (hsu : Reached w U su) (ss ss' : List Section) (r : Option Err) (hk : 1 < nJobs → nChunks ≠ some 0)
    (h : FitsBodyP q p st ss none st') (h' : FitsBodyP (q.With nJobs nChunks tmpdir) p su ss' r su') :
    r = none ∧ List.Forall₂ SameSection ss ss' := by
  have a := C116_call ho q hq p st st' hst ss none h
  have b : FitsBody { q.fresh with nJobs := nJobs, nChunks := nChunks } p ss' r :=
    C116_call ho _ hq' p su su' hsu ss' r h'
  obtain rfl := fitsBody_success hm hp a b hk
  exact ⟨rfl, C110_same q.fresh box psfBox hm p p nJobs nChunks hp hp ss ss' a b⟩

/-- **C116** A call that returns leaves at the output path what `fpack` has made of a file that is computed from the files
of the tile with nothing kept in between (see `C110_file` for what is in it). -/
theorem C116_published {D : Type} (ho : Orderly w U) (q : MakeP A σ S P W ρ) (hq : q.Within w U) (st st' : Proc P)
    (hst : Reached w U st) (sto : Storage D) (env : FsEnv D) (dir : FPath) (n : String) (tmpdir : Option FPath) (rm : Bool)
    (valid : D → Bool) (act : FM D Unit) (hact : MakeRunP q sto env (dir ++ [n]) tmpdir rm valid st act st') (fs : FS D)
    (hwf : fs.WF) (hok : (act fs).out = .ok ())
    (hcase : (∀ ss, (sto.fpack (hashToInt q.args.digest) ss).left.isSome = true) ∨ tmpdir = none ∨
      tmpdir = some dir ∨ fs.files (dir ++ [n ++ ".fz"]) = none) :
    ∃ p ss x, prepare q.fresh = .ok p ∧ FitsBody q.fresh p ss none ∧
      (sto.fpack (hashToInt q.args.digest) ss).left = some x ∧ valid x = true ∧
      (act fs).fs.files (dir ++ [n ++ ".fz"]) = some x :=
  C110_published q.fresh sto env dir n tmpdir rm valid act
    (C116_program ho q hq st st' hst sto env _ tmpdir rm valid act hact).1 fs hwf hok hcase

/-- **C116** What the theorems about calls ask of the inputs follows from the sizes of the configuration and facts about the
files alone: the arrays of every SE image have its shape, noise is made in the shape of the weights. -/
theorem C116_sound (q : MakeP A σ S P W ρ) (box psfBox : Nat) (hbox : 1 ≤ box) (hpsf : psfBox % 2 = 1)
    (hb : q.args.central + 2 * q.args.buffer = box) (hpb : q.args.psfBox = psfBox) (hfrac : 1 ≤ q.tile.cfg.fracBuffer)
    (hshape : ∀ e ∈ q.tile.entries, ∀ con, (seInit q.world.disk e.src e.offset q.tile.wcs q.tile.psf).out = .ok con →
      (∀ a, q.world.original e.image = .ok a → a.dims = con.shape) ∧
      (∀ a, q.world.original e.bmask = .ok a → a.dims = con.shape) ∧
      (∀ a, q.world.original e.weight = .ok a → a.dims = con.shape))
    (hnoise : ∀ seed a, (q.world.memNoise seed a).nrow = a.nrow ∧ (q.world.memNoise seed a).ncol = a.ncol)
    (hkeeps : q.world.ext.KeepsShape) (hfwhm : ∀ im x, q.world.ext.fwhm im = .ok x → 0 < x)
    (hops : q.args.ops.KeepsSign) (hsort : IsArgsort q.args.argsort) (hrows : ∀ n, (q.args.rows0 n).length = n) :
    SoundMake q.fresh box psfBox where
  env := by
    intro n
    have h := C113_sound q.world (q.tile.prepared (runSeeds q.fresh n).srcs []) box psfBox hbox hpsf
      (fun _ h => by cases h) hfrac ?_ hnoise ?_ hkeeps hfwhm
    · have he : freshEnv q.world (q.tile.prepared (runSeeds q.fresh n).srcs []) =
          { q.fresh.slice with objects := [], sources := q.fresh.sourcesOf (runSeeds q.fresh n).srcs } := by
        unfold freshEnv Tile.prepared
        dsimp only [MakeP.fresh]
        congr 1
        funext ra dec raPsf decPsf
        rw [prepared_entries, List.map_map]
        rfl
      rw [← he]
      exact h
    · intro e he
      unfold Tile.prepared at he
      dsimp only at he
      rw [prepared_entries] at he
      obtain ⟨x, hx, rfl⟩ := List.mem_map.1 he
      exact hshape x.1 (List.of_mem_zip hx).1
    · intro e he
      unfold Tile.prepared at he
      dsimp only at he
      rw [prepared_entries] at he
      obtain ⟨x, hx, rfl⟩ := List.mem_map.1 he
      obtain ⟨k, hk, hk'⟩ := List.mem_iff_getElem.1 (List.of_mem_zip hx).2
      obtain ⟨-, hl, -, h⟩ := C71_seeds q.fresh.rand q.fresh.randState n q.fresh.srcs.length q.fresh.slice.nExtra
      have hk1 : k < q.fresh.srcs.length := by
        rw [← hl]
        exact hk
      obtain ⟨e', h1, h2, -⟩ := h k hk1
      have : e' = x.2 := by
        rw [← hk', ← Option.some_inj, ← h1]
        exact List.getElem?_eq_getElem hk
      rw [this] at h2
      exact h2
  boxSize := hb
  psfBoxSize := hpb
  ops := hops
  argsort := hsort
  rows0 := hrows

end
end Pizza
