import Verif.Lemmas.ProcessSlice
import Verif.Model.ProcessRun
import Verif.Props.Run
import Verif.Props.SEObject
import Verif.Props.Slice

/-!
C113: a process with all its caches computes slices as if it read everything anew.
C114: a run with such processes, in parallel or not, writes what the run without any caches writes.
-/

namespace Pizza

section
variable {A σ S P : Type} {w : ProcWorld A σ S P} {U : Tile A S P → Prop}

/-- C113: whatever a process has done before — slices and chunks of slices of any of the tiles, with or without
errors, and clearing of the caches, with caches of any sizes — the next slice is what is computed from the files with
nothing kept in between. -/
theorem C113_slice (ho : Orderly w U) (sizes : CacheId → Nat) (count : Nat) (ops : List (ProcOp A S P))
    (hops : OpsIn U ops) (t : Tile A S P) (ht : U t) (i seed : Nat) :
    (coaddSingleSliceP w t i seed (procRun w (Proc.fresh sizes w.arrays count) ops)).1 =
      coaddSingleSlice (freshEnv w t) i seed :=
  (slice_runs ho ht i seed _ (procRun_inv ho hops (fresh_inv sizes count))).2.eq

/-- C113: so the result of a slice does not depend on the history, nor on the sizes of the caches. -/
theorem C113_history_independent (ho : Orderly w U) (sizes sizes' : CacheId → Nat) (count count' : Nat)
    (ops ops' : List (ProcOp A S P)) (hops : OpsIn U ops) (hops' : OpsIn U ops') (t : Tile A S P) (ht : U t)
    (i seed : Nat) :
    (coaddSingleSliceP w t i seed (procRun w (Proc.fresh sizes w.arrays count) ops)).1 =
      (coaddSingleSliceP w t i seed (procRun w (Proc.fresh sizes' w.arrays count') ops')).1 := by
  rw [C113_slice ho sizes count ops hops t ht, C113_slice ho sizes' count' ops' hops' t ht]

/-- C113: the messages of a worker for a chunk are the results of its slices up to the first that fails, and then
the error with the number and the seed of this slice. -/
theorem C113_chunk (ho : Orderly w U) (sizes : CacheId → Nat) (count : Nat) (ops : List (ProcOp A S P))
    (hops : OpsIn U ops) (t : Tile A S P) (ht : U t) (jobs : List (Nat × Nat)) :
    ChunkReport (coaddSingleSlice (freshEnv w t)) jobs
      (processSliceChunk w t jobs (procRun w (Proc.fresh sizes w.arrays count) ops)).1 :=
  (chunk_runs ho ht jobs (procRun_inv ho hops (fresh_inv sizes count))).2

/-- C113: arrays in memory that are not masks of tiles with masking of tape bumps are never changed. -/
theorem C113_arrays_kept (ho : Orderly w U) (sizes : CacheId → Nat) (count : Nat) (ops : List (ProcOp A S P))
    (hops : OpsIn U ops) (n : Nat)
    (hn : ∀ t e, U t → e ∈ t.entries → t.tapeBumps = true → e.bmask ≠ .mem n) :
    (procRun w (Proc.fresh sizes w.arrays count) ops).arrays n = w.arrays n := by
  rcases (procRun_inv ho hops (fresh_inv sizes count)).arrays n with h | ⟨t, e, b, ht, he, hb, hl, -⟩
  · exact h
  · exact absurd hl (hn t e ht he hb)

/-- C08: with masking of tape bumps off, whatever slices are read, no original array changes. -/
theorem C08_originals_kept (ho : Orderly w U) (hoff : ∀ t, U t → t.tapeBumps = false) (sizes : CacheId → Nat)
    (count : Nat) (ops : List (ProcOp A S P)) (hops : OpsIn U ops) (n : Nat) :
    (procRun w (Proc.fresh sizes w.arrays count) ops).arrays n = w.arrays n :=
  C113_arrays_kept ho sizes count ops hops n fun t _ ht _ hb => absurd (hoff t ht) (by simp [hb])

/-! ### what the slices of a tile need -/

theorem freshSrc_error {t : Tile A S P} {e : Entry P} {x : Err} (ra dec raPsf decPsf : ℚ)
    (h : (seInit w.disk e.src e.offset t.wcs t.psf).out = .error x) :
    (freshSrc w t ra dec raPsf decPsf e).reads = ⟨.error .keyError, .error .keyError, .error .keyError, .error .keyError,
      .error .keyError⟩ ∧ (freshSrc w t ra dec raPsf decPsf e).psfImage = .error .keyError := by
  unfold freshSrc
  rw [h]
  exact ⟨rfl, rfl⟩

theorem mapM_from {α β : Type} {f : α → Except Err β} : ∀ {l : List α} {m : List β}, l.mapM f = .ok m →
    m.length = l.length ∧ ∀ b ∈ m, ∃ a ∈ l, f a = .ok b
  | [], m, h => by cases h; simp
  | a :: l, m, h => by
    rw [List.mapM_cons] at h
    cases ha : f a with
    | error x => rw [ha] at h; cases h
    | ok b =>
      rw [ha, ok_bind] at h
      cases hl : l.mapM f with
      | error x => rw [hl] at h; cases h
      | ok bs =>
        rw [hl] at h
        cases h
        obtain ⟨h1, h2⟩ := mapM_from hl
        refine ⟨by simp [h1], fun b' hb' => ?_⟩
        rw [List.mem_cons] at hb'
        rcases hb' with rfl | hb'
        · exact ⟨a, by simp, ha⟩
        · obtain ⟨a', ha', he⟩ := h2 b' hb'
          exact ⟨a', by simp [ha'], he⟩

theorem setTapeBumps_shape (bumps : List Bump) (m : Img (BitVec 32)) :
    (setTapeBumps bumps m).nrow = m.nrow ∧ (setTapeBumps bumps m).ncol = m.ncol := by
  unfold setTapeBumps
  induction bumps generalizing m with
  | nil => exact ⟨rfl, rfl⟩
  | cons b l ih => rw [List.foldl_cons]; exact ih _

theorem asNum_dims (a : Arr) : a.asNum.nrow = a.dims.1 ∧ a.asNum.ncol = a.dims.2 := by cases a <;> exact ⟨rfl, rfl⟩

theorem freshMask_dims {t : Tile A S P} {e : Entry P} {m : Img (BitVec 32)} (h : freshMask w t e = .ok m) :
    ∃ a, w.original e.bmask = .ok a ∧ (m.nrow, m.ncol) = a.dims := by
  unfold freshMask at h
  cases ho : w.original e.bmask with
  | error x => rw [ho] at h; cases h
  | ok a =>
    rw [ho] at h
    cases a with
    | num a => cases h
    | bits b =>
      refine ⟨_, rfl, ?_⟩
      simp only at h
      split at h
      · split at h
        · rename_i n _
          cases hb : bumpsOf tapeBumps n with
          | error x => rw [hb] at h; cases h
          | ok bumps =>
            rw [hb] at h
            cases h
            obtain ⟨h1, h2⟩ := setTapeBumps_shape bumps b
            simp [Arr.dims, h1, h2]
        · cases h
      · cases h; rfl

/-- C113: what the theorems about slices (C93-C95) ask of a tile follows from facts about its files alone: the arrays
of an SE image have its shape, noise is made in the shape of the weights, every SE image has a seed for each noise
field; PSF images are square in any case. -/
theorem C113_sound (w : ProcWorld A σ S P) (t : Tile A S P) (box psfBox : Nat) (hbox : 1 ≤ box) (hpsf : psfBox % 2 = 1)
    (hrows : ∀ row ∈ t.objects, row.boxSize = box ∧ row.psfBoxSize = psfBox) (hfrac : 1 ≤ t.cfg.fracBuffer)
    (hshape : ∀ e ∈ t.entries, ∀ con, (seInit w.disk e.src e.offset t.wcs t.psf).out = .ok con →
      (∀ a, w.original e.image = .ok a → a.dims = con.shape) ∧
      (∀ a, w.original e.bmask = .ok a → a.dims = con.shape) ∧
      (∀ a, w.original e.weight = .ok a → a.dims = con.shape))
    (hnoise : ∀ seed a, (w.memNoise seed a).nrow = a.nrow ∧ (w.memNoise seed a).ncol = a.ncol)
    (hseeds : ∀ e ∈ t.entries, e.noiseSeeds.length = t.nExtra + 1) (hkeeps : w.ext.KeepsShape)
    (hfwhm : ∀ im x, w.ext.fwhm im = .ok x → 0 < x) : SoundEnv (freshEnv w t) box psfBox where
  boxPos := hbox
  psfOdd := hpsf
  rows := hrows
  frac := hfrac
  shape := by
    intro ra dec raPsf decPsf s hs
    obtain ⟨e, he, rfl⟩ := List.mem_map.1 hs
    cases hc : (seInit w.disk e.src e.offset t.wcs t.psf).out with
    | error x =>
      obtain ⟨hr, -⟩ := freshSrc_error (w := w) (t := t) (e := e) ra dec raPsf decPsf hc
      unfold Src.WellShaped
      rw [hr]
      exact ⟨by simp, by simp, by simp, by simp⟩
    | ok con =>
      obtain ⟨g1, g2, g3⟩ := hshape e he con hc
      have hr : (freshSrc w t ra dec raPsf decPsf e).reads = freshReads w t e ∧
          (freshSrc w t ra dec raPsf decPsf e).nrow = con.shape.1 ∧
          (freshSrc w t ra dec raPsf decPsf e).ncol = con.shape.2 := by
        unfold freshSrc
        rw [hc]
        exact ⟨rfl, rfl, rfl⟩
      unfold Src.WellShaped
      rw [hr.1, hr.2.1, hr.2.2]
      refine ⟨fun a ha => ?_, fun a ha => ?_, fun a ha => ?_, fun l hl a ha => ?_⟩
      · simp only [freshReads] at ha
        cases ho : w.original e.image with
        | error x => rw [ho] at ha; cases ha
        | ok b => rw [ho] at ha; cases ha; rw [← g1 b ho]; exact asNum_dims b
      · obtain ⟨b, ho, hd⟩ := freshMask_dims ha
        rw [← g2 b ho, ← hd]
        exact ⟨rfl, rfl⟩
      · simp only [freshReads] at ha
        cases ho : w.original e.weight with
        | error x => rw [ho] at ha; cases ha
        | ok b => rw [ho] at ha; cases ha; rw [← g3 b ho]; exact asNum_dims b
      · obtain ⟨seed, -, hseed⟩ := (mapM_from hl).2 a ha
        unfold freshNoise at hseed
        cases ho : w.original e.weight with
        | error x => rw [ho] at hseed; cases hseed
        | ok b =>
          rw [ho] at hseed
          simp only at hseed
          split at hseed
          · cases hseed
          · cases hseed
            rw [← g3 b ho, (hnoise _ _).1, (hnoise _ _).2]
            exact asNum_dims b
  noises := by
    intro ra dec raPsf decPsf s hs l hl
    obtain ⟨e, he, rfl⟩ := List.mem_map.1 hs
    cases hc : (seInit w.disk e.src e.offset t.wcs t.psf).out with
    | error x =>
      obtain ⟨hr, -⟩ := freshSrc_error (w := w) (t := t) (e := e) ra dec raPsf decPsf hc
      rw [hr] at hl
      cases hl
    | ok con =>
      have hr : (freshSrc w t ra dec raPsf decPsf e).reads = freshReads w t e := by
        unfold freshSrc
        rw [hc]
      rw [hr] at hl
      rw [(mapM_from hl).1]
      exact hseeds e he
  psf := by
    intro ra dec raPsf decPsf s hs im him
    obtain ⟨e, he, rfl⟩ := List.mem_map.1 hs
    cases hc : (seInit w.disk e.src e.offset t.wcs t.psf).out with
    | error x =>
      obtain ⟨-, hr⟩ := freshSrc_error (w := w) (t := t) (e := e) ra dec raPsf decPsf hc
      rw [hr] at him
      cases him
    | ok con =>
      unfold freshSrc at him
      rw [hc] at him
      obtain ⟨d, drawn, -, -, h, -⟩ := C10_psf_image _ _ _ _ _ him
      exact h.symm
  keeps := hkeeps
  fwhm := hfwhm

/-! ### runs -/

theorem seq_runs (ho : Orderly w U) {t : Tile A S P} (ht : U t) (c : RunShape Flt) (jobs : List (Nat × Nat))
    (o : Out Flt EpochRow) : Runs w U Eq (runSeqP w t c o jobs) (runSeq c (coaddSingleSlice (freshEnv w t)) o jobs) := by
  induction jobs generalizing o with
  | nil => exact Runs.ok rfl
  | cons j l ih =>
    unfold runSeqP runSeq
    exact (slice_runs ho ht j.1 j.2).bindEq fun r _ => (Runs.liftEq _).bindEq fun o' _ => ih o'

/-- C114: a sequential run in a process with any history writes what the run without caches writes, or raises what
it raises. -/
theorem C114_sequential (ho : Orderly w U) (sizes : CacheId → Nat) (count : Nat) (ops : List (ProcOp A S P))
    (hops : OpsIn U ops) (t : Tile A S P) (ht : U t) (c : RunShape Flt) (o : Out Flt EpochRow)
    (jobs : List (Nat × Nat)) :
    (runSeqP w t c o jobs (procRun w (Proc.fresh sizes w.arrays count) ops)).1 =
      runSeq c (coaddSingleSlice (freshEnv w t)) o jobs :=
  (seq_runs ho ht c jobs o _ (procRun_inv ho hops (fresh_inv sizes count))).2.eq

/-- What is seen of a parallel run when the processes are left out. -/
def QState.seen (s : QState P) : PState Flt EpochRow :=
  ⟨s.pending, s.working.map Prod.snd, s.queue, s.out, s.got, s.status⟩

/-- All processes are right, and none gets lost. -/
structure QInv (w : ProcWorld A σ S P) (U : Tile A S P → Prop) (nJobs : Nat) (s : QState P) : Prop where
  idle : ∀ x ∈ s.idle, PInv w U x
  working : ∀ x ∈ s.working, PInv w U x.1
  number : s.idle.length + s.working.length = nJobs

theorem q_step (ho : Orderly w U) {t : Tile A S P} (ht : U t) {c : RunShape Flt} {arrays : Nat → Arr} {n cap nJobs : Nat}
    (harr : ∀ m, GoodArr w U m (arrays m)) {s u : QState P} (h : QStep w t c arrays n cap s u)
    (hs : QInv w U nJobs s) :
    QInv w U nJobs u ∧ Step c (coaddSingleSlice (freshEnv w t)) n nJobs cap s.seen u.seen := by
  obtain ⟨h1, h2, h3⟩ := hs
  cases h with
  | start ch p1 p2 i1 x i2 k q o g =>
    refine ⟨⟨fun y hy => h1 y ?_, fun y hy => ?_, ?_⟩, ?_⟩
    · simp only [List.mem_append, List.mem_cons] at hy ⊢; tauto
    · simp only [List.mem_cons] at hy
      rcases hy with rfl | hy
      · exact ⟨(h1 x (by simp)).caches, harr⟩
      · exact h2 y hy
    · simp only [List.length_append, List.length_cons] at h3 ⊢; omega
    · simp only [QState.seen, List.map_cons]
      refine Step.start ch p1 p2 _ q o g ?_
      simp only [List.length_append, List.length_cons, List.length_map] at h3 ⊢; omega
  | work p i k1 x j js k2 q o g r x' hq hr =>
    obtain ⟨g1, g2⟩ := slice_runs ho ht j.1 j.2 x (h2 (x, j :: js) (by simp))
    rw [hr] at g1 g2
    refine ⟨⟨h1, fun y hy => ?_, ?_⟩, ?_⟩
    · simp only [List.mem_append, List.mem_cons] at hy
      rcases hy with hy | rfl | hy
      · exact h2 y (by simp [hy])
      · exact g1
      · exact h2 y (by simp [hy])
    · simp only [List.length_append, List.length_cons] at h3 ⊢; omega
    · simp only [QState.seen, List.map_append, List.map_cons]
      exact Step.work p _ j js _ q o g r hq g2.eq.symm
  | fail p i k1 x j js k2 q o g e x' hq hr =>
    obtain ⟨g1, g2⟩ := slice_runs ho ht j.1 j.2 x (h2 (x, j :: js) (by simp))
    rw [hr] at g1 g2
    refine ⟨⟨fun y hy => ?_, fun y hy => h2 y ?_, ?_⟩, ?_⟩
    · simp only [List.mem_cons] at hy
      rcases hy with rfl | hy
      · exact g1
      · exact h1 y hy
    · simp only [List.mem_append, List.mem_cons] at hy ⊢; tauto
    · simp only [List.length_append, List.length_cons] at h3 ⊢; omega
    · simp only [QState.seen, List.map_append, List.map_cons]
      exact Step.fail p _ j js _ q o g e hq g2.eq.symm
  | finish p i k1 x k2 q o g =>
    refine ⟨⟨fun y hy => ?_, fun y hy => h2 y ?_, ?_⟩, ?_⟩
    · simp only [List.mem_cons] at hy
      rcases hy with rfl | hy
      · exact h2 (y, []) (by simp)
      · exact h1 y hy
    · simp only [List.mem_append, List.mem_cons] at hy ⊢; tauto
    · simp only [List.length_append, List.length_cons] at h3 ⊢; omega
    · simp only [QState.seen, List.map_append, List.map_cons]
      exact Step.finish p _ _ q o g
  | get p i k q1 r q2 o o' g hg hr => exact ⟨⟨h1, h2, h3⟩, Step.get _ _ _ _ _ _ _ _ hg hr⟩
  | getBad p i k q1 r q2 o g e hg hr => exact ⟨⟨h1, h2, h3⟩, Step.getBad _ _ _ _ _ _ _ _ hg hr⟩
  | getError p i k q1 e q2 o g hg => exact ⟨⟨h1, h2, h3⟩, Step.getError _ _ _ _ _ _ _ hg⟩
  | join i q o => exact ⟨⟨h1, h2, h3⟩, Step.join _ _⟩

theorem q_steps (ho : Orderly w U) {t : Tile A S P} (ht : U t) {c : RunShape Flt} {arrays : Nat → Arr}
    {n cap nJobs k : Nat} (harr : ∀ m, GoodArr w U m (arrays m)) {s u : QState P}
    (h : QSteps w t c arrays n cap k s u) (hs : QInv w U nJobs s) :
    QInv w U nJobs u ∧ Steps c (coaddSingleSlice (freshEnv w t)) n nJobs cap k s.seen u.seen := by
  induction h with
  | refl s => exact ⟨hs, .refl _⟩
  | tail _ h ih =>
    obtain ⟨i1, i2⟩ := ih hs
    obtain ⟨j1, j2⟩ := q_step ho ht harr h i1
    exact ⟨j1, .tail i2 j2⟩

/-- A step of the run without processes can also be made with them. -/
theorem q_lift (ho : Orderly w U) {t : Tile A S P} (ht : U t) {c : RunShape Flt} {arrays : Nat → Arr}
    {n cap nJobs : Nat} {s : QState P} (hs : QInv w U nJobs s)
    (h : ∃ v, Step c (coaddSingleSlice (freshEnv w t)) n nJobs cap s.seen v) :
    ∃ u, QStep w t c arrays n cap s u := by
  obtain ⟨v, h⟩ := h
  obtain ⟨pe, id, wo, qu, ou, go, sta⟩ := s
  obtain ⟨h1, h2, h3⟩ := hs
  simp only [QState.seen] at h h3
  generalize hw' : wo.map Prod.snd = w' at h
  cases h with
  | start ch p1 p2 _ q o g hlt =>
    cases hid : id with
    | nil =>
      rw [hid, List.length_nil, zero_add] at h3
      rw [← hw', List.length_map] at hlt
      omega
    | cons x i2 => exact ⟨_, QStep.start ch p1 p2 [] x i2 wo _ _ _⟩
  | work p w1 j js w2 q o g r hq hr =>
    obtain ⟨k1, k2', rfl, hk1, hk2⟩ := List.map_eq_append_iff.1 hw'
    obtain ⟨y, k2, rfl, hy, hk2⟩ := List.map_eq_cons_iff.1 hk2
    obtain ⟨x, js'⟩ := y
    simp only at hy
    subst hy
    obtain ⟨g1, g2⟩ := slice_runs ho ht j.1 j.2 x (h2 (x, j :: js) (by simp))
    have g2 := g2.eq
    rw [hr] at g2
    exact ⟨_, QStep.work _ _ k1 x j js k2 _ _ _ r _ hq (Prod.ext g2 rfl)⟩
  | fail p w1 j js w2 q o g e hq hr =>
    obtain ⟨k1, k2', rfl, hk1, hk2⟩ := List.map_eq_append_iff.1 hw'
    obtain ⟨y, k2, rfl, hy, hk2⟩ := List.map_eq_cons_iff.1 hk2
    obtain ⟨x, js'⟩ := y
    simp only at hy
    subst hy
    obtain ⟨g1, g2⟩ := slice_runs ho ht j.1 j.2 x (h2 (x, j :: js) (by simp))
    have g2 := g2.eq
    rw [hr] at g2
    exact ⟨_, QStep.fail _ _ k1 x j js k2 _ _ _ e _ hq (Prod.ext g2 rfl)⟩
  | finish p w1 w2 q o g =>
    obtain ⟨k1, k2', rfl, hk1, hk2⟩ := List.map_eq_append_iff.1 hw'
    obtain ⟨y, k2, rfl, hy, hk2⟩ := List.map_eq_cons_iff.1 hk2
    obtain ⟨x, js'⟩ := y
    simp only at hy
    subst hy
    exact ⟨_, QStep.finish _ _ k1 x k2 _ _ _⟩
  | get p w q1 r q2 o o' g hg hr => exact ⟨_, QStep.get _ _ _ q1 r q2 _ _ _ hg hr⟩
  | getBad p w q1 r q2 o g e hg hr => exact ⟨_, QStep.getBad _ _ _ q1 r q2 _ _ e hg hr⟩
  | getError p w q1 e q2 o g hg => exact ⟨_, QStep.getError _ _ _ q1 e q2 _ _ hg⟩
  | join q o =>
    rw [List.map_eq_nil_iff] at hw'
    subst hw'
    exact ⟨_, QStep.join _ _ _⟩

theorem q_init {parent : Proc P} (h : PInv w U parent) (chunks : List (List (Nat × Nat))) (nJobs : Nat)
    (o : Out Flt EpochRow) : QInv w U nJobs (QState.init chunks parent nJobs o) := by
  refine ⟨fun x hx => ?_, fun x hx => by simp [QState.init] at hx, by simp [QState.init]⟩
  rw [(List.mem_replicate.1 hx).2]
  exact h

/-- C114: a parallel run with a pool of processes forked from a parent with any history.  If it returns it has written
what a sequential run that keeps nothing in memory writes: the same extensions, the same rows of object data, and the
same epochs up to order. -/
theorem C114_parallel (ho : Orderly w U) (sizes : CacheId → Nat) (count : Nat) (ops : List (ProcOp A S P))
    (hops : OpsIn U ops) (t : Tile A S P) (ht : U t) (box psfBox : Nat) (hv : SoundEnv (freshEnv w t) box psfBox)
    (pix : PixelOps Flt) (hpix : pix.KeepsSign) (pars : Option (List (String × String)))
    (rows0 : List RunRow) (hrows : rows0.length = t.objects.length) (fits : List (Hdu Flt))
    (hf : reserveImages pix pars (t.objects.length * (box * box)) (t.objects.length * (psfBox * psfBox))
      t.nExtra (box * box) (psfBox * psfBox) = .ok fits)
    (slices seeds : List Nat) (hs : slices.Nodup) (nChunks nJobs cap k : Nat) (chunks : List (List (Nat × Nat)))
    (hch : allChunks slices seeds nChunks = .ok chunks) (parent : Proc P)
    (hparent : parent = procRun w (Proc.fresh sizes w.arrays count) ops) (s : QState P)
    (hrun : QSteps w t (runShapeOf (freshEnv w t) pix pars box psfBox) parent.arrays slices.length cap k
      (QState.init chunks parent nJobs ⟨fits, rows0, []⟩) s) (hd : s.status = .done) :
    ∃ o, runSeq (runShapeOf (freshEnv w t) pix pars box psfBox) (coaddSingleSlice (freshEnv w t)) ⟨fits, rows0, []⟩
        (jobsOf seeds slices) = .ok o ∧
      s.out.fits = o.fits ∧ s.out.rows = o.rows ∧ s.out.epochs.Perm o.epochs := by
  have hp : PInv w U parent := hparent ▸ procRun_inv ho hops (fresh_inv sizes count)
  obtain ⟨-, h⟩ := q_steps ho ht hp.arrays hrun (q_init hp _ _ _)
  exact C60_parallel _ _ rows0 hrows fits hf slices seeds hs (C95_good _ box psfBox hv pix hpix pars _) nChunks nJobs cap
    k chunks hch s.seen h hd

/-- C114: a complete parallel run returns if every slice can be computed from the files, and raises a RuntimeError
if some slice cannot; this does not depend on what the processes had in their caches. -/
theorem C114_outcome (ho : Orderly w U) (sizes : CacheId → Nat) (count : Nat) (ops : List (ProcOp A S P))
    (hops : OpsIn U ops) (t : Tile A S P) (ht : U t) (box psfBox : Nat) (hv : SoundEnv (freshEnv w t) box psfBox)
    (pix : PixelOps Flt) (hpix : pix.KeepsSign) (pars : Option (List (String × String)))
    (rows0 : List RunRow) (hrows : rows0.length = t.objects.length) (fits : List (Hdu Flt))
    (hf : reserveImages pix pars (t.objects.length * (box * box)) (t.objects.length * (psfBox * psfBox))
      t.nExtra (box * box) (psfBox * psfBox) = .ok fits)
    (slices seeds : List Nat) (hs : slices.Nodup) (nChunks nJobs cap k : Nat) (hj : 1 ≤ nJobs) (hcap : 1 ≤ cap)
    (chunks : List (List (Nat × Nat))) (hch : allChunks slices seeds nChunks = .ok chunks) (parent : Proc P)
    (hparent : parent = procRun w (Proc.fresh sizes w.arrays count) ops) (s : QState P)
    (hrun : QSteps w t (runShapeOf (freshEnv w t) pix pars box psfBox) parent.arrays slices.length cap k
      (QState.init chunks parent nJobs ⟨fits, rows0, []⟩) s)
    (hend : ¬ ∃ u, QStep w t (runShapeOf (freshEnv w t) pix pars box psfBox) parent.arrays slices.length cap s u) :
    k ≤ 2 * slices.length + 2 * nChunks + 1 ∧
    ((∀ i ∈ slices, ∃ r, coaddSingleSlice (freshEnv w t) i (seeds.getD i 0) = .ok r) → s.status = .done) ∧
    ((∃ i ∈ slices, ∃ e, coaddSingleSlice (freshEnv w t) i (seeds.getD i 0) = .error e) →
      s.status = .raised .runtimeError) := by
  have hp : PInv w U parent := hparent ▸ procRun_inv ho hops (fresh_inv sizes count)
  obtain ⟨hq, h⟩ := q_steps ho ht hp.arrays hrun (q_init hp _ _ _)
  exact ⟨C61_terminates _ _ _ slices seeds nChunks _ _ _ _ chunks hch _ h,
    C61_outcome _ _ rows0 hrows fits hf slices seeds hs (C95_good _ box psfBox hv pix hpix pars _) nChunks nJobs cap
    k hj hcap chunks hch s.seen h fun hex => hend (q_lift ho ht hq hex)⟩

theorem q_completes (ho : Orderly w U) {t : Tile A S P} (ht : U t) (c : RunShape Flt) (n nJobs cap k : Nat)
    (chunks : List (List (Nat × Nat))) {parent : Proc P} (hp : PInv w U parent) (o : Out Flt EpochRow) (s : QState P)
    (hrun : QSteps w t c parent.arrays n cap k (QState.init chunks parent nJobs o) s) :
    ∃ k' u, QSteps w t c parent.arrays n cap (k + k') (QState.init chunks parent nJobs o) u ∧
      ¬ ∃ v, QStep w t c parent.arrays n cap u v := by
  generalize hm : s.seen.left = m
  induction m using Nat.strong_induction_on generalizing k s with
  | _ m ih =>
    by_cases hu : ∃ u, QStep w t c parent.arrays n cap s u
    · obtain ⟨u, hu⟩ := hu
      obtain ⟨hq, -⟩ := q_steps ho ht hp.arrays hrun (q_init hp _ _ _)
      obtain ⟨k', v, h1, h2⟩ := ih _ (hm ▸ left_step (q_step ho ht hp.arrays hu hq).2) (k + 1) u (.tail hrun hu) rfl
      exact ⟨1 + k', v, by rw [← Nat.add_assoc]; exact h1, h2⟩
    · exact ⟨0, s, hrun, hu⟩

/-- C114: every parallel run, wherever it has got to, goes on to an end. -/
theorem C114_completes (ho : Orderly w U) (sizes : CacheId → Nat) (count : Nat) (ops : List (ProcOp A S P))
    (hops : OpsIn U ops) (t : Tile A S P) (ht : U t) (c : RunShape Flt) (n nJobs cap k : Nat)
    (chunks : List (List (Nat × Nat))) (parent : Proc P)
    (hparent : parent = procRun w (Proc.fresh sizes w.arrays count) ops) (o : Out Flt EpochRow) (s : QState P)
    (hrun : QSteps w t c parent.arrays n cap k (QState.init chunks parent nJobs o) s) :
    ∃ k' u, QSteps w t c parent.arrays n cap (k + k') (QState.init chunks parent nJobs o) u ∧
      ¬ ∃ v, QStep w t c parent.arrays n cap u v :=
  q_completes ho ht c n nJobs cap k chunks (hparent ▸ procRun_inv ho hops (fresh_inv sizes count)) o s hrun

end
end Pizza
