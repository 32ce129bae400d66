import Verif.Props.MakeProc
import Verif.Props.Masked
import Verif.Spec.MaskedFiles

/-! C120 for the files of a tile and for whole calls. -/

namespace Pizza

section
variable {A σ S P W ρ : Type} {w w' : ProcWorld A σ S P} {t : Tile A S P} {U U' : Tile A S P → Prop}

theorem freshMask_congr {e : Entry P} (h : w'.original e.bmask = w.original e.bmask) : freshMask w' t e = freshMask w t e := by
  unfold freshMask
  rw [h]

theorem freshNoise_congr {e : Entry P} (h : w'.original e.weight = w.original e.weight)
    (hw : w' = { w with files := w'.files, arrays := w'.arrays }) (seed : Nat) : freshNoise w' e seed = freshNoise w e seed := by
  have e1 : w'.memNoise = w.memNoise := by rw [hw]
  have e2 : w'.zpScale = w.zpScale := by rw [hw]
  unfold freshNoise
  rw [h, e1, e2]

theorem SameRead.map {α β : Type} {R : β → β → Prop} {f : α → β} {a a' : Except Err α}
    (h : SameRead (fun x y => R (f x) (f y)) a a') : SameRead R (a.map f) (a'.map f) := by
  rcases h with ⟨e, rfl, rfl⟩ | ⟨x, x', rfl, rfl, h⟩
  · exact .inl ⟨e, rfl, rfl⟩
  · exact .inr ⟨_, _, rfl, rfl, h⟩

theorem SameOff.mono {α : Type} {Z Z' : Nat → Nat → Prop} (hz : ∀ r j, Z r j → Z' r j) {a a' : Img α} (h : SameOff Z a a') :
    SameOff Z' a a' :=
  ⟨h.1, h.2.1, fun r hr j hj hn => h.2.2 r hr j hj fun hz' => hn (hz r j hz')⟩

theorem SameRead.mono {α : Type} {R R' : α → α → Prop} (hr : ∀ x y, R x y → R' x y) {a a' : Except Err α}
    (h : SameRead R a a') : SameRead R' a a' := by
  rcases h with ⟨e, rfl, rfl⟩ | ⟨x, x', rfl, rfl, h⟩
  · exact .inl ⟨e, rfl, rfl⟩
  · exact .inr ⟨_, _, rfl, rfl, hr _ _ h⟩

theorem SameOff.refl {α : Type} (Z : Nat → Nat → Prop) (a : Img α) : SameOff Z a a := ⟨rfl, rfl, fun _ _ _ _ _ => rfl⟩

theorem SameRead.refl {α : Type} {R : α → α → Prop} (hr : ∀ x, R x x) (a : Except Err α) : SameRead R a a := by
  cases a with
  | error e => exact .inl ⟨e, rfl, rfl⟩
  | ok x => exact .inr ⟨x, x, rfl, rfl, hr x⟩

theorem SameOffMasks.sameBut (h : SameOffMasks w w' t) {e : Entry P} (he : e ∈ t.entries) (c : BuildCfg A)
    (hn : c.noiseFlags = t.cfg.noiseFlags) (hs : c.splineFlags = t.cfg.splineFlags) (hc : c.copyEdges = t.cfg.copyEdges)
    (ra dec raPsf decPsf : ℚ) :
    SameBut (Hidden c (freshSrc w t ra dec raPsf decPsf e)) (freshSrc w t ra dec raPsf decPsf e)
      (freshSrc w' t ra dec raPsf decPsf e) := by
  have hmask : freshMask w' t e = freshMask w t e := freshMask_congr (h.mask e he)
  have hnoise : freshNoise w' e = freshNoise w e := funext fun seed => freshNoise_congr (h.weight e he) h.world seed
  have hdisk : w'.disk = w.disk := by rw [h.world]
  have hreads : freshReads w' t e = { freshReads w t e with
      image := (w'.original e.image).map Arr.asNum, bkg := (w'.original e.bkg).map Arr.asNum } := by
    unfold freshReads
    rw [hmask, hnoise, h.weight e he]
  cases hi : (seInit w.disk e.src e.offset t.wcs t.psf).out with
  | error x =>
    have q : freshSrc w' t ra dec raPsf decPsf e = freshSrc w t ra dec raPsf decPsf e := by
      unfold freshSrc
      rw [hdisk, hi]
    rw [q]
    exact ⟨rfl, SameRead.refl (SameOff.refl _) _, SameRead.refl (SameOff.refl _) _,
      SameRead.refl (fun l => List.forall₂_same.2 fun x _ => SameOff.refl _ x) _⟩
  | ok con =>
    have q : ∀ w : ProcWorld A σ S P, (seInit w.disk e.src e.offset t.wcs t.psf).out = .ok con →
        (freshSrc w t ra dec raPsf decPsf e).reads = freshReads w t e := by
      intro w h
      unfold freshSrc
      rw [h]
    have q1 := q w hi
    have q2 := q w' (by rw [hdisk]; exact hi)
    have hz : ∀ r j, MaskedOut w t e r j → Hidden c (freshSrc w t ra dec raPsf decPsf e) r j := by
      intro r j ⟨bm, h1, h2⟩
      refine .inr ⟨bm, ?_, ?_⟩
      · rw [q1]
        exact h1
      · rw [hn, hs, hc]
        exact h2
    refine ⟨?_, ?_, ?_, ?_⟩
    · have hrest : { freshSrc w' t ra dec raPsf decPsf e with reads := freshReads w t e } =
          { freshSrc w t ra dec raPsf decPsf e with reads := freshReads w t e } := by
        unfold freshSrc freshFlag
        rw [h.world]
        cases (seInit w.disk e.src e.offset t.wcs t.psf).out <;> rfl
      have := congrArg (fun s : Src => { s with reads := freshReads w' t e }) hrest
      simp only at this
      rw [q2, q1]
      have k : freshSrc w' t ra dec raPsf decPsf e = { freshSrc w' t ra dec raPsf decPsf e with reads := freshReads w' t e } := by
        rw [← q2]
      rw [k, this]
      congr 1
      rw [hreads]
    · rw [q1, q2]
      exact (SameRead.map (h.image e he)).mono fun _ _ hh => hh.mono hz
    · rw [q1, q2]
      exact (SameRead.map (h.bkg e he)).mono fun _ _ hh => hh.mono hz
    · rw [q1, q2, hreads]
      exact SameRead.refl (fun l => List.forall₂_same.2 fun x _ => SameOff.refl _ x) _

theorem SameOffMasks.sameEnv (h : SameOffMasks w w' t) (box : Nat) :
    SameEnv (Hidden { (freshEnv w t).cfg with boxSize := box }) (freshEnv w t) (freshEnv w' t) := by
  refine ⟨?_, fun ra dec a b => ?_⟩
  · unfold freshEnv
    rw [h.world]
  · show List.Forall₂ _ (t.entries.map _) (t.entries.map _)
    rw [List.forall₂_map_left_iff, List.forall₂_map_right_iff]
    exact List.forall₂_same.2 fun e he => h.sameBut he { (freshEnv w t).cfg with boxSize := box } rfl rfl rfl ra dec a b

/-- **C120** What the image and background files of a tile hold in pixels that the masks ask to replace does not matter: the
same slice comes out, or the same error. -/
theorem C120_files (h : SameOffMasks w w' t) (box psfBox : Nat) (hs : SoundEnv (freshEnv w t) box psfBox)
    (hro : t.cfg.rejectOutliers = false) (i seed : Nat) :
    coaddSingleSlice (freshEnv w' t) i seed = coaddSingleSlice (freshEnv w t) i seed :=
  C120_slice _ _ box psfBox hs hro (h.sameEnv box) i seed

/-- **C120** The same in processes that have done anything before. -/
theorem C120_process (h : SameOffMasks w w' t) (box psfBox : Nat) (hs : SoundEnv (freshEnv w t) box psfBox)
    (hro : t.cfg.rejectOutliers = false) (ho : Orderly w U) (ho' : Orderly w' U') (hU : U t) (hU' : U' t)
    (sizes sizes' : CacheId → Nat) (count count' : Nat) (ops ops' : List (ProcOp A S P)) (hops : OpsIn U ops)
    (hops' : OpsIn U' ops') (i seed : Nat) :
    (coaddSingleSliceP w' t i seed (procRun w' (Proc.fresh sizes' w'.arrays count') ops')).1 =
      (coaddSingleSliceP w t i seed (procRun w (Proc.fresh sizes w.arrays count) ops)).1 := by
  rw [C113_slice ho sizes count ops hops t hU, C113_slice ho' sizes' count' ops' hops' t hU', C120_files h box psfBox hs hro]

theorem FitsBody.sources {m m' : MakeIn A σ S W ρ} (hm : m' = { m with sourcesOf := m'.sourcesOf }) {p : Prepared}
    (hs : coaddSingleSlice (sliceEnvFor m' p.objects) = coaddSingleSlice (sliceEnvFor m p.objects))
    {ss : List Section} {r : Option Err} (hb : FitsBody m p ss r) : FitsBody m' p ss r := by
  have e0 : m'.slice = m.slice := by rw [hm]
  have e1 : ∀ objs, selectSlices m' objs = selectSlices m objs := by intro objs; rw [hm]; rfl
  have e2 : m'.ops = m.ops := by rw [hm]
  have e3 : m'.pars = m.pars := by rw [hm]
  have e4 : m'.nJobs = m.nJobs := by rw [hm]
  have e5 : m'.nChunks = m.nChunks := by rw [hm]
  have e6 : m'.rows0 = m.rows0 := by rw [hm]
  have e7 : ∀ objs, seedsFor m' objs = seedsFor m objs := by intro objs; rw [hm]; rfl
  have e8 : ∀ n o, finishFile m' p n o = finishFile m p n o := by intro n o; rw [hm]; rfl
  cases hb with
  | select e a => exact .select e (by rw [e1]; exact a)
  | counts sl e a b => exact .counts sl e (by rw [e1]; exact a) b
  | reserve sl n ss e a b c => exact .reserve sl n ss e (by rw [e1]; exact a) b (by rw [e0, e2, e3]; exact c)
  | slices sl n fits ss e a b c d =>
    refine .slices sl n fits ss e (by rw [e1]; exact a) b (by rw [e0, e2, e3]; exact c) ?_
    rw [e0, e2, e3, e4, e5, e6, e7, hs]
    exact d
  | finish sl n fits o a b c d =>
    rw [← e8]
    refine .finish sl n fits o (by rw [e1]; exact a) b (by rw [e0, e2, e3]; exact c) ?_
    rw [e0, e2, e3, e4, e5, e6, e7, hs]
    exact d

theorem SameOffMasks.seeds (h : SameOffMasks w w' t) (seeds : List SrcSeeds) (objs : List ObjRow) :
    SameOffMasks w w' (t.prepared seeds objs) := by
  have hm : ∀ e' ∈ (t.prepared seeds objs).entries, ∃ e ∈ t.entries, ∃ s, e' = e.withSeeds s := by
    intro e' he'
    unfold Tile.prepared at he'
    dsimp only at he'
    rw [prepared_entries] at he'
    obtain ⟨x, hx, rfl⟩ := List.mem_map.1 he'
    exact ⟨x.1, (List.of_mem_zip hx).1, x.2, rfl⟩
  have hk : ∀ (e : Entry P) s r j, MaskedOut w t e r j → MaskedOut w (t.prepared seeds objs) (e.withSeeds s) r j :=
    fun _ _ _ _ h => h
  refine ⟨h.world, fun e' he' => ?_, fun e' he' => ?_, fun e' he' => ?_, fun e' he' => ?_⟩ <;>
    obtain ⟨e, he, s, rfl⟩ := hm e' he'
  · exact h.weight e he
  · exact h.mask e he
  · exact (h.image e he).mono fun _ _ hh => hh.mono (hk e s)
  · exact (h.bkg e he).mono fun _ _ hh => hh.mono (hk e s)

theorem SameCallOffMasks.fresh {q q' : MakeP A σ S P W ρ} (h : SameCallOffMasks q q') :
    q'.fresh = { q.fresh with sourcesOf := q'.fresh.sourcesOf } := by
  have hs : q'.fresh.slice = q.fresh.slice := by
    have : ∀ (w w' : ProcWorld A σ S P) (t : Tile A S P), w' = { w with files := w'.files, arrays := w'.arrays } →
        { freshEnv w' t with sources := fun _ _ _ _ => [], objects := [] } =
        { freshEnv w t with sources := fun _ _ _ _ => [], objects := [] } := by
      intro w w' t h1
      unfold freshEnv
      rw [h1]
    unfold MakeP.fresh
    dsimp only
    rw [h.tile]
    exact this _ _ _ h.files.world
  have h1 : q'.fresh = { q'.args with slice := q'.fresh.slice, sourcesOf := q'.fresh.sourcesOf } := rfl
  rw [h1, hs, h.args]
  rfl

theorem SameCallOffMasks.slices {q q' : MakeP A σ S P W ρ} (h : SameCallOffMasks q q') {box psfBox : Nat}
    (hm : SoundMake q.fresh box psfBox) (hro : q.tile.cfg.rejectOutliers = false) {p : Prepared} (hp : prepare q.fresh = .ok p) :
    coaddSingleSlice (sliceEnvFor q'.fresh p.objects) = coaddSingleSlice (sliceEnvFor q.fresh p.objects) := by
  have hv := hm.sound hp
  have hseeds : seedsFor q'.plan p.objects = seedsFor q.plan p.objects := by
    rw [q'.seeds_eq, q.seeds_eq, h.fresh]
    rfl
  have ht : q'.tileFor p.objects = q.tileFor p.objects := by
    unfold MakeP.tileFor
    rw [hseeds, h.tile]
  rw [q.env_eq] at hv ⊢
  rw [q'.env_eq, ht]
  exact funext fun i => funext fun seed => C120_files (h.files.seeds _ _) box psfBox hv hro i seed

/-- **C120** Whole calls for such files prepare the same, and write the same extensions with the same content and
raise the same errors. -/
theorem C120_call {q q' : MakeP A σ S P W ρ} (h : SameCallOffMasks q q') (box psfBox : Nat)
    (hm : SoundMake q.fresh box psfBox) (hro : q.tile.cfg.rejectOutliers = false) :
    prepare q'.fresh = prepare q.fresh ∧ ∀ p, prepare q.fresh = .ok p → ∀ ss r,
      FitsBody q'.fresh p ss r ↔ FitsBody q.fresh p ss r := by
  have hf := h.fresh
  refine ⟨by rw [hf]; rfl, fun p hp ss r => ?_⟩
  have hs := h.slices hm hro hp
  exact ⟨FitsBody.sources (by rw [hf]) hs.symm, FitsBody.sources hf hs⟩

/-- **C120** Also in processes that have done anything before: what a call with one set of files writes, a call with the
other can write, and does but for the scheduling of its workers. -/
theorem C120_process_call {q q' : MakeP A σ S P W ρ} (h : SameCallOffMasks q q') (box psfBox : Nat)
    (hm : SoundMake q.fresh box psfBox) (hro : q.tile.cfg.rejectOutliers = false) (ho : Orderly w U) (ho' : Orderly w' U')
    (hq : q.Within w U) (hq' : q'.Within w' U') {p : Prepared} (hp : prepare q.plan = .ok p) {st st1 su su1 : Proc P}
    (hst : Reached w U st) (hsu : Reached w' U' su) {ss ss' : List Section} {r : Option Err}
    (hk : 1 < q.args.nJobs → q.args.nChunks ≠ some 0) (hb : FitsBodyP q p st ss none st1)
    (hb' : FitsBodyP q' p su ss' r su1) : r = none ∧ List.Forall₂ SameSection ss ss' := by
  have a := C116_call ho q hq p st st1 hst ss none hb
  have b := ((C120_call h box psfBox hm hro).2 p hp _ _).1 (C116_call ho' q' hq' p su su1 hsu ss' r hb')
  obtain rfl := fitsBody_success (nJobs := q.fresh.nJobs) (nChunks := q.fresh.nChunks) hm hp a b hk
  exact ⟨rfl, C110_same q.fresh box psfBox hm p p q.fresh.nJobs q.fresh.nChunks hp hp ss ss' a b⟩

end
end Pizza
