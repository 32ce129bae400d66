import Verif.Lemmas.Process

/-!
The steps of `_coadd_single_slice` in a process do what the pure computation says.
-/

namespace Pizza

section
variable {A σ S P : Type} {w : ProcWorld A σ S P} {U : Tile A S P → Prop}

theorem Reads.out_bind {α β : Type} (m : Reads α) (f : α → Reads β) :
    (m >>= f).out = (m.out >>= fun a => (f a).out) := by
  rw [Reads.bind_def]
  cases m.out <;> rfl

theorem keyRuns {α : Type} (o : Option α) : Runs w U Eq (PM.key o) (Reads.key o).out := Runs.liftEq _

theorem piff_runs (p : PyStr) (n : ℤ) : Runs w U Eq (piffP w p n) (w.disk.piff p n) :=
  Runs.cached (c := .piff) (Runs.liftEq _) (fun _ h => h) fun _ h => h

theorem wcs_runs (info : SESource P) (r : Req WcsObj) :
    Runs w U Eq (wcsP w info r) (seWcs w.disk info r).out := by
  cases r with
  | object o => exact Runs.pure rfl
  | named s =>
    unfold wcsP seWcs
    simp only
    by_cases h1 : s = "image"
    · simp only [h1, if_true, Reads.out_bind]
      exact (keyRuns _).bindEq fun p _ => (keyRuns _).bindEq fun x _ =>
        Runs.cached (c := .imageWcs) (Runs.liftEq _) (fun _ h => h) fun _ h => h
    · simp only [if_neg h1]
      by_cases h2 : s = "head"
      · simp only [h2, if_true, Reads.out_bind]
        exact (keyRuns _).bindEq fun q _ => (keyRuns _).bindEq fun p _ => (keyRuns _).bindEq fun x _ =>
          Runs.cached (c := .headWcs) (Runs.liftEq _) (fun _ h => h) fun _ h => h
      · simp only [if_neg h2]
        by_cases h3 : s = "affine"
        · simp only [h3, if_true]; exact keyRuns _
        · simp only [if_neg h3]
          by_cases h4 : s = "pixmappy"
          · simp only [h4, if_true, Reads.out_bind]
            exact (keyRuns _).bindEq fun p _ => (keyRuns _).bindEq fun n _ => (piff_runs p n).bindEq fun r _ =>
              Runs.pure rfl
          · simp only [if_neg h4]; exact Runs.liftEq _

theorem psf_runs (info : SESource P) (r : Req P) :
    Runs w U Eq (psfP w info r) (sePsf w.disk info r).out := by
  cases r with
  | object o => exact Runs.pure rfl
  | named s =>
    unfold psfP sePsf
    simp only
    by_cases h1 : s = "galsim"
    · simp only [h1, if_true]; exact keyRuns _
    · simp only [if_neg h1]
      by_cases h2 : s = "psfex"
      · simp only [h2, if_true, Reads.out_bind]
        exact (keyRuns _).bindEq fun p _ => Runs.cached (c := .psfex) (Runs.liftEq _) (fun _ h => h) fun _ h => h
      · simp only [if_neg h2]
        by_cases h4 : s = "piff"
        · simp only [h4, if_true, Reads.out_bind]
          exact (keyRuns _).bindEq fun p _ => (keyRuns _).bindEq fun n _ => (piff_runs p n).bindEq fun r _ =>
            Runs.pure rfl
        · simp only [if_neg h4]; exact Runs.liftEq _

theorem shape_runs (info : SESource P) : Runs w U Eq (shapeP w info) (seShape w.disk info).out := by
  unfold shapeP seShape
  cases info.imageShape with
  | some s => exact Runs.pure rfl
  | none =>
    simp only [Reads.out_bind]
    exact (keyRuns _).bindEq fun p _ => (keyRuns _).bindEq fun x _ =>
      Runs.cached (c := .shape) (Runs.liftEq _) (fun _ h => h) fun _ h => h

/-- An object that was constructed from an entry. -/
structure Made (w : ProcWorld A σ S P) (t : Tile A S P) (e : Entry P) (s : SEInst P) (con : SEConstructed P) : Prop where
  entry : s.entry = e
  con : s.con = con
  hash : ∃ n, s.hash = w.hash n t e

theorem seInit_wcs {disk : SEDisk P} {info : SESource P} {offset : ℚ} {rw : Req WcsObj} {rp : Req P}
    {con : SEConstructed P} (h : (seInit disk info offset rw rp).out = .ok con) :
    (seWcs disk info rw).out = .ok con.wcs := by
  unfold seInit at h
  rw [Reads.out_bind] at h
  cases hw : (seWcs disk info rw).out with
  | error x => rw [hw] at h; cases h
  | ok o =>
    rw [hw, ok_bind, Reads.out_bind] at h
    cases hp : (sePsf disk info rp).out with
    | error x => rw [hp] at h; cases h
    | ok m =>
      rw [hp, ok_bind, Reads.out_bind] at h
      cases hs : (seShape disk info).out with
      | error x => rw [hs] at h; cases h
      | ok sh =>
        rw [hs, ok_bind] at h
        split at h
        · cases h
        · rw [Reads.out_bind] at h
          cases he : (Reads.ofExcept (o.evaluable offset)).out with
          | error x => rw [he] at h; cases h
          | ok f =>
            rw [he, ok_bind, Reads.out_bind] at h
            cases hb : (Reads.ofExcept (disk.skyBounds sh f o.initCelestial)).out with
            | error x => rw [hb] at h; cases h
            | ok b => rw [hb] at h; cases h; rfl

theorem seInit_eq (disk : SEDisk P) (info : SESource P) (offset : ℚ) (rw : Req WcsObj) (rp : Req P)
    (hd : w.disk = disk) : (seInit disk info offset rw rp).out = (do
      let o ← (seWcs disk info rw).out
      let m ← (sePsf disk info rp).out
      let shape ← (seShape disk info).out
      let _ ← (Except.ok () : Except Err Unit)
      let b ← boundsOf w shape o offset o.initCelestial
      pure ⟨o, match rw with | .named s => some s | .object _ => none, m, shape, o.initCelestial, b.1, b.2.1,
        b.2.2, ⟨0, (shape.1 : ℤ) - 1, 0, (shape.2 : ℤ) - 1⟩⟩) := by
  unfold seInit
  rw [Reads.out_bind]
  congr 1; funext o
  rw [Reads.out_bind]
  congr 1; funext m
  rw [Reads.out_bind]
  congr 1; funext sh
  rw [ok_bind]
  unfold boundsOf
  split
  · rfl
  · rw [Reads.out_bind, hd]
    show (o.evaluable offset >>= _) = _
    cases o.evaluable offset with
    | error x => rfl
    | ok f =>
      rw [ok_bind, Reads.out_bind, ok_bind]
      rfl

theorem init_runs (ho : Orderly w U) {t : Tile A S P} {e : Entry P} (ht : U t) (he : e ∈ t.entries) :
    Runs w U (Made w t e) (initP w t e) (seInit w.disk e.src e.offset t.wcs t.psf).out := by
  rw [seInit_eq (w := w) _ _ _ _ _ rfl]
  unfold initP
  refine (wcs_runs _ _).bindEq fun o hw => (psf_runs _ _).bindEq fun m hm => (shape_runs _).bindEq fun sh _ => ?_
  have hh : Runs w U (fun h _ => ∃ n, h = w.hash n t e) (hashP w t e) (Except.ok ()) := fun st hst =>
    ⟨⟨hst.caches, hst.arrays⟩, st.count, rfl⟩
  refine hh.bind fun h _ hn => ?_
  obtain ⟨n, rfl⟩ := hn
  have hb : Runs w U Eq (PM.cached .bounds (sh, w.hash n t e, o.initCelestial)
      (PM.lift (boundsOf w sh o e.offset o.initCelestial))) (boundsOf w sh o e.offset o.initCelestial) := by
    refine Runs.cached (c := .bounds) (Runs.liftEq _) (fun v hv => ⟨n, t, e, o, ht, he, rfl, hw, hv⟩) ?_
    rintro v ⟨n', t', e', o', ht', he', hn', hw', hv⟩
    obtain ⟨h1, h2⟩ := ho.seHash n' t' e' n t e ht' he' ht he hn'
    rw [hw', hw] at h2
    cases h2
    rw [← h1]
    exact hv
  exact hb.bindEq fun b _ => Runs.pure ⟨rfl, rfl, n, rfl⟩

/-! ### the PSF -/

theorem freshFlag_eq (t : Tile A S P) (e : Entry P) (psf : P) : freshFlag w t e psf =
    (match t.piffCheck with
    | none => Except.ok false
    | some (grid, maxDiff) =>
      if w.psfKind psf = .piff then do
        let p ← (Reads.key e.src.piffPath).out
        let n ← (Reads.key e.src.ccdnum).out
        let r ← w.disk.piff p n
        let res ← w.tGrid r.1 t.kwargs e.piffSeed grid
        badPiffFlag res maxDiff
      else Except.ok false) := by
  unfold freshFlag
  cases t.piffCheck with
  | none => rfl
  | some gm =>
    obtain ⟨grid, maxDiff⟩ := gm
    cases w.psfKind psf with
    | piff =>
      simp only [if_true]
      cases e.src.piffPath with
      | none => rfl
      | some p => cases e.src.ccdnum <;> rfl
    | galsim => simp
    | psfex => simp
    | other => simp

theorem flag_runs {t : Tile A S P} {e : Entry P} {s : SEInst P} {con : SEConstructed P} (hs : Made w t e s con) :
    Runs w U Eq (piffFlagP w t s) (freshFlag w t e con.psf) := by
  rw [freshFlag_eq]
  unfold piffFlagP
  rw [hs.entry, hs.con]
  cases t.piffCheck with
  | none => exact Runs.ok rfl
  | some gm =>
    obtain ⟨grid, maxDiff⟩ := gm
    simp only
    split
    · refine (keyRuns _).bindEq fun p _ => (keyRuns _).bindEq fun n _ => ?_
      refine Runs.cached (c := .piffFlag) ?_ (fun _ h => h) fun _ h => h
      exact (piff_runs p n).bindEq fun r _ => (Runs.liftEq _).bindEq fun res _ => Runs.liftEq _
    · exact Runs.ok rfl

theorem setPsf_runs {t : Tile A S P} {e : Entry P} {s : SEInst P} {con : SEConstructed P} (hs : Made w t e s con)
    (hc : (seInit w.disk e.src e.offset t.wcs t.psf).out = .ok con) (o : SEObj) (ra dec ra' dec' : ℚ) :
    Runs w U Eq (setPsfP w t s o ra dec) (do
      let r := o.setPsf (freshSrc w t ra' dec' ra dec e).psfX (freshSrc w t ra' dec' ra dec e).psfY
        (freshSrc w t ra' dec' ra dec e).psfFlag (freshSrc w t ra' dec' ra dec e).psfImage
      let flag ← r.2
      pure (r.1, flag)) := by
  have hpure : (do
      let r := o.setPsf (freshSrc w t ra' dec' ra dec e).psfX (freshSrc w t ra' dec' ra dec e).psfY
        (freshSrc w t ra' dec' ra dec e).psfFlag (freshSrc w t ra' dec' ra dec e).psfImage
      let flag ← r.2
      pure (r.1, flag) : Except Err (SEObj × Bool)) = (do
      let p := s.seWcs.inv0 ra dec
      let flag ← freshFlag w t e con.psf
      let psf ← psfImageOf w t s p.1 p.2
      let r := o.setPsf p.1 p.2 (.ok flag) (.ok psf)
      let flag ← r.2
      pure (r.1, flag)) := by
    unfold freshSrc
    rw [hc]
    simp only [psfImageOf, SEInst.seWcs, hs.entry, hs.con]
    cases freshFlag w t e con.psf with
    | error x => rfl
    | ok f =>
      rw [ok_bind]
      generalize getPsfImage _ _ _ _ = g
      cases g <;> rfl
  rw [hpure]
  unfold setPsfP
  exact (flag_runs hs).bindEq fun f _ => (Runs.liftEq _).bindEq fun psf _ => (Runs.liftEq _).bindEq fun fl _ =>
    Runs.pure rfl

/-! ### lookups -/

theorem inverse_runs (ho : Orderly w U) {t : Tile A S P} {e : Entry P} {s : SEInst P} {con : SEConstructed P}
    (ht : U t) (he : e ∈ t.entries) (hs : Made w t e s con)
    (hc : (seInit w.disk e.src e.offset t.wcs t.psf).out = .ok con) :
    Runs w U Eq (inverseP w t s)
      (getWcsInverse w.fit t.inv t.offset ⟨con.wcs.fwd, con.wcs.inv, e.offset⟩ con.shape.1 con.shape.2 t.seDelta) := by
  have hw := seInit_wcs hc
  obtain ⟨h1, h2, n, h3⟩ := hs
  unfold inverseP SEInst.seWcs
  rw [h1, h2, h3]
  refine Runs.cached (c := .inverse) (Runs.liftEq _) (fun v hv => ⟨n, t, e, con.wcs, t, ht, he, rfl, hw, ht, rfl, hv⟩) ?_
  rintro v ⟨n', t', e', o', t'', ht', he', hn', hw', ht'', hk, hv⟩
  obtain ⟨g1, g2⟩ := ho.seHash n' t' e' n t e ht' he' ht he hn'
  obtain ⟨-, g4, -⟩ := ho.coaddHash t'' t ht'' ht hk
  rw [hw', hw] at g2
  cases g2
  rw [← g1, ← g4]
  exact hv

theorem areaSe_runs (ho : Orderly w U) {t : Tile A S P} {e : Entry P} {s : SEInst P} {con : SEConstructed P}
    (ht : U t) (he : e ∈ t.entries) (hs : Made w t e s con)
    (hc : (seInit w.disk e.src e.offset t.wcs t.psf).out = .ok con) :
    Runs w U Eq (areaSeP w t s)
      (getWcsAreaInterp w.spl con.wcs.isCelestial (⟨con.wcs.fwd, con.wcs.inv, e.offset⟩ : SEWcs).fwd0 w.cosd
        con.shape.1 con.shape.2 t.seDelta 0) := by
  have hw := seInit_wcs hc
  obtain ⟨h1, h2, n, h3⟩ := hs
  unfold areaSeP SEInst.seWcs
  rw [h1, h2, h3]
  refine Runs.cached (c := .area) (Runs.liftEq _) (fun v hv => ⟨n, t, e, con.wcs, ht, he, rfl, hw, hv⟩) ?_
  rintro v ⟨n', t', e', o', ht', he', hn', hw', hv⟩
  obtain ⟨g1, g2⟩ := ho.seHash n' t' e' n t e ht' he' ht he hn'
  rw [hw', hw] at g2
  cases g2
  rw [← g1]
  exact hv

theorem areaCoadd_runs (ho : Orderly w U) {t : Tile A S P} (ht : U t) : Runs w U Eq (areaCoaddP w t)
    (getWcsAreaInterp w.spl t.celestial t.fwd w.cosd t.shape.1 t.shape.2 t.coaddDelta t.offset) := by
  refine Runs.cached (c := .area) (Runs.liftEq _) (fun v hv => ⟨t, ht, rfl, hv⟩) ?_
  rintro v ⟨t', ht', hk, hv⟩
  obtain ⟨g1, -, g3⟩ := ho.coaddHash t' t ht' ht hk
  rw [← g1, ← g3]
  exact hv

theorem lookups_runs (ho : Orderly w U) {t : Tile A S P} {e : Entry P} {s : SEInst P} {con : SEConstructed P}
    (ht : U t) (he : e ∈ t.entries) (hs : Made w t e s con)
    (hc : (seInit w.disk e.src e.offset t.wcs t.psf).out = .ok con) (ra dec raPsf decPsf : ℚ) :
    Runs w U Eq (lookupsP w t s) (freshSrc w t ra dec raPsf decPsf e).lookups := by
  have : (freshSrc w t ra dec raPsf decPsf e).lookups = (do
      let inv ← getWcsInverse w.fit t.inv t.offset ⟨con.wcs.fwd, con.wcs.inv, e.offset⟩ con.shape.1 con.shape.2 t.seDelta
      let a ← getWcsAreaInterp w.spl con.wcs.isCelestial (⟨con.wcs.fwd, con.wcs.inv, e.offset⟩ : SEWcs).fwd0 w.cosd
        con.shape.1 con.shape.2 t.seDelta 0
      let b ← getWcsAreaInterp w.spl t.celestial t.fwd w.cosd t.shape.1 t.shape.2 t.coaddDelta t.offset
      pure ⟨fun x y => pairUp (inv.1.call x y), a, b⟩) := by
    unfold freshSrc
    rw [hc]
    rfl
  rw [this]
  exact (inverse_runs ho ht he hs hc).bindEq fun i _ => (areaSe_runs ho ht he hs hc).bindEq fun a _ =>
    (areaCoadd_runs ho ht).bindEq fun b _ => Runs.pure rfl

/-! ### choosing the epochs -/

/-- The process and the pure computation speak of the same SE image. -/
def SameSrc (w : ProcWorld A σ S P) (t : Tile A S P) (ra dec raPsf decPsf : ℚ) (s : SEInst P) (x : Src) : Prop :=
  ∃ e con, e ∈ t.entries ∧ x = freshSrc w t ra dec raPsf decPsf e ∧
    (seInit w.disk e.src e.offset t.wcs t.psf).out = .ok con ∧ Made w t e s con

/-- The same candidate. -/
structure SameCand (w : ProcWorld A σ S P) (t : Tile A S P) (ra dec raPsf decPsf : ℚ) (a : CandP P) (b : Cand) : Prop where
  src : SameSrc w t ra dec raPsf decPsf a.inst b.src
  obj : a.obj = b.obj
  flag : a.psfFlag = b.psfFlag

theorem roughCut_runs (ho : Orderly w U) {t : Tile A S P} {e : Entry P} (ht : U t) (he : e ∈ t.entries)
    (c : BuildCfg A) (ra dec raPsf decPsf : ℚ) :
    Runs w U (List.Forall₂ (SameCand w t ra dec raPsf decPsf)) (roughCutP w t c ra dec raPsf decPsf e)
      (roughCut c (freshSrc w t ra dec raPsf decPsf e)) := by
  have hflags : (freshSrc w t ra dec raPsf decPsf e).imageFlags = e.imageFlags := by
    unfold freshSrc; split <;> rfl
  unfold roughCutP roughCut
  rw [hflags]
  by_cases hf : e.imageFlags = 0
  · simp only [hf, if_true]
    have hI : Runs w U (fun s _ => ∃ con, (seInit w.disk e.src e.offset t.wcs t.psf).out = .ok con ∧ Made w t e s con)
        (initP w t e) (freshSrc w t ra dec raPsf decPsf e).init := by
      intro st hst
      obtain ⟨h1, h2⟩ := init_runs ho ht he st hst
      refine ⟨h1, ?_⟩
      unfold freshSrc
      cases hc : (seInit w.disk e.src e.offset t.wcs t.psf).out with
      | error x => rw [hc] at h2; cases hr : (initP w t e st).1 <;> rw [hr] at h2 <;> exact h2
      | ok con =>
        rw [hc] at h2
        cases hr : (initP w t e st).1 with
        | error x => rw [hr] at h2; exact h2
        | ok s => rw [hr] at h2; exact ⟨con, rfl, h2⟩
    refine hI.bind fun s _ hs => ?_
    obtain ⟨con, hc, hm⟩ := hs
    have hcon : (freshSrc w t ra dec raPsf decPsf e).containsRadec = .ok (s.contains w ra dec) := by
      unfold freshSrc SEInst.contains
      rw [hc, hm.con]
    have hpos : (freshSrc w t ra dec raPsf decPsf e).pos = .ok (s.seWcs.inv0 ra dec) := by
      unfold freshSrc SEInst.seWcs
      rw [hc, hm.con, hm.entry]
    have hsh : (freshSrc w t ra dec raPsf decPsf e).nrow = s.con.shape.1 ∧
        (freshSrc w t ra dec raPsf decPsf e).ncol = s.con.shape.2 := by
      unfold freshSrc
      rw [hc, hm.con]
      exact ⟨rfl, rfl⟩
    have hrd : (freshSrc w t ra dec raPsf decPsf e).reads = freshReads w t e ∧
        (freshSrc w t ra dec raPsf decPsf e).scale = w.zpScale e.magzp := by
      unfold freshSrc
      rw [hc]
      exact ⟨rfl, rfl⟩
    rw [hcon, ok_bind, hpos, hsh.1, hsh.2, hrd.1, hrd.2]
    by_cases hin : s.contains w ra dec = true
    · rw [if_pos hin, if_pos hin, ok_bind]
      split
      · have hpure : (match ({} : SEObj).setSlice (freshReads w t e) (w.zpScale e.magzp)
            (computeSliceBounds (s.seWcs.inv0 ra dec).1 (s.seWcs.inv0 ra dec).2 c.boxSize c.fracBuffer) with
          | (_, some x) => throw x
          | (o, none) => do
            let r := o.setPsf (freshSrc w t ra dec raPsf decPsf e).psfX (freshSrc w t ra dec raPsf decPsf e).psfY
              (freshSrc w t ra dec raPsf decPsf e).psfFlag (freshSrc w t ra dec raPsf decPsf e).psfImage
            let flag ← r.2
            pure [(⟨freshSrc w t ra dec raPsf decPsf e, r.1, flag⟩ : Cand)] : Except Err (List Cand)) = (do
          let o ← orRaise (({} : SEObj).setSlice (freshReads w t e) (w.zpScale e.magzp)
            (computeSliceBounds (s.seWcs.inv0 ra dec).1 (s.seWcs.inv0 ra dec).2 c.boxSize c.fracBuffer))
          let r ← (do
            let r := o.setPsf (freshSrc w t ra dec raPsf decPsf e).psfX (freshSrc w t ra dec raPsf decPsf e).psfY
              (freshSrc w t ra dec raPsf decPsf e).psfFlag (freshSrc w t ra dec raPsf decPsf e).psfImage
            let flag ← r.2
            pure (r.1, flag) : Except Err (SEObj × Bool))
          pure [(⟨freshSrc w t ra dec raPsf decPsf e, r.1, r.2⟩ : Cand)]) := by
          generalize SEObj.setSlice _ _ _ _ = g
          obtain ⟨o, x⟩ := g
          cases x with
          | some x => rfl
          | none =>
            simp only [orRaise, ok_bind]
            generalize (o.setPsf _ _ _ _).2 = q
            cases q <;> rfl
        refine Eq.mpr (congrArg (fun z => Runs w U _ _ z) hpure) ?_
        refine (setSlice_runs ho ht he _).bindEq fun o _ => (setPsf_runs hm hc o _ _ _ _).bindEq fun r _ => ?_
        exact Runs.pure (List.Forall₂.cons ⟨⟨e, con, he, rfl, hc, hm⟩, rfl, rfl⟩ List.Forall₂.nil)
      · exact Runs.pure List.Forall₂.nil
    · rw [if_neg hin, if_neg hin]; exact Runs.pure List.Forall₂.nil
  · simp only [if_neg hf]; exact Runs.pure List.Forall₂.nil

theorem possible_runs (ho : Orderly w U) {t : Tile A S P} (ht : U t) (c : BuildCfg A) (ra dec raPsf decPsf : ℚ)
    (l : List (Entry P)) (hl : ∀ e ∈ l, e ∈ t.entries) :
    Runs w U (List.Forall₂ (SameCand w t ra dec raPsf decPsf)) (possibleSlicesP w t c ra dec raPsf decPsf l)
      (possibleSlices c (l.map (freshSrc w t ra dec raPsf decPsf))) := by
  induction l with
  | nil => exact Runs.ok List.Forall₂.nil
  | cons e l ih =>
    rw [List.map_cons]
    unfold possibleSlicesP possibleSlices
    refine (roughCut_runs ho ht (hl e (by simp)) c _ _ _ _).bind fun a b hab => ?_
    refine (ih fun x hx => hl x (by simp [hx])).bind fun a' b' hab' => Runs.pure ?_
    exact List.rel_append hab hab'

theorem Forall₂.mapIdx {α β : Type} {R : α → β → Prop} {f : Nat → α → α} {g : Nat → β → β}
    (h : ∀ i a b, R a b → R (f i a) (g i b)) {l : List α} {m : List β} (hl : List.Forall₂ R l m) :
    List.Forall₂ R (l.mapIdx f) (m.mapIdx g) := by
  induction hl generalizing f g with
  | nil => simp
  | cons hab _ ih =>
    rw [List.mapIdx_cons, List.mapIdx_cons]
    exact List.Forall₂.cons (h 0 _ _ hab) (ih fun i a b hab => h (i + 1) a b hab)

theorem same_map {t : Tile A S P} {ra dec raPsf decPsf : ℚ} {γ : Type} (f : SEObj → γ) {a : List (CandP P)}
    {b : List Cand} (h : List.Forall₂ (SameCand w t ra dec raPsf decPsf) a b) :
    a.map (fun k => f k.obj) = b.map fun k => f k.obj := by
  induction h with
  | nil => rfl
  | cons hab _ ih => rw [List.map_cons, List.map_cons, hab.obj, ih]

theorem same_mapM {t : Tile A S P} {ra dec raPsf decPsf : ℚ} {γ : Type} (f : SEObj → Except Err γ) {a : List (CandP P)}
    {b : List Cand} (h : List.Forall₂ (SameCand w t ra dec raPsf decPsf) a b) :
    a.mapM (fun k => f k.obj) = b.mapM fun k => f k.obj := by
  induction h with
  | nil => rfl
  | cons hab _ ih => rw [List.mapM_cons, List.mapM_cons, hab.obj, ih]

theorem reject_agree {t : Tile A S P} {ra dec raPsf decPsf : ℚ} (c : BuildCfg A) {a : List (CandP P)}
    {b : List Cand} (h : List.Forall₂ (SameCand w t ra dec raPsf decPsf) a b) :
    Agree (List.Forall₂ (SameCand w t ra dec raPsf decPsf)) (rejectOutliersP w c a) (rejectOutliers w.ext c b) := by
  unfold rejectOutliersP rejectOutliers
  split
  · rw [same_mapM (fun o => attr o.image) h, same_mapM (fun o => attr o.weight) h]
    cases b.mapM fun k => attr k.obj.image with
    | error x => rfl
    | ok ims =>
      cases b.mapM fun k => attr k.obj.weight with
      | error x => rfl
      | ok wts =>
        rw [ok_bind, ok_bind, ok_bind, ok_bind]
        cases w.ext.outliers ims wts with
        | error x => rfl
        | ok new =>
          refine Forall₂.mapIdx (fun i p q hpq => ⟨hpq.src, ?_, hpq.flag⟩) h
          simp only [hpq.obj]
  · exact h

theorem gaiaMask_runs (ho : Orderly w U) {t : Tile A S P} (ht : U t) {ra dec raPsf decPsf : ℚ} (c : BuildCfg A)
    {a : CandP P} {b : Cand} (h : SameCand w t ra dec raPsf decPsf a b) :
    Runs w U Eq (seGaiaMaskP w t c a) (seGaiaMask c b.src b.obj) := by
  unfold seGaiaMaskP seGaiaMask
  cases c.gaia with
  | none => exact Runs.pure rfl
  | some g =>
    obtain ⟨⟨e, con, he, hx, hc, hm⟩, h2, h3⟩ := h
    have : b.src.toCoadd = (do
        let i ← getWcsInverse w.fit t.inv t.offset ⟨con.wcs.fwd, con.wcs.inv, e.offset⟩ con.shape.1 con.shape.2 t.seDelta
        pure fun x y => pairUp (i.2.call x y)) := by
      rw [hx]
      unfold freshSrc
      rw [hc]
      simp only
      generalize getWcsInverse _ _ _ _ _ _ _ = q
      cases q <;> rfl
    rw [this, h2]
    simp only [bind_assoc, pure_bind]
    exact (inverse_runs ho ht he hm hc).bindEq fun i _ => (Runs.liftEq _).bindEq fun m _ => Runs.pure rfl

theorem processCand_runs (ho : Orderly w U) {t : Tile A S P} (ht : U t) {ra dec raPsf decPsf : ℚ} (c : BuildCfg A)
    {a : CandP P} {b : Cand} (h : SameCand w t ra dec raPsf decPsf a b) (rng : σ) :
    Runs w U Eq (processCandP w t c a rng) (processCand w.ext c b rng) := by
  unfold processCandP processCand
  refine (gaiaMask_runs ho ht c h).bindEq fun g _ => ?_
  rw [h.obj, h.flag]
  refine (Runs.liftEq _).bindEq fun w0 _ => (Runs.liftEq _).bindEq fun b0 _ => (Runs.liftEq _).bindEq fun wb _ =>
    (Runs.liftEq _).bindEq fun sk _ => ?_
  simp only
  split
  · exact Runs.pure rfl
  · exact Runs.liftEq _

/-- The same epoch. -/
structure SameEpoch (w : ProcWorld A σ S P) (t : Tile A S P) (ra dec raPsf decPsf : ℚ) (a : EpochP P) (b : Epoch) : Prop where
  src : SameSrc w t ra dec raPsf decPsf a.inst b.src
  obj : a.obj = b.obj

/-- The same inputs. -/
structure SameInputsP (w : ProcWorld A σ S P) (t : Tile A S P) (ra dec raPsf decPsf : ℚ) (a : InputsP P) (b : Inputs) :
    Prop where
  slices : List.Forall₂ (SameEpoch w t ra dec raPsf decPsf) a.slices b.slices
  weights : a.weights = b.weights
  notUsed : List.Forall₂ (SameEpoch w t ra dec raPsf decPsf) a.notUsed b.notUsed
  flags : a.flags = b.flags

theorem SameInputsP.add {t : Tile A S P} {ra dec raPsf decPsf : ℚ} {a : InputsP P} {b : Inputs}
    (h : SameInputsP w t ra dec raPsf decPsf a b) {s : SEInst P} {x : Src} (hs : SameSrc w t ra dec raPsf decPsf s x)
    (o : Outcome) : SameInputsP w t ra dec raPsf decPsf (a.add s o) (b.add x o) := by
  obtain ⟨h1, h2, h3, h4⟩ := h
  cases o with
  | used o wt =>
    refine ⟨List.rel_append h1 (List.Forall₂.cons ⟨hs, rfl⟩ List.Forall₂.nil), ?_, h3, h4⟩
    simp only [InputsP.add, Inputs.add, h2]
  | unused o f =>
    refine ⟨h1, h2, List.rel_append h3 (List.Forall₂.cons ⟨hs, rfl⟩ List.Forall₂.nil), ?_⟩
    simp only [InputsP.add, Inputs.add, h4]

theorem processAll_runs (ho : Orderly w U) {t : Tile A S P} (ht : U t) {ra dec raPsf decPsf : ℚ} (c : BuildCfg A)
    {a : List (CandP P)} {b : List Cand} (h : List.Forall₂ (SameCand w t ra dec raPsf decPsf) a b) :
    ∀ {i : InputsP P} {j : Inputs} (_ : SameInputsP w t ra dec raPsf decPsf i j) (rng : σ),
      Runs w U (SameInputsP w t ra dec raPsf decPsf) (processAllP w t c a i rng) (processAll w.ext c b j rng) := by
  induction h with
  | nil => exact fun hij _ => Runs.ok hij
  | cons hab _ ih =>
    intro i j hij rng
    unfold processAllP processAll
    exact (processCand_runs ho ht c hab rng).bindEq fun r _ => ih (hij.add hab.src _) _

theorem build_runs (ho : Orderly w U) {t : Tile A S P} (ht : U t) (c : BuildCfg A) (ra dec raPsf decPsf : ℚ) (rng : σ) :
    Runs w U (SameInputsP w t ra dec raPsf decPsf) (buildSliceInputsP w t c ra dec raPsf decPsf rng)
      (buildSliceInputs w.ext c (t.entries.map (freshSrc w t ra dec raPsf decPsf)) rng) := by
  unfold buildSliceInputsP buildSliceInputs
  refine (possible_runs ho ht c _ _ _ _ t.entries fun _ h => h).bind fun a b hab => ?_
  have he : a.isEmpty = b.isEmpty := by cases hab <;> rfl
  have hf : a.all (·.psfFlag) = b.all (·.psfFlag) := by
    clear he
    induction hab with
    | nil => rfl
    | cons h _ ih => rw [List.all_cons, List.all_cons, ih, h.flag]
  rw [he, hf]
  split
  · exact Runs.pure ⟨List.Forall₂.nil, rfl, List.Forall₂.nil, rfl⟩
  · refine (Runs.lift (reject_agree c hab)).bind fun a' b' hab' => ?_
    refine (processAll_runs ho ht c hab' ⟨List.Forall₂.nil, rfl, List.Forall₂.nil, rfl⟩ rng).bind fun i j hij => ?_
    rw [hij.weights]
    split
    · exact Runs.pure hij
    · exact Runs.pure ⟨hij.slices, rfl, hij.notUsed, hij.flags⟩

/-! ### coadding -/

theorem SameEpoch.rowEq {t : Tile A S P} {ra dec raPsf decPsf : ℚ} {a : EpochP P} {b : Epoch}
    (h : SameEpoch w t ra dec raPsf decPsf a b) : a.row.src.imageId = b.src.imageId ∧ a.row.obj = b.obj := by
  obtain ⟨⟨e, con, he, hx, hc, hm⟩, h2⟩ := h
  refine ⟨?_, h2⟩
  rw [hx]
  unfold freshSrc EpochP.row
  rw [hc, hm.entry]
  rfl

theorem epochRow_congr {a b : Epoch} (h1 : a.src.imageId = b.src.imageId) (h2 : a.obj = b.obj) (old : EpochRow)
    (f : BitVec 32) (wt : ℚ) : epochRow old a f wt = epochRow old b f wt := by
  unfold epochRow
  rw [h1, h2]

theorem fillUsed_congr {a b : List Epoch}
    (h : List.Forall₂ (fun x y : Epoch => x.src.imageId = y.src.imageId ∧ x.obj = y.obj) a b) :
    ∀ (ws : List ℚ) (data : List EpochRow) (loc : Nat), fillUsed data loc (ws.zip a) = fillUsed data loc (ws.zip b) := by
  induction h with
  | nil => intros; rfl
  | cons hab _ ih =>
    intro ws data loc
    cases ws with
    | nil => rfl
    | cons x ws =>
      simp only [List.zip_cons_cons, fillUsed, setRow, epochRow_congr hab.1 hab.2, ih]

theorem fillUnused_congr {a b : List Epoch}
    (h : List.Forall₂ (fun x y : Epoch => x.src.imageId = y.src.imageId ∧ x.obj = y.obj) a b) :
    ∀ (ws : List (BitVec 32)) (data : List EpochRow) (loc : Nat),
      fillUnused data loc (ws.zip a) = fillUnused data loc (ws.zip b) := by
  induction h with
  | nil => intros; rfl
  | cons hab _ ih =>
    intro ws data loc
    cases ws with
    | nil => rfl
    | cons x ws =>
      simp only [List.zip_cons_cons, fillUnused, setRow, epochRow_congr hab.1 hab.2, ih]

theorem rows_same {t : Tile A S P} {ra dec raPsf decPsf : ℚ} {a : List (EpochP P)} {b : List Epoch}
    (h : List.Forall₂ (SameEpoch w t ra dec raPsf decPsf) a b) :
    List.Forall₂ (fun x y : Epoch => x.src.imageId = y.src.imageId ∧ x.obj = y.obj) (a.map EpochP.row) b := by
  induction h with
  | nil => exact List.Forall₂.nil
  | cons hab _ ih => exact List.Forall₂.cons hab.rowEq ih

theorem resample_runs (ho : Orderly w U) {t : Tile A S P} (ht : U t) {ra dec raPsf decPsf : ℚ} (row : ObjRow)
    (lay : PsfLayout) {a : EpochP P} {b : Epoch} (h : SameEpoch w t ra dec raPsf decPsf a b) :
    Runs w U Eq (resampleP w t row lay a) (resampleEpoch row lay b) := by
  obtain ⟨⟨e, con, he, hx, hc, hm⟩, h2⟩ := h
  have hl := lookups_runs ho ht he hm hc ra dec raPsf decPsf
  rw [← hx] at hl
  have : resampleEpoch row lay b = (do
      let look ← b.src.lookups
      let _ ← b.src.lookups
      let r ← b.obj.resample look row.origStartCol row.origStartRow row.boxSize.toNat
        lay.startCol lay.startRow row.psfBoxSize.toNat
      pure (r.toEpoch (decide (r.psf.total ≠ 0)))) := by
    unfold resampleEpoch
    cases b.src.lookups <;> rfl
  rw [this]
  unfold resampleP
  rw [h2]
  exact hl.bindEq fun look _ => hl.bindEq fun _ _ => (Runs.liftEq _).bindEq fun r _ => Runs.pure rfl

theorem stackAll_runs (ho : Orderly w U) {t : Tile A S P} (ht : U t) {ra dec raPsf decPsf : ℚ} (row : ObjRow)
    (lay : PsfLayout) {a : List (EpochP P)} {b : List Epoch} (h : List.Forall₂ (SameEpoch w t ra dec raPsf decPsf) a b) :
    ∀ (ws : List ℚ) (st : Stacks), Runs w U Eq (stackAllP w t row lay st (a.zip ws))
      (stackAll st ((b.map (resampleEpoch row lay)).zip ws)) := by
  induction h with
  | nil => intro ws st; exact Runs.ok rfl
  | cons hab _ ih =>
    intro ws st
    cases ws with
    | nil => exact Runs.ok rfl
    | cons x ws =>
      simp only [List.zip_cons_cons, List.map_cons, stackAllP, stackAll]
      exact (resample_runs ho ht row lay hab).bindEq fun d _ => (Runs.liftEq _).bindEq fun st' _ => ih ws st'

theorem coaddInputs_runs (ho : Orderly w U) {t : Tile A S P} (ht : U t) {ra dec raPsf decPsf : ℚ} (row : ObjRow)
    (lay : PsfLayout) {a : List (EpochP P)} {b : List Epoch} (h : List.Forall₂ (SameEpoch w t ra dec raPsf decPsf) a b)
    (ws : List ℚ) : Runs w U Eq (coaddSliceInputsP w t row lay a ws)
      (coaddSliceInputs row.boxSize.toNat row.psfBoxSize.toNat t.nExtra (b.map (resampleEpoch row lay)) ws) := by
  unfold coaddSliceInputsP coaddSliceInputs
  have hlen : a.length = b.length := h.length_eq
  simp only [List.length_map]
  rw [hlen]
  split
  · exact Runs.liftEq _
  · have hemp : a.isEmpty = true ↔ b.map (resampleEpoch row lay) = [] := by cases h <;> simp
    by_cases hb : b.map (resampleEpoch row lay) = []
    · rw [if_pos hb, if_pos (hemp.2 hb)]
      exact Runs.liftEq _
    · rw [if_neg hb, if_neg (fun h => hb (hemp.1 h))]
      exact (stackAll_runs ho ht row lay h _ _).bindEq fun st _ => (Runs.liftEq _).bindEq fun n _ => Runs.pure rfl

theorem chosen_runs (ho : Orderly w U) {t : Tile A S P} (ht : U t) {ra dec raPsf decPsf : ℚ} (row : ObjRow)
    (lay : PsfLayout) (i : Nat) {a : InputsP P} {b : Inputs} (h : SameInputsP w t ra dec raPsf decPsf a b) :
    Runs w U Eq (coaddChosenP w t row lay i a) (coaddChosen (freshEnv w t) row lay i b) := by
  have hE : makeEpochsInfo row.id a.weights (a.slices.map EpochP.row) (a.notUsed.map EpochP.row) a.flags =
      makeEpochsInfo row.id b.weights b.slices b.notUsed b.flags := by
    unfold makeEpochsInfo
    simp only [List.length_map]
    rw [h.slices.length_eq, h.notUsed.length_eq, h.weights, h.flags, fillUsed_congr (rows_same h.slices)]
    simp only [fillUnused_congr (rows_same h.notUsed)]
  unfold coaddChosenP coaddChosen
  rw [hE, h.weights]
  refine (Runs.liftEq _).bindEq fun ep _ => ?_
  split
  · exact (coaddInputs_runs ho ht row lay h.slices _).bindEq fun co _ => (Runs.liftEq _).bindEq fun s _ => Runs.pure rfl
  · exact Runs.pure rfl

theorem readGaia_runs (ho : Orderly w U) {t : Tile A S P} (ht : U t) (path : PyStr) :
    Runs w U Eq (readGaiaP w t path) (do
      let cat ← w.gaia path
      pure (readGaiaStars t.inv t.offset cat)) := by
  unfold readGaiaP
  refine Runs.cached (c := .gaia) (Runs.liftEq _) (fun v hv => ?_) ?_
  · cases hg : w.gaia path with
    | error x => rw [hg] at hv; cases hv
    | ok cat => rw [hg] at hv; cases hv; exact ⟨t, cat, ht, rfl, hg, rfl⟩
  · rintro v ⟨t', cat, ht', hk, hg, rfl⟩
    rw [hg, (ho.coaddHash t' t ht' ht hk).2.1]
    rfl

theorem gaia_runs (ho : Orderly w U) {t : Tile A S P} (ht : U t) (row : ObjRow) :
    Runs w U Eq (gaiaForP w t row) (gaiaFor (freshEnv w t) row) := by
  unfold gaiaForP gaiaFor freshEnv
  simp only
  cases t.gaiaPath with
  | none => exact Runs.pure rfl
  | some path =>
    cases t.gaiaCfg with
    | none => exact Runs.pure rfl
    | some g =>
      have h := readGaia_runs ho ht path
      have : (do
          let cat ← w.gaia path
          pure (some (buildGaiaStarMask w.draw w.pow10 w.f4 (readGaiaStars t.inv t.offset cat) g.maxMag g.coeffs
            ⌊row.origStartCol⌋ ⌊row.origStartRow⌋ row.boxSize.toNat g.symmetrize)) : Except Err _) = (do
          let stars ← (do
            let cat ← w.gaia path
            pure (readGaiaStars t.inv t.offset cat) : Except Err _)
          pure (some (buildGaiaStarMask w.draw w.pow10 w.f4 stars g.maxMag g.coeffs
            ⌊row.origStartCol⌋ ⌊row.origStartRow⌋ row.boxSize.toNat g.symmetrize))) := by
        cases w.gaia path <;> rfl
      simp only [Option.map_some]
      rw [this]
      exact h.bindEq fun s _ => Runs.pure rfl

theorem slice_runs (ho : Orderly w U) {t : Tile A S P} (ht : U t) (i seed : Nat) :
    Runs w U Eq (coaddSingleSliceP w t i seed) (coaddSingleSlice (freshEnv w t) i seed) := by
  unfold coaddSingleSliceP coaddSingleSlice
  refine (Runs.liftEq _).bindEq fun row _ => (Runs.liftEq _).bindEq fun lay _ => (gaia_runs ho ht row).bindEq fun g _ => ?_
  exact (build_runs ho ht _ _ _ _ _ _).bind fun a b hab => chosen_runs ho ht row lay i hab

/-! ### histories -/

theorem fresh_inv (sizes : CacheId → Nat) (count : Nat) : PInv w U (Proc.fresh sizes w.arrays count) :=
  ⟨fun _ _ hx => by simp [Proc.fresh] at hx, fun _ => Or.inl rfl⟩

theorem clear_inv {st : Proc P} (h : PInv w U st) : PInv w U (clearCaches st) := by
  refine ⟨fun c x hx => ?_, h.arrays⟩
  simp only [clearCaches] at hx
  split at hx
  · exact h.caches c x hx
  · simp [Lru.clear] at hx

theorem chunk_runs (ho : Orderly w U) {t : Tile A S P} (ht : U t) (jobs : List (Nat × Nat)) {st : Proc P}
    (h : PInv w U st) : PInv w U (processSliceChunk w t jobs st).2 ∧
      ChunkReport (coaddSingleSlice (freshEnv w t)) jobs (processSliceChunk w t jobs st).1 := by
  induction jobs generalizing st with
  | nil => exact ⟨h, .done⟩
  | cons j l ih =>
    obtain ⟨i, seed⟩ := j
    obtain ⟨h1, h2⟩ := slice_runs ho ht i seed st h
    have h2 := h2.eq
    unfold processSliceChunk
    cases hr : coaddSingleSliceP w t i seed st with
    | mk r st' =>
      rw [hr] at h1 h2
      cases r with
      | error e => exact ⟨h1, .failed h2.symm⟩
      | ok r => exact ⟨(ih h1).1, .ok h2.symm (ih h1).2⟩

theorem procRun_inv (ho : Orderly w U) {ops : List (ProcOp A S P)} (hops : OpsIn U ops) {st : Proc P} (h : PInv w U st) :
    PInv w U (procRun w st ops) := by
  unfold procRun
  induction ops generalizing st with
  | nil => exact h
  | cons op ops ih =>
    rw [List.foldl_cons]
    refine ih (fun t => ⟨fun i seed hm => (hops t).1 i seed (List.mem_cons_of_mem _ hm),
      fun jobs hm => (hops t).2 jobs (List.mem_cons_of_mem _ hm)⟩) ?_
    cases op with
    | clear => exact clear_inv h
    | slice t i seed => exact (slice_runs ho ((hops t).1 i seed (by simp)) i seed st h).1
    | chunk t jobs => exact (chunk_runs ho ((hops t).2 jobs (by simp)) jobs h).1

end
end Pizza
