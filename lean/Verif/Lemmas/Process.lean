import Verif.Lemmas.Basic
import Verif.Props.SEInit
import Verif.Props.SliceMask
import Verif.Spec.Process

/-!
A computation in a process does what a pure computation says, in every state whose caches hold right values.
-/

namespace Pizza

section
variable {A σ S P : Type}

/-- Both fail with the same error, or both succeed with related values. -/
def Agree {α β : Type} (R : α → β → Prop) : Except Err α → Except Err β → Prop
  | .ok a, .ok b => R a b
  | .error x, .error y => x = y
  | _, _ => False

theorem Agree.refl {α : Type} (e : Except Err α) : Agree Eq e e := by cases e <;> simp [Agree]

theorem Agree.eq {α : Type} {a b : Except Err α} (h : Agree Eq a b) : a = b := by
  cases a <;> cases b <;> simp_all [Agree]

/-- The value in a cache is right. -/
def Good (w : ProcWorld A σ S P) (U : Tile A S P → Prop) : (c : CacheId) → c.Key → c.Val P → Prop
  | .bounds, k, v => ∃ n t e o, U t ∧ e ∈ t.entries ∧ w.hash n t e = k.2.1 ∧
      (seWcs w.disk e.src t.wcs).out = .ok o ∧ boundsOf w k.1 o e.offset k.2.2 = .ok v
  | .shape, k, v => (do let h ← w.disk.header k.1 k.2; headerShape h) = .ok v
  | .image, k, v => ∃ a, w.files k = .ok a ∧ (v = a ∨ ∃ t e bumps, U t ∧ e ∈ t.entries ∧ t.tapeBumps = true ∧
      e.bmask = .file k ∧ bumpsFor e.src.ccdnum = .ok bumps ∧ v = a.mapBits (setTapeBumps bumps))
  | .noise, k, v => ∃ a, w.files k.1 = .ok a ∧ noiseField w a.asNum k.2.1 k.2.2.1 = .ok v
  | .inverse, k, v => ∃ n t e o t', U t ∧ e ∈ t.entries ∧ w.hash n t e = k.2.2.1 ∧
      (seWcs w.disk e.src t.wcs).out = .ok o ∧ U t' ∧ t'.key = k.1 ∧
      getWcsInverse w.fit t'.inv k.2.1 ⟨o.fwd, o.inv, e.offset⟩ k.2.2.2.1.1 k.2.2.2.1.2 k.2.2.2.2 = .ok v
  | .area, k, v => match k.2.2.2 with
      | none => ∃ n t e o, U t ∧ e ∈ t.entries ∧ w.hash n t e = k.1 ∧ (seWcs w.disk e.src t.wcs).out = .ok o ∧
          getWcsAreaInterp w.spl o.isCelestial (⟨o.fwd, o.inv, e.offset⟩ : SEWcs).fwd0 w.cosd k.2.1.1 k.2.1.2 k.2.2.1 0
            = .ok v
      | some off => ∃ t, U t ∧ t.key = k.1 ∧
          getWcsAreaInterp w.spl t.celestial t.fwd w.cosd k.2.1.1 k.2.1.2 k.2.2.1 off = .ok v
  | .piff, k, v => w.disk.piff k.1 k.2 = .ok v
  | .psfex, k, v => w.disk.psfex k = .ok v
  | .imageWcs, k, v => w.disk.imageWcs k.1 k.2 = .ok v
  | .headWcs, k, v => w.disk.headWcs k.1 k.2.1 k.2.2 = .ok v
  | .piffFlag, k, v => (do
      let r ← w.disk.piff k.1.1 k.1.2
      let res ← w.tGrid r.1 k.2.2.1 k.2.1.2 k.2.1.1
      badPiffFlag res k.2.2.2) = .ok v
  | .gaia, k, v => ∃ t cat, U t ∧ t.key = k.2.1 ∧ w.gaia k.1 = .ok cat ∧ v = readGaiaStars t.inv k.2.2 cat

/-- An array in memory is as given, or with its tape bumps masked. -/
def GoodArr (w : ProcWorld A σ S P) (U : Tile A S P → Prop) (n : Nat) (v : Arr) : Prop :=
  v = w.arrays n ∨ ∃ t e bumps, U t ∧ e ∈ t.entries ∧ t.tapeBumps = true ∧ e.bmask = .mem n ∧
    bumpsFor e.src.ccdnum = .ok bumps ∧ v = (w.arrays n).mapBits (setTapeBumps bumps)

/-- All values held by the process are right. -/
structure PInv (w : ProcWorld A σ S P) (U : Tile A S P → Prop) (st : Proc P) : Prop where
  caches : ∀ c, ∀ x ∈ (st.caches c).entries, Good w U c x.1 x.2
  arrays : ∀ n, GoodArr w U n (st.arrays n)

/-- A computation in a process does what a pure computation says. -/
def Runs (w : ProcWorld A σ S P) (U : Tile A S P → Prop) {α β : Type} (R : α → β → Prop) (m : PM P α)
    (e : Except Err β) : Prop :=
  ∀ st, PInv w U st → PInv w U (m st).2 ∧ Agree R (m st).1 e

variable {w : ProcWorld A σ S P} {U : Tile A S P → Prop}

theorem Runs.pure {α β : Type} {R : α → β → Prop} {a : α} {b : β} (h : R a b) :
    Runs w U R (Pure.pure a) (Pure.pure b) := fun _ hst => ⟨hst, h⟩

theorem Runs.ok {α β : Type} {R : α → β → Prop} {a : α} {b : β} (h : R a b) :
    Runs w U R (Pure.pure a) (Except.ok b) := fun _ hst => ⟨hst, h⟩

theorem Runs.lift {α β : Type} {R : α → β → Prop} {a : Except Err α} {b : Except Err β} (h : Agree R a b) :
    Runs w U R (PM.lift a) b := fun _ hst => ⟨hst, h⟩

theorem Runs.liftEq {α : Type} (a : Except Err α) : Runs w U Eq (PM.lift a) a := Runs.lift (Agree.refl a)

theorem Runs.bind' {α β γ δ : Type} {R : α → β → Prop} {R' : γ → δ → Prop} {m : PM P α} {e : Except Err β}
    {f : α → PM P γ} {g : β → Except Err δ} (h : Runs w U R m e)
    (h' : ∀ a b, e = .ok b → R a b → Runs w U R' (f a) (g b)) : Runs w U R' (m >>= f) (e >>= g) := by
  intro st hst
  obtain ⟨h1, h2⟩ := h st hst
  show PInv w U (match m st with
    | (.error e, st) => ((.error e, st) : Except Err γ × Proc P)
    | (.ok a, st) => f a st).2 ∧ Agree R' (match m st with
    | (.error e, st) => ((.error e, st) : Except Err γ × Proc P)
    | (.ok a, st) => f a st).1 (e >>= g)
  cases hm : m st with
  | mk r st' =>
    rw [hm] at h1 h2
    cases r with
    | error x =>
      cases e with
      | error y => exact ⟨h1, h2⟩
      | ok b => exact h2.elim
    | ok a =>
      cases e with
      | error y => exact h2.elim
      | ok b => exact h' a b rfl h2 st' h1

theorem Runs.bind {α β γ δ : Type} {R : α → β → Prop} {R' : γ → δ → Prop} {m : PM P α} {e : Except Err β}
    {f : α → PM P γ} {g : β → Except Err δ} (h : Runs w U R m e) (h' : ∀ a b, R a b → Runs w U R' (f a) (g b)) :
    Runs w U R' (m >>= f) (e >>= g) := h.bind' fun a b _ => h' a b

/-- With equal values there is one value to go on with. -/
theorem Runs.bindEq {α γ δ : Type} {R' : γ → δ → Prop} {m : PM P α} {e : Except Err α}
    {f : α → PM P γ} {g : α → Except Err δ} (h : Runs w U Eq m e) (h' : ∀ a, e = .ok a → Runs w U R' (f a) (g a)) :
    Runs w U R' (m >>= f) (e >>= g) := h.bind' fun a b he hab => by subst hab; exact h' a he

theorem Runs.key {α : Type} (o : Option α) :
    Runs w U Eq (PM.key o) (match o with | none => .error .keyError | some a => .ok a) := Runs.liftEq _

theorem PInv.put {st : Proc P} (h : PInv w U st) {c : CacheId} {l : Lru c.Key (c.Val P)}
    (hl : ∀ x ∈ l.entries, Good w U c x.1 x.2) : PInv w U (st.put c l) := by
  refine ⟨fun c' x hx => ?_, h.arrays⟩
  by_cases hc : c' = c
  · subst hc
    simp only [Proc.put, Function.update_self] at hx
    exact hl x hx
  · simp only [Proc.put, Function.update_of_ne hc] at hx
    exact h.caches c' x hx

theorem Runs.cachedRel {c : CacheId} {k : c.Key} {m : PM P (c.Val P)} {e : Except Err (c.Val P)}
    {R : c.Val P → c.Val P → Prop} (h : Runs w U Eq m e) (h1 : ∀ v, e = .ok v → Good w U c k v)
    (h2 : ∀ v, Good w U c k v → ∃ b, e = .ok b ∧ R v b) (h3 : ∀ v, R v v) :
    Runs w U R (PM.cached c k m) e := by
  intro st hst
  unfold PM.cached
  cases hf : (st.caches c).find? k with
  | some v =>
    have hm := find?_mem hf
    have hg := hst.caches c _ hm
    obtain ⟨b, hb, hR⟩ := h2 v hg
    refine ⟨hst.put fun x hx => ?_, ?_⟩
    · simp only [List.mem_cons] at hx
      rcases hx with rfl | hx
      · exact hg
      · exact hst.caches c x (List.mem_of_mem_filter hx)
    · rw [hb]; exact hR
  | none =>
    obtain ⟨g1, g2⟩ := h st hst
    cases hm : m st with
    | mk r st' =>
      rw [hm] at g1 g2
      have g2 := g2.eq
      simp only at g2
      subst g2
      cases r with
      | error x => exact ⟨g1, rfl⟩
      | ok v =>
        refine ⟨g1.put fun x hx => ?_, h3 v⟩
        have := List.mem_of_mem_take hx
        rw [List.mem_cons] at this
        rcases this with rfl | hx
        · exact h1 v rfl
        · exact g1.caches c x hx

theorem Runs.cached {c : CacheId} {k : c.Key} {m : PM P (c.Val P)} {e : Except Err (c.Val P)}
    (h : Runs w U Eq m e) (h1 : ∀ v, e = .ok v → Good w U c k v) (h2 : ∀ v, Good w U c k v → e = .ok v) :
    Runs w U Eq (PM.cached c k m) e :=
  Runs.cachedRel h h1 (fun v hv => ⟨v, h2 v hv, rfl⟩) fun _ => rfl

/-! ### reading -/

/-- What may be read at a location when `a` is there: `a`, or `a` with tape bumps masked. -/
def ReadAs (U : Tile A S P → Prop) (loc : Loc FileKey) (v a : Arr) : Prop :=
  v = a ∨ ∃ t e bumps, U t ∧ e ∈ t.entries ∧ t.tapeBumps = true ∧ e.bmask = loc ∧
    bumpsFor e.src.ccdnum = .ok bumps ∧ v = a.mapBits (setTapeBumps bumps)

theorem read_any (loc : Loc FileKey) : Runs w U (ReadAs U loc) (readP w loc) (w.original loc) := by
  cases loc with
  | mem n => exact fun st hst => ⟨hst, hst.arrays n⟩
  | file k =>
    refine Runs.cachedRel (c := .image) (Runs.liftEq _) (fun v hv => ⟨v, hv, Or.inl rfl⟩) ?_ fun _ => Or.inl rfl
    rintro v ⟨a, ha, hv⟩
    exact ⟨a, ha, hv⟩

/-- Locations that are not masks with tape-bump masking. -/
theorem read_other {loc : Loc FileKey} (h : ∀ t e, U t → e ∈ t.entries → t.tapeBumps = true → e.bmask ≠ loc) :
    Runs w U Eq (readP w loc) (w.original loc) := by
  intro st hst
  obtain ⟨h1, h2⟩ := read_any loc st hst
  refine ⟨h1, ?_⟩
  cases hr : (readP w loc st).1 with
  | error x => rw [hr] at h2; cases ho : w.original loc <;> rw [ho] at h2 <;> exact h2
  | ok v =>
    rw [hr] at h2
    cases ho : w.original loc with
    | error x => rw [ho] at h2; exact h2.elim
    | ok a =>
      rw [ho] at h2
      rcases h2 with rfl | ⟨t, e, bumps, ht, he, hb, hl, -⟩
      · rfl
      · exact absurd hl (h t e ht he hb)

theorem bumpsFor_flags {ccd : Option ℤ} {bumps : List Bump} (h : bumpsFor ccd = .ok bumps) :
    ∀ b ∈ bumps, b.flag = 16384 := by
  unfold bumpsFor at h
  cases ccd with
  | none => cases h
  | some n =>
    simp only at h
    split at h
    · cases h
    · exact bumpsOf_flags tapeBumps_flags h

theorem mapBits_idem {bumps : List Bump} (h : ∀ b ∈ bumps, b.flag = 16384) (a : Arr) :
    (a.mapBits (setTapeBumps bumps)).mapBits (setTapeBumps bumps) = a.mapBits (setTapeBumps bumps) := by
  cases a with
  | num a => rfl
  | bits b => simp only [Arr.mapBits, setTapeBumps_idem bumps h]

theorem mutate_runs (ho : Orderly w U) {t : Tile A S P} {e : Entry P} {bumps : List Bump} (ht : U t)
    (he : e ∈ t.entries) (hb : t.tapeBumps = true) (hc : bumpsFor e.src.ccdnum = .ok bumps) :
    Runs w U Eq (mutateP e.bmask (setTapeBumps bumps)) (Except.ok ()) := by
  intro st hst
  have hfl := bumpsFor_flags hc
  have key : ∀ loc v a, e.bmask = loc → ReadAs U loc v a → ReadAs U loc (v.mapBits (setTapeBumps bumps)) a := by
    rintro loc v a hl (rfl | ⟨t', e', b', ht', he', hb', hl', hc', rfl⟩)
    · exact Or.inr ⟨t, e, bumps, ht, he, hb, hl, hc, rfl⟩
    · obtain ⟨-, hccd⟩ := ho.sameMasking t' e' t e ht' he' ht he hb' (hl'.trans hl.symm)
      rw [← hccd, hc] at hc'
      cases hc'
      rw [mapBits_idem hfl]
      exact Or.inr ⟨t, e, bumps, ht, he, hb, hl, hc, rfl⟩
  cases hl : e.bmask with
  | mem n =>
    refine ⟨⟨hst.caches, fun m => ?_⟩, rfl⟩
    simp only [mutateP]
    by_cases hm : m = n
    · subst hm
      rw [if_pos rfl]
      exact key _ _ _ hl (hst.arrays m)
    · rw [if_neg hm]; exact hst.arrays m
  | file k =>
    refine ⟨hst.put fun x hx => ?_, rfl⟩
    simp only [Lru.mutate, List.mem_map] at hx
    obtain ⟨x0, hx0, rfl⟩ := hx
    obtain ⟨a, ha, hv⟩ := hst.caches .image x0 hx0
    by_cases hk : x0.1 = k
    · rw [if_pos hk]
      subst hk
      exact ⟨a, ha, key _ _ _ hl hv⟩
    · rw [if_neg hk]; exact ⟨a, ha, hv⟩

theorem freshMask_eq (t : Tile A S P) (e : Entry P) : freshMask w t e = (do
    let a ← w.original e.bmask
    let m ← a.asMask
    if t.tapeBumps then do
      let bumps ← bumpsFor e.src.ccdnum
      let _ ← (Except.ok () : Except Err Unit)
      pure (setTapeBumps bumps m)
    else pure m) := by
  unfold freshMask
  cases w.original e.bmask with
  | error x => rfl
  | ok a =>
    cases a with
    | num a => rfl
    | bits m =>
      simp only [Arr.asMask, ok_bind]
      split
      · cases e.src.ccdnum with
        | none => rfl
        | some n =>
          cases n with
          | ofNat n =>
            have h0 : ¬ ((n : ℤ) < 0) := by omega
            simp only [bumpsFor, Int.ofNat_eq_natCast, h0, if_false, Int.toNat_natCast]
            cases bumpsOf tapeBumps n <;> rfl
          | negSucc n =>
            have : Int.negSucc n < 0 := Int.negSucc_lt_zero n
            simp only [bumpsFor, this, if_true]
            rfl
      · rfl

theorem mask_runs (ho : Orderly w U) {t : Tile A S P} {e : Entry P} (ht : U t) (he : e ∈ t.entries) :
    Runs w U Eq (maskP w t e) (freshMask w t e) := by
  rw [freshMask_eq]
  unfold maskP
  by_cases hb : t.tapeBumps = true
  · simp only [hb, if_true]
    refine (read_any e.bmask).bind fun v a hv => ?_
    have hv' : v = a ∨ ∃ bumps, bumpsFor e.src.ccdnum = .ok bumps ∧ v = a.mapBits (setTapeBumps bumps) := by
      rcases hv with rfl | ⟨t', e', b', ht', he', hb', hl', hc', rfl⟩
      · exact Or.inl rfl
      · obtain ⟨-, hccd⟩ := ho.sameMasking t' e' t e ht' he' ht he hb' hl'
        exact Or.inr ⟨b', hccd ▸ hc', rfl⟩
    have hm : Agree (fun m m' => m = m' ∨ ∃ bumps, bumpsFor e.src.ccdnum = .ok bumps ∧ m = setTapeBumps bumps m')
        v.asMask a.asMask := by
      rcases hv' with rfl | ⟨bumps, hc, rfl⟩
      · cases v <;> simp [Arr.asMask, Agree]
      · cases a with
        | num a => simp [Arr.asMask, Arr.mapBits, Agree]
        | bits m => exact Or.inr ⟨bumps, hc, rfl⟩
    refine (Runs.lift hm).bind fun m m' hmm => (Runs.liftEq _).bindEq fun bumps hc =>
      (mutate_runs ho ht he hb hc).bindEq fun _ _ => Runs.pure ?_
    rcases hmm with rfl | ⟨b', hc', rfl⟩
    · rfl
    · rw [hc] at hc'
      cases hc'
      exact setTapeBumps_idem bumps (bumpsFor_flags hc) m'
  · simp only [hb]
    refine (read_other fun t' e' ht' he' hb' hl => ?_).bindEq fun a _ => (Runs.liftEq _).bindEq fun m _ => Runs.pure rfl
    exact hb (ho.sameMasking t' e' t e ht' he' ht he hb' hl).1

theorem freshNoise_eq (e : Entry P) (seed : Nat) : freshNoise w e seed = (do
    let a ← w.original e.weight
    noiseField w a.asNum (w.zpScale e.magzp) seed) := by
  unfold freshNoise
  cases w.original e.weight with
  | error x => rfl
  | ok a =>
    simp only [ok_bind, noiseField]
    cases maxPositive a.asNum with
    | error x => rfl
    | ok top =>
      simp only [ok_bind]
      show Except.ok _ = Except.ok _
      congr 2
      congr 1
      funext r c
      by_cases h : a.asNum.px r c ≤ 0
      · rw [if_pos h, if_neg (not_lt.2 h)]
      · rw [if_neg h, if_pos (not_le.1 h)]

theorem noise_runs (ho : Orderly w U) {t : Tile A S P} {e : Entry P} (ht : U t) (he : e ∈ t.entries) (seed : Nat) :
    Runs w U Eq (noiseP w t e seed) (freshNoise w e seed) := by
  rw [freshNoise_eq]
  have hgo : Runs w U Eq (do
      let wgt ← readP w e.weight
      PM.lift (noiseField w wgt.asNum (w.zpScale e.magzp) seed)) (do
      let a ← w.original e.weight
      noiseField w a.asNum (w.zpScale e.magzp) seed) := by
    refine (read_other fun t' e' ht' he' hb' hl => ?_).bindEq fun a _ => Runs.liftEq _
    exact (ho.maskOnly t' e' t e ht' he' ht he hb').2.2 hl
  unfold noiseP
  cases hw : e.weight with
  | mem n => rw [hw] at hgo; exact hgo
  | file k =>
    rw [hw] at hgo
    refine Runs.cached (c := .noise) hgo (fun v hv => ?_) ?_
    · cases ha : w.files k with
      | error x => simp only [ProcWorld.original, ha] at hv; cases hv
      | ok a => simp only [ProcWorld.original, ha, ok_bind] at hv; exact ⟨a, ha, hv⟩
    · rintro v ⟨a, ha, hv⟩
      simp only [ProcWorld.original, ha, ok_bind]
      exact hv

theorem noises_runs (ho : Orderly w U) {t : Tile A S P} {e : Entry P} (ht : U t) (he : e ∈ t.entries)
    (seeds : List Nat) : Runs w U Eq (noisesP w t e seeds) (seeds.mapM (freshNoise w e)) := by
  induction seeds with
  | nil => exact Runs.pure rfl
  | cons s l ih =>
    rw [List.mapM_cons]
    exact (noise_runs ho ht he s).bindEq fun a _ => ih.bindEq fun b _ => Runs.pure rfl

theorem setSlice_runs (ho : Orderly w U) {t : Tile A S P} {e : Entry P} (ht : U t) (he : e ∈ t.entries)
    (b : Bounds ℤ) : Runs w U Eq (setSliceP w t e b)
      (orRaise (({} : SEObj).setSlice (freshReads w t e) (w.zpScale e.magzp) b)) := by
  unfold setSliceP
  have hi : Runs w U Eq (readP w e.image) (w.original e.image) :=
    read_other fun t' e' ht' he' hb' hl => (ho.maskOnly t' e' t e ht' he' ht he hb').1 hl
  have hk : Runs w U Eq (readP w e.bkg) (w.original e.bkg) :=
    read_other fun t' e' ht' he' hb' hl => (ho.maskOnly t' e' t e ht' he' ht he hb').2.1 hl
  have hw : Runs w U Eq (readP w e.weight) (w.original e.weight) :=
    read_other fun t' e' ht' he' hb' hl => (ho.maskOnly t' e' t e ht' he' ht he hb').2.2 hl
  by_cases hbox : b.colmax - b.colmin + 1 = b.rowmax - b.rowmin + 1
  · have hpure : orRaise (({} : SEObj).setSlice (freshReads w t e) (w.zpScale e.magzp) b) = (do
        let im ← w.original e.image
        let bkg ← w.original e.bkg
        if im.asNum.nrow ≠ bkg.asNum.nrow ∨ im.asNum.ncol ≠ bkg.asNum.ncol then .error .valueError
        else
          let bm ← freshMask w t e
          let wgt ← w.original e.weight
          let ns ← e.noiseSeeds.mapM (freshNoise w e)
          orRaise (({} : SEObj).setSlice
            ⟨.ok im.asNum, .ok bkg.asNum, .ok bm, .ok wgt.asNum, .ok ns⟩ (w.zpScale e.magzp) b)) := by
      unfold SEObj.setSlice
      simp only [hbox, freshReads, ne_eq, not_true_eq_false, if_false]
      cases w.original e.image with
      | error x => rfl
      | ok im =>
        cases w.original e.bkg with
        | error x => rfl
        | ok bkg =>
          simp only [Except.map, ok_bind]
          by_cases hs : ¬im.asNum.nrow = bkg.asNum.nrow ∨ ¬im.asNum.ncol = bkg.asNum.ncol
          · simp only [hs, if_true, orRaise]
          · simp only [hs, if_false]
            cases freshMask w t e with
            | error x => rfl
            | ok bm =>
              cases w.original e.weight with
              | error x => rfl
              | ok wgt =>
                cases e.noiseSeeds.mapM (freshNoise w e) with
                | error x => rfl
                | ok ns => rfl
    rw [if_neg (not_not.2 hbox), hpure]
    refine hi.bindEq fun im _ => hk.bindEq fun bkg _ => ?_
    split
    · exact Runs.liftEq _
    · exact (mask_runs ho ht he).bindEq fun bm _ => hw.bindEq fun wgt _ =>
        (noises_runs ho ht he _).bindEq fun ns _ => Runs.liftEq _
  · rw [if_pos hbox]
    unfold SEObj.setSlice
    simp only [hbox, ne_eq, not_false_eq_true, if_true]
    exact Runs.liftEq _

end
end Pizza
