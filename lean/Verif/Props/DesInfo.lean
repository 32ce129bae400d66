import Verif.Spec.DesInfo
import Mathlib.Data.Nat.Bitwise
import Mathlib.Tactic.Linarith

/-!
Piff cuts (C80) and flagging of images (C79).
-/

namespace Pizza

theorem testBit_orIf (c : Bool) (j flags k : Nat) :
    (orIf c (2 ^ j) flags).testBit k = (flags.testBit k || (c && decide (k = j))) := by
  unfold orIf
  split
  · rename_i h
    simp [h, Nat.testBit_or, Nat.testBit_two_pow, eq_comm]
  · rename_i h
    simp at h
    simp [h]

theorem cutFwhm_iff {c : PiffCuts} {p : PiffInfo} : cutFwhm c p = true ↔ Violates c p 1 := by
  constructor
  · intro h
    unfold cutFwhm at h
    cases hc : c.maxFwhmCen with
    | none => simp [hc] at h
    | some m =>
      cases hp : p.fwhmCen with
      | none => simp [hc, hp, Stat.ge] at h
      | some x => exact .fwhm m x hc hp (by simpa [hc, hp, Stat.ge] using h)
  · intro h
    cases h with | fwhm m x hc hp h => simp [cutFwhm, hc, hp, Stat.ge, h]

theorem cutStd_iff {c : PiffCuts} {p : PiffInfo} : cutStd c p = true ↔ Violates c p 2 := by
  constructor
  · intro h
    unfold cutStd at h
    cases hc : c.maxCcdTStdFac with
    | none => simp [hc] at h
    | some f =>
      cases hs : p.starTStd with
      | none => simp [hc, hs, Stat.ge] at h
      | some s =>
        cases hm : p.starTMean with
        | none => simp [hc, hs, hm, Stat.ge, Stat.mul] at h
        | some m => exact .std f s m hc hs hm (by simpa [hc, hs, hm, Stat.ge, Stat.mul] using h)
  · intro h
    cases h with | std f s m hc hs hm h => simp [cutStd, hc, hs, hm, Stat.ge, Stat.mul, h]

theorem cutNstar_iff {c : PiffCuts} {p : PiffInfo} : cutNstar c p = true ↔ Violates c p 3 := by
  constructor
  · intro h
    unfold cutNstar at h
    cases hc : c.minNstar with
    | none => simp [hc] at h
    | some n => exact .nstar n hc (by simpa [hc] using h)
  · intro h
    cases h with | nstar n hc h => simp [cutNstar, hc, h]

theorem cutMean_iff {c : PiffCuts} {p : PiffInfo} : cutMean c p = true ↔ Violates c p 4 := by
  constructor
  · intro h
    unfold cutMean at h
    cases hc : c.maxExpTMeanFac with
    | none => simp [hc] at h
    | some f =>
      cases hm : p.starTMean with
      | none => simp [hc, hm, Stat.ge, Stat.absSub] at h
      | some m =>
        cases he : p.expStarTMean with
        | none => simp [hc, hm, he, Stat.ge, Stat.absSub] at h
        | some e =>
          cases hs : p.expStarTStd with
          | none => simp [hc, hm, he, hs, Stat.ge, Stat.absSub, Stat.mul] at h
          | some s =>
            exact .mean f m e s hc hm he hs (by simpa [hc, hm, he, hs, Stat.ge, Stat.absSub, Stat.mul] using h)
  · intro h
    cases h with | mean f m e s hc hm he hs h => simp [cutMean, hc, hm, he, hs, Stat.ge, Stat.absSub, Stat.mul, h]

/-- **C80** Bit `k` of the Piff flags is set iff cut `k` is switched on and violated. -/
theorem C80_bits (c : PiffCuts) (p : PiffInfo) (k : Nat) :
    (computePiffFlags c p).testBit k = true ↔ Violates c p k := by
  simp only [computePiffFlags, testBit_orIf, Nat.zero_testBit, Bool.false_or, Bool.or_eq_true,
    Bool.and_eq_true, decide_eq_true_eq]
  rw [cutFwhm_iff, cutStd_iff, cutNstar_iff, cutMean_iff]
  constructor
  · rintro ((((⟨h, rfl⟩ | ⟨h, rfl⟩) | ⟨h, rfl⟩) | ⟨h, rfl⟩) | ⟨h, rfl⟩)
    · exact .desdm h
    all_goals exact h
  · intro h
    have h' := h
    cases h with
    | desdm h => simp [h]
    | fwhm => simp [h']
    | std => simp [h']
    | nstar => simp [h']
    | mean => simp [h']

/-- **C80** The flags are zero iff no cut is violated. -/
theorem C80_zero (c : PiffCuts) (p : PiffInfo) :
    computePiffFlags c p = 0 ↔ ∀ k, ¬ Violates c p k := by
  simp only [← C80_bits]
  constructor
  · intro h k; simp [h]
  · intro h
    apply Nat.eq_of_testBit_eq
    intro k
    simpa using h k

/-- **C80** Looser limits never add a bit, for non-negative sizes and spreads. -/
theorem C80_loosen (a b : PiffCuts) (p : PiffInfo) (h : Looser a b)
    (hmean : ∀ m, p.starTMean = some m → 0 ≤ m) (hstd : ∀ s, p.expStarTStd = some s → 0 ≤ s) (k : Nat)
    (hk : (computePiffFlags b p).testBit k = true) : (computePiffFlags a p).testBit k = true := by
  rw [C80_bits] at hk ⊢
  cases hk with
  | desdm h => exact .desdm h
  | fwhm m x h1 h2 h3 =>
    rcases h.fwhm with h' | ⟨x', y', e1, e2, hle⟩
    · rw [h1] at h'; cases h'
    · rw [h1] at e2; obtain rfl := Option.some.inj e2
      exact .fwhm x' x e1 h2 (hle.trans h3)
  | std f s m h1 h2 h3 h4 =>
    rcases h.std with h' | ⟨x', y', e1, e2, hle⟩
    · rw [h1] at h'; cases h'
    · rw [h1] at e2; obtain rfl := Option.some.inj e2
      exact .std x' s m e1 h2 h3 ((mul_le_mul_of_nonneg_right hle (hmean m h3)).trans h4)
  | nstar n h1 h2 =>
    rcases h.nstar with h' | ⟨x', y', e1, e2, hle⟩
    · rw [h1] at h'; cases h'
    · rw [h1] at e2; obtain rfl := Option.some.inj e2
      exact .nstar x' e1 (lt_of_lt_of_le h2 hle)
  | mean f m e s h1 h2 h3 h4 h5 =>
    rcases h.mean with h' | ⟨x', y', e1, e2, hle⟩
    · rw [h1] at h'; cases h'
    · rw [h1] at e2; obtain rfl := Option.some.inj e2
      exact .mean x' m e s e1 h2 h3 h4 ((mul_le_mul_of_nonneg_right hle (hstd s h4)).trans h5)

/-- The default cuts (_piff_tools.py:97-113). -/
def exCuts : PiffCuts := ⟨some (36 / 10), some 25, some 4, some (3 / 10)⟩

/-- A model with too few stars and a large FWHM. -/
def exPiff : PiffInfo := ⟨0, some 4, some (1 / 10), some 1, 10, some 1, some (1 / 10)⟩

example : computePiffFlags exCuts exPiff = 2 ^ 1 + 2 ^ 3 := by decide +kernel

example : Violates exCuts exPiff 1 := .fwhm (36 / 10) 4 rfl rfl (by norm_num)

example : Looser exCuts ⟨some 5, some 25, none, some 1⟩ :=
  ⟨Or.inr ⟨_, _, rfl, rfl, by norm_num⟩, Or.inr ⟨_, _, rfl, rfl, by norm_num⟩, Or.inl rfl,
    Or.inr ⟨_, _, rfl, rfl, le_refl _⟩⟩

/-- The sign conditions of `C80_loosen` are needed: with a negative mean size a larger factor adds a
bit. -/
theorem C80_loosen_negative_mean : ∃ a b p, Looser a b ∧ (computePiffFlags a p).testBit 2 = false ∧
    (computePiffFlags b p).testBit 2 = true := by
  refine ⟨⟨none, none, none, some 1⟩, ⟨none, none, none, some 2⟩,
    ⟨0, none, some (-3 / 2), some (-1), 0, none, none⟩,
    ⟨Or.inl rfl, Or.inr ⟨1, 2, rfl, rfl, by norm_num⟩, Or.inl rfl, Or.inl rfl⟩, ?_, ?_⟩ <;> decide +kernel

/-- A model without any finite statistic passes all cuts on them. -/
theorem C80_nan_passes (c : PiffCuts) (n : ℤ) (hn : ∀ m, c.minNstar = some m → m ≤ n) :
    computePiffFlags c ⟨0, none, none, none, n, none, none⟩ = 0 := by
  rw [C80_zero]
  intro k hk
  cases hk with
  | desdm h => exact h rfl
  | fwhm _ _ _ h => cases h
  | std _ _ _ _ h => cases h
  | nstar m h1 h2 => exact absurd h2 (not_lt.2 (hn m h1))
  | mean _ _ _ _ _ h => cases h

/-! ### C79 -/

section
variable {R : Type}

theorem flagPiff_flags (cfg : FlagCfg) (ii : FlagSrc R) :
    (flagPiff cfg ii).1 = { ii with imageFlags := ii.imageFlags ||| (piffFlagsOf cfg ii).getD 0 } := by
  unfold flagPiff
  cases piffFlagsOf cfg ii with
  | none => simp
  | some f => simp

theorem flagPiff_err (cfg : FlagCfg) (ii : FlagSrc R) :
    (flagPiff cfg ii).2 = if (piffFlagsOf cfg ii).getD 0 ≠ 0 ∧ ¬ (ii.hasPath = true ∧ ii.hasFilename = true)
      then some .keyError else none := by
  unfold flagPiff
  cases piffFlagsOf cfg ii with
  | none => simp
  | some f => rfl

theorem piffFlagsOf_bits (cfg : FlagCfg) (ii : FlagSrc R) (k : Nat) :
    ((piffFlagsOf cfg ii).getD 0).testBit k = true ↔
      ∃ c p, cfg.piffCuts = some c ∧ ii.piffInfo = some p ∧ Violates c p k := by
  unfold piffFlagsOf
  cases hc : cfg.piffCuts with
  | none => simp
  | some c =>
    cases hp : ii.piffInfo with
    | none => simp
    | some p => simp [C80_bits]

theorem flagOne_ok {cfg : FlagCfg} {ii jj : FlagSrc R} (h : flagOne (some cfg) ii = (jj, none)) :
    SameButFlags jj ii ∧ ∀ k, jj.imageFlags.testBit k = true ↔ ii.imageFlags.testBit k = true ∨ Adds cfg ii k := by
  unfold flagOne at h
  dsimp only at h
  have hf := flagPiff_flags cfg ii
  cases he : flagPiff cfg ii with
  | mk a o =>
    rw [he] at h hf
    cases o with
    | some e => simp at h
    | none =>
      dsimp only at h hf
      have hj : jj = flagCcd cfg a := (Prod.mk.inj h).1.symm
      subst hj
      subst hf
      have hp := fun k => piffFlagsOf_bits cfg ii k
      unfold flagCcd
      cases hl : cfg.ignoredCcds with
      | none =>
        refine ⟨⟨rfl, rfl, rfl, rfl, rfl⟩, fun k => ?_⟩
        dsimp only
        rw [Nat.testBit_or, Bool.or_eq_true, hp]
        refine or_congr_right ⟨fun ⟨c, p, a, b, v⟩ => .piff c p k a b v, fun h => ?_⟩
        cases h with
        | piff c p k a b v => exact ⟨c, p, a, b, v⟩
        | ccd l a => rw [hl] at a; cases a
      | some l =>
        dsimp only
        split
        · rename_i hm
          refine ⟨⟨rfl, rfl, rfl, rfl, rfl⟩, fun k => ?_⟩
          dsimp only
          rw [Nat.testBit_or, Nat.testBit_or, Bool.or_eq_true, Bool.or_eq_true, hp, or_assoc]
          refine or_congr_right ⟨fun h => ?_, fun h => ?_⟩
          · rcases h with ⟨c, p, a, b, v⟩ | h
            · exact .piff c p k a b v
            · have : k = 30 := by
                rw [show IGNORED_CCD.toNat = 2 ^ 30 from rfl, Nat.testBit_two_pow] at h
                exact (of_decide_eq_true h).symm
              exact this ▸ .ccd l hl hm
          · cases h with
            | piff c p k a b v => exact Or.inl ⟨c, p, a, b, v⟩
            | ccd l a => exact Or.inr (by decide)
        · rename_i hm
          refine ⟨⟨rfl, rfl, rfl, rfl, rfl⟩, fun k => ?_⟩
          dsimp only
          rw [Nat.testBit_or, Bool.or_eq_true, hp]
          refine or_congr_right ⟨fun ⟨c, p, a, b, v⟩ => .piff c p k a b v, fun h => ?_⟩
          cases h with
          | piff c p k a b v => exact ⟨c, p, a, b, v⟩
          | ccd l' a b =>
            rw [hl] at a
            obtain rfl := Option.some.inj a
            exact absurd b hm

/-- **C79** On normal return every entry keeps everything but its flags, and a bit of its flags is set
iff it was set before or must be added. -/
theorem C79_flags (cfg : FlagCfg) (l l' : List (FlagSrc R)) (h : flagDataInInfo (some cfg) l = (l', none)) :
    List.Forall₂ (fun jj ii => SameButFlags jj ii ∧
      ∀ k, jj.imageFlags.testBit k = true ↔ ii.imageFlags.testBit k = true ∨ Adds cfg ii k) l' l := by
  induction l generalizing l' with
  | nil =>
    simp only [flagDataInInfo, Prod.mk.injEq, and_true] at h
    rw [← h]
    exact .nil
  | cons ii l ih =>
    unfold flagDataInInfo at h
    cases he : flagOne (some cfg) ii with
    | mk jj o =>
      rw [he] at h
      cases o with
      | some e => simp at h
      | none =>
        dsimp only at h
        obtain ⟨e1, e2⟩ := Prod.mk.inj h
        rw [← e1]
        exact .cons (flagOne_ok he) (ih _ (by rw [← e2]))

theorem adds_congr {cfg : FlagCfg} {a b : FlagSrc R} (h : SameButFlags a b) (k : Nat) :
    Adds cfg a k ↔ Adds cfg b k := by
  constructor
  · intro ha
    cases ha with
    | piff c p k x y v => exact .piff c p k x (h.piffInfo ▸ y) v
    | ccd l x y => exact .ccd l x (h.ccdnum ▸ y)
  · intro ha
    cases ha with
    | piff c p k x y v => exact .piff c p k x (h.piffInfo.symm ▸ y) v
    | ccd l x y => exact .ccd l x (h.ccdnum.symm ▸ y)

/-- A source with non-zero Piff flags and without path or file name. -/
def Unnamed (cfg : FlagCfg) (ii : FlagSrc R) : Prop :=
  (∃ c p k, cfg.piffCuts = some c ∧ ii.piffInfo = some p ∧ Violates c p k) ∧
    ¬ (ii.hasPath = true ∧ ii.hasFilename = true)

theorem flagOne_err (cfg : FlagCfg) (ii : FlagSrc R) :
    (flagOne (some cfg) ii).2 = none ↔ ¬ Unnamed cfg ii := by
  have hz : (piffFlagsOf cfg ii).getD 0 ≠ 0 ↔
      ∃ c p k, cfg.piffCuts = some c ∧ ii.piffInfo = some p ∧ Violates c p k := by
    constructor
    · intro h
      obtain ⟨k, hk⟩ := Nat.exists_testBit_of_ne_zero h
      obtain ⟨c, p, h1, h2, h3⟩ := (piffFlagsOf_bits cfg ii k).1 hk
      exact ⟨c, p, k, h1, h2, h3⟩
    · rintro ⟨c, p, k, h1, h2, h3⟩ h0
      have := (piffFlagsOf_bits cfg ii k).2 ⟨c, p, h1, h2, h3⟩
      simp [h0] at this
  have he := flagPiff_err cfg ii
  unfold flagOne Unnamed
  dsimp only
  rw [← hz]
  cases hx : flagPiff cfg ii with
  | mk a o =>
    rw [hx] at he
    dsimp only at he ⊢
    by_cases hc : (piffFlagsOf cfg ii).getD 0 ≠ 0 ∧ ¬ (ii.hasPath = true ∧ ii.hasFilename = true)
    · rw [if_pos hc] at he
      subst he
      exact ⟨fun h => (nomatch h), fun h => absurd hc h⟩
    · rw [if_neg hc] at he
      subst he
      simp only [hc, not_false_eq_true]

/-- **C79** It returns normally iff there is nothing to do or there is a `single_epoch` section and every
source that the Piff cuts flag has a path and a file name. -/
theorem C79_returns (cfg : Option FlagCfg) (l : List (FlagSrc R)) :
    (flagDataInInfo cfg l).2 = none ↔ l = [] ∨ ∃ c, cfg = some c ∧ ∀ ii ∈ l, ¬ Unnamed c ii := by
  induction l with
  | nil => simp [flagDataInInfo]
  | cons ii l ih =>
    unfold flagDataInInfo
    cases cfg with
    | none => simp [flagOne]
    | some c =>
      have he := flagOne_err c ii
      cases hx : flagOne (some c) ii with
      | mk jj o =>
        rw [hx] at he
        cases o with
        | some e =>
          have hu : Unnamed c ii := by
            by_contra hn
            exact absurd (he.2 hn) (by simp)
          simp [hu]
        | none =>
          have hu : ¬ Unnamed c ii := he.1 rfl
          dsimp only
          rw [ih]
          simp only [reduceCtorEq, false_or, Option.some.injEq, exists_eq_left', List.mem_cons, forall_eq_or_imp]
          constructor
          · rintro (rfl | h)
            · exact ⟨hu, by simp⟩
            · exact ⟨hu, h⟩
          · exact fun h => Or.inr h.2

/-- **C79** Flagging twice is the same as flagging once. -/
theorem C79_idempotent (cfg : FlagCfg) (l l' : List (FlagSrc R))
    (h : flagDataInInfo (some cfg) l = (l', none)) : flagDataInInfo (some cfg) l' = (l', none) := by
  have h1 := C79_flags cfg l l' h
  have hret := (C79_returns (some cfg) l).1 (by rw [h])
  have hun : ∀ ii ∈ l, ¬ Unnamed cfg ii := by
    rcases hret with rfl | ⟨c, hc, hu⟩
    · simp
    · obtain rfl := Option.some.inj hc
      exact hu
  have hun' : ∀ ii ∈ l', ¬ Unnamed cfg ii := by
    intro jj hj hu
    obtain ⟨i, hi, rfl⟩ := List.mem_iff_getElem.1 hj
    have hi' : i < l.length := h1.length_eq ▸ hi
    obtain ⟨hs, -⟩ := h1.get hi hi'
    refine hun l[i] (List.getElem_mem _) ⟨?_, ?_⟩
    · obtain ⟨⟨c, p, k, x, y, v⟩, -⟩ := hu
      exact ⟨c, p, k, x, hs.piffInfo ▸ y, v⟩
    · intro hp
      exact hu.2 ⟨hs.hasPath.trans hp.1, hs.hasFilename.trans hp.2⟩
  have hok : (flagDataInInfo (some cfg) l').2 = none :=
    (C79_returns (some cfg) l').2 (Or.inr ⟨cfg, rfl, hun'⟩)
  have h2 := C79_flags cfg l' (flagDataInInfo (some cfg) l').1 (by rw [← hok])
  refine Prod.ext ?_ hok
  refine List.ext_getElem h2.length_eq fun i ha hb => ?_
  have hc : i < l.length := h1.length_eq ▸ hb
  obtain ⟨s2, b2⟩ := h2.get ha hb
  obtain ⟨s1, b1⟩ := h1.get hb hc
  have hflag : (flagDataInInfo (some cfg) l').1[i].imageFlags = l'[i].imageFlags := by
    apply Nat.eq_of_testBit_eq
    intro k
    rw [Bool.eq_iff_iff]
    rw [show (flagDataInInfo (some cfg) l').1[i].imageFlags.testBit k = true ↔ _ from b2 k]
    constructor
    · rintro (h | h)
      · exact h
      · exact (b1 k).2 (Or.inr ((adds_congr s1 k).1 h))
    · exact Or.inl
  obtain ⟨q1, q2, q3, q4, q5⟩ := s2
  cases hx : (flagDataInInfo (some cfg) l').1[i] with
  | mk f p c a b r =>
    cases hy : l'[i] with
    | mk f' p' c' a' b' r' =>
      simp only [List.get_eq_getElem, hx, hy] at q1 q2 q3 q4 q5 hflag
      subst q1 q2 q3 q4 q5 hflag
      rfl

end

/-- Two sources, the first with bad Piff statistics, the second on an ignored CCD. -/
def exFlagSrcs : List (FlagSrc String) :=
  [⟨0, some exPiff, 7, true, true, "a"⟩, ⟨1, none, 31, true, true, "b"⟩]

/-- Cuts and two ignored CCDs. -/
def exFlagCfg : FlagCfg := ⟨some exCuts, some [2, 31]⟩

example : (flagDataInInfo (some exFlagCfg) exFlagSrcs).2 = none ∧
    (flagDataInInfo (some exFlagCfg) exFlagSrcs).1.map (·.imageFlags) = [2 ^ 1 + 2 ^ 3, 2 ^ 30 + 1] := by
  decide +kernel

/-- Without the section `single_epoch` there is a KeyError. -/
example : (flagDataInInfo none exFlagSrcs).2 = some .keyError := by decide +kernel

/-- A flagged source without a path: a KeyError, and the second source is not looked at. -/
example : (flagDataInInfo (some exFlagCfg) (exFlagSrcs.map fun s => { s with hasPath := false })).2 =
    some .keyError := by decide +kernel

/-- `C80_loosen`: bit 1 of the flags for the looser cuts is there for the stricter ones. -/
example := C80_loosen exCuts ⟨some 5, some 25, none, some 1⟩ ⟨0, some 6, some (1 / 10), some 1, 10, none, none⟩
  ⟨Or.inr ⟨_, _, rfl, rfl, by norm_num⟩, Or.inr ⟨_, _, rfl, rfl, by norm_num⟩, Or.inl rfl,
    Or.inr ⟨_, _, rfl, rfl, le_refl _⟩⟩
  (by intro m h; cases h; norm_num) (by intro s h; cases h) 1 (by decide +kernel)

/-- `C80_nan_passes`: enough stars, no statistics. -/
example : computePiffFlags exCuts ⟨0, none, none, none, 30, none, none⟩ = 0 :=
  C80_nan_passes exCuts 30 (by intro m h; cases h; norm_num)

/-- `C79_flags` and `C79_idempotent` for the two sources. -/
example := And.intro
  (C79_flags exFlagCfg exFlagSrcs _ (Prod.ext rfl (by decide +kernel)))
  (C79_idempotent exFlagCfg exFlagSrcs _ (Prod.ext rfl (by decide +kernel)))

end Pizza
