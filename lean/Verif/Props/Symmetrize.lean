import Verif.Model.Symmetrize
import Verif.Lemmas.Flags
import Mathlib.Logic.Function.Iterate
import Mathlib.Tactic.Tauto
import Mathlib.Tactic.IntervalCases

/-!
Properties C16, C17, C18, C19: symmetrisation of masks and weights.
-/

namespace Pizza

/-- Flag `k` is selected by `sym_flags` (None selects everything) (specification). -/
def Selected (symFlags : Option (BitVec 32)) (k : Nat) : Prop :=
  ∀ f, symFlags = some f → f.getLsbD k = true

/-- Pixel `(r, c)` is protected from symmetrisation by the mask (specification). -/
def Protected (noSym : Option (Img Bool)) (r c : Nat) : Prop :=
  ∃ m, noSym = some m ∧ m.px r c = true

theorem symAllowed_iff (noSym : Option (Img Bool)) (r c : Nat) :
    symAllowed noSym r c = true ↔ ¬ Protected noSym r c := by
  cases noSym <;> simp [symAllowed, Protected]

theorem anyPix_iff (nrow ncol : Nat) (p : Nat → Nat → Bool) :
    anyPix nrow ncol p = true ↔ ∃ r < nrow, ∃ c < ncol, p r c = true := by
  simp only [anyPix, anyLt_iff]

theorem carried_iff {n r c i j : Nat} (hi : i < n) (hj : j < n) :
    (r < n ∧ c < n ∧ CarriedTo n r c i j) ↔ r = j ∧ c = n - 1 - i := by
  unfold CarriedTo
  constructor
  · rintro ⟨_, _, h1, h2⟩; omega
  · rintro ⟨rfl, rfl⟩; refine ⟨hj, by omega, by omega, by omega⟩

/-- C16: the quarter-turn symmetrisation of a square mask sets exactly the selected flags of
the unprotected pixel that the rotation carries to each pixel, and clears nothing. -/
theorem C16_bmask_iff {A : Type} (rotate : A → Img ℚ → Img ℚ) (bmask : Img (BitVec 32))
    (noSym : Option (Img Bool)) (symFlags : Option (BitVec 32)) (hsq : bmask.nrow = bmask.ncol) :
    ∃ out, symmetrizeBmask rotate bmask none noSym symFlags = .ok out ∧
      out.nrow = bmask.nrow ∧ out.ncol = bmask.ncol ∧
      ∀ i < bmask.nrow, ∀ j < bmask.nrow, ∀ k < 32,
        ((out.px i j).getLsbD k = true ↔
          (bmask.px i j).getLsbD k = true ∨
          ∃ r c, (r < bmask.nrow ∧ c < bmask.nrow ∧ CarriedTo bmask.nrow r c i j) ∧
            (bmask.px r c).getLsbD k = true ∧ Selected symFlags k ∧ ¬ Protected noSym r c) := by
  unfold symmetrizeBmask
  rw [if_neg (not_not.2 hsq)]
  refine ⟨_, rfl, rfl, rfl, ?_⟩
  intro i hi j hj k hk
  have e : (∃ r c, (r < bmask.nrow ∧ c < bmask.nrow ∧ CarriedTo bmask.nrow r c i j) ∧
            (bmask.px r c).getLsbD k = true ∧ Selected symFlags k ∧ ¬ Protected noSym r c) ↔
      ((bmask.px j (bmask.nrow - 1 - i)).getLsbD k = true ∧ Selected symFlags k ∧
        ¬ Protected noSym j (bmask.nrow - 1 - i)) := by
    constructor
    · rintro ⟨r, c, h1, h2⟩
      obtain ⟨rfl, rfl⟩ := (carried_iff hi hj).1 h1
      exact h2
    · intro h
      exact ⟨_, _, (carried_iff hi hj).2 ⟨rfl, rfl⟩, h⟩
  rw [e]
  simp only [BitVec.getLsbD_or, Bool.or_eq_true]
  apply or_congr Iff.rfl
  cases noSym <;> cases symFlags <;>
    simp only [Img.rot90, Img.map, Selected, Protected, ← hsq, BitVec.getLsbD_and, Bool.and_eq_true,
      Option.some.injEq, forall_eq', exists_eq_left', reduceCtorEq, false_and, exists_false,
      not_false_eq_true, and_true, forall_const, IsEmpty.forall_iff]
  · split <;> simp_all
  · split <;> simp_all

/-- `C16_bmask_iff` on a 5 x 5 mask with a protected column. -/
example (rotate : ℚ → Img ℚ → Img ℚ) := C16_bmask_iff rotate
  ⟨5, 5, fun r c => if r = 1 ∧ c = 2 then 3 else 0⟩ (some ⟨5, 5, fun _ c => c == 0⟩) (some 1) rfl

/-- C16: non-square masks raise ValueError (whatever the angle). -/
theorem C16_nonsquare {A : Type} (rotate : A → Img ℚ → Img ℚ) (bmask : Img (BitVec 32))
    (angle : Option A) (noSym : Option (Img Bool)) (symFlags : Option (BitVec 32))
    (h : bmask.nrow ≠ bmask.ncol) :
    symmetrizeBmask rotate bmask angle noSym symFlags = .error .valueError := by
  simp [symmetrizeBmask, h]

/-- `C16_nonsquare` on a 5 x 4 mask. -/
example (rotate : ℚ → Img ℚ → Img ℚ) :
    symmetrizeBmask rotate ⟨5, 4, fun _ _ => 1⟩ (some 90) none none = .error .valueError :=
  C16_nonsquare rotate _ _ _ _ (by decide)

example : (⟨5, 5, fun _ _ => 1⟩ : Img (BitVec 32)).nrow = 5 ∧ CarriedTo 5 0 0 4 0 := by
  simp [CarriedTo]

open Classical in
/-- C17: a weight becomes zero iff the unprotected pixel carried onto it has weight exactly
zero; all others are unchanged. -/
theorem C17_weight_iff {A : Type} (rotate : A → Img ℚ → Img ℚ) (weight : Img ℚ)
    (noSym : Option (Img Bool)) (hsq : weight.nrow = weight.ncol) :
    ∃ out, symmetrizeWeight rotate weight none noSym = .ok out ∧
      out.nrow = weight.nrow ∧ out.ncol = weight.ncol ∧
      ∀ i < weight.nrow, ∀ j < weight.nrow,
        out.px i j =
          if ∃ r c, (r < weight.nrow ∧ c < weight.nrow ∧ CarriedTo weight.nrow r c i j) ∧
            weight.px r c = 0 ∧ ¬ Protected noSym r c
          then 0 else weight.px i j := by
  have e : ∀ i < weight.nrow, ∀ j < weight.nrow,
      ((∃ r c, (r < weight.nrow ∧ c < weight.nrow ∧ CarriedTo weight.nrow r c i j) ∧
            weight.px r c = 0 ∧ ¬ Protected noSym r c) ↔
      (decide (weight.px j (weight.nrow - 1 - i) = 0) &&
        symAllowed noSym j (weight.nrow - 1 - i)) = true) := by
    intro i hi j hj
    rw [Bool.and_eq_true, symAllowed_iff, decide_eq_true_eq]
    constructor
    · rintro ⟨r, c, h1, h2⟩
      obtain ⟨rfl, rfl⟩ := (carried_iff hi hj).1 h1
      exact h2
    · intro h
      exact ⟨_, _, (carried_iff hi hj).2 ⟨rfl, rfl⟩, h⟩
  unfold symmetrizeWeight
  rw [if_neg (not_not.2 hsq)]
  simp only [Img.rot90, ← hsq]
  split
  · refine ⟨_, rfl, rfl, rfl, ?_⟩
    intro i hi j hj
    simp only [e i hi j hj]
  · rename_i hany
    refine ⟨_, rfl, rfl, hsq.symm, ?_⟩
    intro i hi j hj
    rw [if_neg]
    intro hc
    apply hany
    rw [anyPix_iff]
    exact ⟨i, hi, j, hj, (e i hi j hj).1 hc⟩

/-- `C17_weight_iff` on a 3 x 3 weight with a zero in a corner. -/
example (rotate : ℚ → Img ℚ → Img ℚ) := C17_weight_iff rotate
  ⟨3, 3, fun r c => if r = 0 ∧ c = 0 then 0 else 1⟩ (some ⟨3, 3, fun r _ => r == 2⟩) rfl

/-- C17: non-negative weights never increase, non-square maps raise. -/
theorem C17_never_increases {A : Type} (rotate : A → Img ℚ → Img ℚ) (weight : Img ℚ)
    (angle : Option A) (noSym : Option (Img Bool)) :
    (weight.nrow ≠ weight.ncol → symmetrizeWeight rotate weight angle noSym = .error .valueError) ∧
    (∀ out, symmetrizeWeight rotate weight angle noSym = .ok out →
      ∀ r c, out.px r c = weight.px r c ∨ out.px r c = 0) := by
  constructor
  · intro h; simp [symmetrizeWeight, h]
  · intro out hout r c
    unfold symmetrizeWeight at hout
    split at hout
    · cases hout
    · cases angle with
      | none =>
        simp only at hout
        split at hout <;> · injection hout with h; subst h; simp only; grind
      | some a =>
        simp only at hout
        split at hout
        · split at hout <;> · injection hout with h; subst h; simp only; grind
        · injection hout with h; subst h; simp

example : (⟨3, 3, fun r c => if r = 0 ∧ c = 0 then 0 else 1⟩ : Img ℚ).nrow = 3 ∧
    CarriedTo 3 0 0 2 0 := by simp [CarriedTo]

/-! ### C18 -/

/-- `m` consecutive quarter-turn symmetrisations without protection. -/
def symIter {A : Type} (rotate : A → Img ℚ → Img ℚ) (symFlags : Option (BitVec 32)) :
    Nat → Img (BitVec 32) → Except Err (Img (BitVec 32))
  | 0, b => .ok b
  | m + 1, b => do
    let b' ← symIter rotate symFlags m b
    symmetrizeBmask rotate b' none none symFlags

theorem sym_step {A : Type} (rotate : A → Img ℚ → Img ℚ) (b : Img (BitVec 32))
    (symFlags : Option (BitVec 32)) (hsq : b.nrow = b.ncol) :
    ∃ out, symmetrizeBmask rotate b none none symFlags = .ok out ∧ out.nrow = b.nrow ∧
      out.ncol = b.ncol ∧ ∀ i < b.nrow, ∀ j < b.nrow, ∀ k < 32,
        ((out.px i j).getLsbD k = true ↔ (b.px i j).getLsbD k = true ∨
          ((b.px j (b.nrow - 1 - i)).getLsbD k = true ∧ Selected symFlags k)) := by
  obtain ⟨out, h1, h2, h3, h4⟩ := C16_bmask_iff rotate b none symFlags hsq
  refine ⟨out, h1, h2, h3, ?_⟩
  intro i hi j hj k hk
  rw [h4 i hi j hj k hk]
  apply or_congr Iff.rfl
  constructor
  · rintro ⟨r, c, ha, hb⟩
    obtain ⟨rfl, rfl⟩ := (carried_iff hi hj).1 ha
    exact ⟨hb.1, hb.2.1⟩
  · rintro ⟨ha, hb⟩
    exact ⟨_, _, (carried_iff hi hj).2 ⟨rfl, rfl⟩, ha, hb, by simp [Protected]⟩

/-- C18: three applications give a mask whose selected flags are invariant under the quarter
turn; a selected flag is set exactly at the pixels to which some number of quarter turns carries a
pixel of the original that has it, the other flags are as they were; any further application changes
nothing. -/
theorem C18_three_fold_closure {A : Type} (rotate : A → Img ℚ → Img ℚ) (b : Img (BitVec 32))
    (symFlags : Option (BitVec 32)) (hsq : b.nrow = b.ncol) :
    ∃ b3, symIter rotate symFlags 3 b = .ok b3 ∧ b3.nrow = b.nrow ∧ b3.ncol = b.nrow ∧
      (∀ k < 32, Selected symFlags k → ∀ r c i j, r < b.nrow → c < b.nrow → i < b.nrow →
        j < b.nrow → CarriedTo b.nrow r c i j →
        (b3.px r c).getLsbD k = (b3.px i j).getLsbD k) ∧
      (∀ k < 32, ¬ Selected symFlags k → ∀ i < b.nrow, ∀ j < b.nrow,
        (b3.px i j).getLsbD k = (b.px i j).getLsbD k) ∧
      (∀ k < 32, Selected symFlags k → ∀ i < b.nrow, ∀ j < b.nrow,
        ((b3.px i j).getLsbD k = true ↔ ∃ r c, r < b.nrow ∧ c < b.nrow ∧
          Turned b.nrow (r, c) (i, j) ∧ (b.px r c).getLsbD k = true)) ∧
      (∀ m, 3 ≤ m → ∃ bm, symIter rotate symFlags m b = .ok bm ∧ bm.Eqv b3) := by
  -- explicit bits after each application
  obtain ⟨b1, e1, r1, c1, p1⟩ := sym_step rotate b symFlags hsq
  obtain ⟨b2, e2, r2, c2, p2⟩ := sym_step rotate b1 symFlags (by rw [r1, c1, hsq])
  obtain ⟨b3, e3, r3, c3, p3⟩ := sym_step rotate b2 symFlags (by rw [r2, c2, r1, c1, hsq])
  have s3 : symIter rotate symFlags 3 b = .ok b3 := by
    have t1 : symIter rotate symFlags 1 b = .ok b1 := e1
    have t2 : symIter rotate symFlags 2 b = .ok b2 := by
      show (symIter rotate symFlags 1 b >>= _) = _
      rw [t1]; exact e2
    show (symIter rotate symFlags 2 b >>= _) = _
    rw [t2]; exact e3
  set n := b.nrow with hn
  rw [r1] at p2
  rw [r2, r1] at p3
  have full : ∀ i < n, ∀ j < n, ∀ k < 32, ((b3.px i j).getLsbD k = true ↔
      (b.px i j).getLsbD k = true ∨ (Selected symFlags k ∧
        ((b.px j (n - 1 - i)).getLsbD k = true ∨ (b.px (n - 1 - i) (n - 1 - j)).getLsbD k = true ∨
          (b.px (n - 1 - j) i).getLsbD k = true))) := by
    intro i hi j hj k hk
    have hi' : n - 1 - i < n := by omega
    have hj' : n - 1 - j < n := by omega
    have back : n - 1 - (n - 1 - i) = i := by omega
    rw [p3 i hi j hj k hk, p2 i hi j hj k hk, p2 j hj _ hi' k hk, p1 i hi j hj k hk,
      p1 j hj _ hi' k hk, p1 _ hi' _ hj' k hk, back]
    tauto
  refine ⟨b3, s3, by rw [r3, r2, r1], by rw [c3, c2, c1, hsq], ?_, ?_, ?_, ?_⟩
  · intro k hk hsel r c i j hr hc hi hj hcar
    obtain ⟨rfl, rfl⟩ := (carried_iff hi hj).1 ⟨hr, hc, hcar⟩
    have back : n - 1 - (n - 1 - i) = i := by omega
    rw [Bool.eq_iff_iff, full r hr _ hc k hk, full i hi r hr k hk, back]
    tauto
  · intro k hk hsel i hi j hj
    rw [Bool.eq_iff_iff, full i hi j hj k hk]
    tauto
  · intro k hk hsel i hi j hj
    have car : ∀ i' j', i' < n → j' < n → CarriedTo n j' (n - 1 - i') i' j' := fun i' j' hi' hj' =>
      ((carried_iff hi' hj').2 ⟨rfl, rfl⟩).2.2
    constructor
    · intro h
      have hi' : n - 1 - i < n := by omega
      have hj' : n - 1 - j < n := by omega
      have back : n - 1 - (n - 1 - i) = i := by omega
      have t1 : Turned n (j, n - 1 - i) (i, j) := .single (car i j hi hj)
      have t2 : Turned n (n - 1 - i, n - 1 - j) (i, j) := .head (car j _ hj hi') t1
      rcases (full i hi j hj k hk).1 h with h | ⟨_, h | h | h⟩
      · exact ⟨i, j, hi, hj, .refl, h⟩
      · exact ⟨_, _, hj, hi', t1, h⟩
      · exact ⟨_, _, hi', hj', t2, h⟩
      · refine ⟨_, _, hj', hi, .head ?_ t2, h⟩
        have := car _ _ hi' hj'
        rwa [back] at this
    · rintro ⟨r, c, hr, hc, ht, hb⟩
      have h0 : (b3.px r c).getLsbD k = true := by
        rw [full r hr c hc k hk]
        exact Or.inl hb
      have : ∀ q : Nat × Nat, Turned n (r, c) q → (q.1 < n ∧ q.2 < n) ∧ (b3.px q.1 q.2).getLsbD k = true := by
        intro q hq
        induction hq with
        | refl => exact ⟨⟨hr, hc⟩, h0⟩
        | @tail p q _ hpq ih =>
          obtain ⟨⟨a1, a2⟩, a3⟩ := ih
          have q1 : q.1 < n ∧ q.2 < n := by
            have := hpq
            unfold CarriedTo at this
            omega
          obtain ⟨e1, e2⟩ := (carried_iff q1.1 q1.2).1 ⟨a1, a2, hpq⟩
          refine ⟨q1, ?_⟩
          have hq' : n - 1 - q.1 < n := by omega
          have back : n - 1 - (n - 1 - q.1) = q.1 := by omega
          rw [e1, e2, full _ q1.2 _ hq' k hk, back] at a3
          rw [full _ q1.1 _ q1.2 k hk]
          tauto
      exact (this (i, j) ht).2
  · intro m hm
    induction m, hm using Nat.le_induction with
    | base => exact ⟨b3, s3, rfl, rfl, fun _ _ _ _ => rfl⟩
    | succ m _ ih =>
      obtain ⟨bm, em, h1, h2, h3⟩ := ih
      have q1 : bm.nrow = n := by rw [h1, r3, r2, r1]
      have q2 : bm.ncol = n := by rw [h2, c3, c2, c1, hsq]
      obtain ⟨bs, es, rs, cs, ps⟩ := sym_step rotate bm symFlags (by rw [q1, q2])
      refine ⟨bs, ?_, by rw [rs, h1], by rw [cs, h2], ?_⟩
      · show (symIter rotate symFlags m b >>= _) = _
        rw [em]; exact es
      · intro i hi j hj
        rw [rs, q1] at hi
        rw [cs, q2] at hj
        rw [q1] at ps
        rw [q1, q2] at h3
        apply BitVec.eq_of_getLsbD_eq
        intro k hk
        have hi' : n - 1 - i < n := by omega
        have back : n - 1 - (n - 1 - i) = i := by omega
        rw [Bool.eq_iff_iff, ps i hi j hj k hk, h3 i hi j hj, h3 j hj _ hi', full i hi j hj k hk,
          full j hj _ hi' k hk, back]
        tauto

/-- `C18_three_fold_closure` on a 4 x 4 mask with one flagged pixel. -/
example (rotate : ℚ → Img ℚ → Img ℚ) := C18_three_fold_closure rotate
  ⟨4, 4, fun r c => if r = 0 ∧ c = 1 then 3 else 0⟩ (some 1) rfl

/-- C18: one application does not in general give a four-fold symmetric mask (a single masked
corner pixel of a 3 x 3 image). -/
theorem C18_one_application_not_symmetric :
    ∃ (b out : Img (BitVec 32)) (r c i j : Nat),
      symmetrizeBmask (fun (_ : Unit) a => a) b none none (some 1) = .ok out ∧
      b.nrow = 3 ∧ b.ncol = 3 ∧ r < 3 ∧ c < 3 ∧ i < 3 ∧ j < 3 ∧ CarriedTo 3 r c i j ∧
      (out.px r c).getLsbD 0 ≠ (out.px i j).getLsbD 0 := by
  refine ⟨⟨3, 3, fun r c => if r = 0 ∧ c = 0 then 1 else 0⟩, _, 2, 0, 2, 2, rfl, ?_⟩
  simp [CarriedTo, Img.rot90, Img.map]

/-! ### C19 -/

theorem hasFlag_twoPow (v : BitVec 32) {k : Nat} (hk : k < 32) :
    hasFlag v (BitVec.twoPow 32 k) = v.getLsbD k := by
  rw [Bool.eq_iff_iff, hasFlag_iff]
  unfold Carries
  constructor
  · rintro ⟨m, hm, h1, h2⟩
    rw [BitVec.getLsbD_twoPow] at h2
    have : k = m := by simpa [hk] using h2
    subst this; exact h1
  · intro h
    exact ⟨k, hk, h, by rw [BitVec.getLsbD_twoPow]; simp [hk]⟩

theorem symSkip_iff (symFlags : Option (BitVec 32)) {k : Nat} (hk : k < 32) :
    symSkip symFlags (BitVec.twoPow 32 k) = true ↔ ¬ Selected symFlags k := by
  unfold symSkip
  cases symFlags with
  | none => simp [Selected]
  | some f =>
    simp only [decide_eq_true_eq, Selected, Option.some.injEq, forall_eq']
    rw [BitVec.and_comm]
    have := hasFlag_twoPow f hk
    unfold hasFlag at this
    rw [← this]
    simp

theorem symBit_bits {A : Type} (rotate : A → Img ℚ → Img ℚ) (a : A) (noSym : Option (Img Bool))
    (symFlags : Option (BitVec 32)) (b : Img (BitVec 32)) (i : Nat) :
    (symmetrizeBit rotate a noSym symFlags b i).nrow = b.nrow ∧
    (symmetrizeBit rotate a noSym symFlags b i).ncol = b.ncol ∧
    ∀ r c k, k < 32 →
      (((symmetrizeBit rotate a noSym symFlags b i).px r c).getLsbD k = true →
        (b.px r c).getLsbD k = true ∨ (k = i ∧ Selected symFlags k)) ∧
      ((b.px r c).getLsbD k = true →
        ((symmetrizeBit rotate a noSym symFlags b i).px r c).getLsbD k = true) := by
  unfold symmetrizeBit
  simp only
  by_cases hs : symSkip symFlags (BitVec.twoPow 32 i) = true
  · rw [if_pos hs]
    exact ⟨rfl, rfl, fun r c k hk => ⟨fun h => Or.inl h, fun h => h⟩⟩
  · rw [if_neg hs]
    by_cases ha : (anyPix b.nrow b.ncol fun r c =>
        hasFlag (b.px r c) (BitVec.twoPow 32 i) && symAllowed noSym r c) = true
    · rw [if_pos ha]
      refine ⟨rfl, rfl, fun r c k hk => ⟨?_, ?_⟩⟩
      · intro h
        dsimp only at h
        split at h
        · rw [BitVec.getLsbD_or, Bool.or_eq_true] at h
          rcases h with h | h
          · exact Or.inl h
          · right
            rw [BitVec.getLsbD_twoPow] at h
            have hki : i = k := by simp at h; exact h.2
            subst hki
            exact ⟨rfl, by rw [symSkip_iff symFlags hk] at hs; exact not_not.1 hs⟩
        · exact Or.inl h
      · intro h
        dsimp only
        split
        · rw [BitVec.getLsbD_or, h]; rfl
        · exact h
    · rw [if_neg ha]
      exact ⟨rfl, rfl, fun r c k hk => ⟨fun h => Or.inl h, fun h => h⟩⟩

/-- Masks produced by `symmetrize_bmask` at any angle keep all bits and only add selected
ones. -/
theorem C19_single_angle_only_adds {A : Type} (rotate : A → Img ℚ → Img ℚ) (b : Img (BitVec 32))
    (angle : Option A) (noSym : Option (Img Bool)) (symFlags : Option (BitVec 32))
    (hsq : b.nrow = b.ncol) :
    ∃ out, symmetrizeBmask rotate b angle noSym symFlags = .ok out ∧ out.nrow = b.nrow ∧
      out.ncol = b.ncol ∧ ∀ r < b.nrow, ∀ c < b.nrow, ∀ k < 32,
      ((out.px r c).getLsbD k = true → (b.px r c).getLsbD k = true ∨ Selected symFlags k) ∧
      ((b.px r c).getLsbD k = true → (out.px r c).getLsbD k = true) := by
  cases angle with
  | none =>
    obtain ⟨out, h1, h2, h3, h4⟩ := C16_bmask_iff rotate b noSym symFlags hsq
    refine ⟨out, h1, h2, h3, fun r hr c hc k hk => ?_⟩
    rw [h4 r hr c hc k hk]
    constructor
    · rintro (h | ⟨_, _, _, _, h, _⟩)
      · exact Or.inl h
      · exact Or.inr h
    · intro h; exact Or.inl h
  | some a =>
    unfold symmetrizeBmask
    rw [if_neg (not_not.2 hsq)]
    refine ⟨_, rfl, ?_⟩
    have gen : ∀ (l : List Nat) (x : Img (BitVec 32)),
        (l.foldl (symmetrizeBit rotate a noSym symFlags) x).nrow = x.nrow ∧
        (l.foldl (symmetrizeBit rotate a noSym symFlags) x).ncol = x.ncol ∧
        ∀ r c k, k < 32 →
          (((l.foldl (symmetrizeBit rotate a noSym symFlags) x).px r c).getLsbD k = true →
            (x.px r c).getLsbD k = true ∨ Selected symFlags k) ∧
          ((x.px r c).getLsbD k = true →
            ((l.foldl (symmetrizeBit rotate a noSym symFlags) x).px r c).getLsbD k = true) := by
      intro l
      induction l with
      | nil => intro x; exact ⟨rfl, rfl, fun r c k hk => ⟨Or.inl, id⟩⟩
      | cons i t ih =>
        intro x
        obtain ⟨s1, s2, s3⟩ := symBit_bits rotate a noSym symFlags x i
        obtain ⟨t1, t2, t3⟩ := ih (symmetrizeBit rotate a noSym symFlags x i)
        simp only [List.foldl_cons]
        refine ⟨by rw [t1, s1], by rw [t2, s2], fun r c k hk => ⟨?_, ?_⟩⟩
        · intro h
          rcases (t3 r c k hk).1 h with h | h
          · rcases (s3 r c k hk).1 h with h | h
            · exact Or.inl h
            · exact Or.inr h.2
          · exact Or.inr h
        · intro h
          exact (t3 r c k hk).2 ((s3 r c k hk).2 h)
    obtain ⟨g1, g2, g3⟩ := gen (List.range 32) b
    exact ⟨g1, g2, fun r _ c _ k hk => g3 r c k hk⟩

/-- `C19_single_angle_only_adds` on a 5 x 5 mask and the angle 45. -/
example (rotate : ℚ → Img ℚ → Img ℚ) := C19_single_angle_only_adds rotate
  ⟨5, 5, fun r c => if r = 1 ∧ c = 2 then 3 else 0⟩ (some 45) none (some 1) rfl

/-- C19, angle case in detail: with an angle, bit `k` is newly set exactly at the pixels where
the rotated indicator image of the unprotected pixels carrying that bit is positive, provided
the bit is selected and some unprotected pixel carries it. -/
theorem C19_angle_bits {A : Type} (rotate : A → Img ℚ → Img ℚ) (b : Img (BitVec 32))
    (a : A) (noSym : Option (Img Bool)) (symFlags : Option (BitVec 32)) (hsq : b.nrow = b.ncol) :
    ∃ out, symmetrizeBmask rotate b (some a) noSym symFlags = .ok out ∧
      ∀ r < b.nrow, ∀ c < b.nrow, ∀ k < 32, ∃ ind : Img ℚ,
        (ind.nrow = b.nrow ∧ ind.ncol = b.ncol ∧ ∀ i j,
          ((b.px i j).getLsbD k = true ∧ ¬ Protected noSym i j → ind.px i j = 1) ∧
          (¬ ((b.px i j).getLsbD k = true ∧ ¬ Protected noSym i j) → ind.px i j = 0)) ∧
        ((out.px r c).getLsbD k = true ↔ (b.px r c).getLsbD k = true ∨
          (Selected symFlags k ∧ (∃ i < b.nrow, ∃ j < b.nrow, (b.px i j).getLsbD k = true ∧
            ¬ Protected noSym i j) ∧ 0 < (rotate a ind).px r c)) := by
  unfold symmetrizeBmask
  rw [if_neg (not_not.2 hsq)]
  refine ⟨_, rfl, ?_⟩
  intro r hr c hc k hk
  refine ⟨⟨b.nrow, b.ncol, fun i j =>
    if (b.px i j).getLsbD k = true ∧ symAllowed noSym i j = true then 1 else 0⟩,
    ⟨rfl, rfl, fun i j => by
      rw [← symAllowed_iff]
      exact ⟨fun h => if_pos h, fun h => if_neg h⟩⟩, ?_⟩
  set ind : Img ℚ := ⟨b.nrow, b.ncol, fun i j =>
    if (b.px i j).getLsbD k = true ∧ symAllowed noSym i j = true then 1 else 0⟩ with hind
  set step := symmetrizeBit rotate a noSym symFlags with hstep
  -- splitting the loop at k
  have split32 : List.range 32 = List.range k ++ k :: (List.range' (k + 1) (31 - k)) := by
    rw [List.range_eq_range', List.range_eq_range',
      show 32 = k + ((31 - k) + 1) by omega]
    rw [List.range'_append_1.symm, List.range'_succ]
    simp
  rw [split32, List.foldl_append, List.foldl_cons]
  -- steps other than k do not touch bit k, nor the shape
  have other : ∀ (l : List Nat), (∀ i ∈ l, i ≠ k) → ∀ x : Img (BitVec 32),
      (l.foldl step x).nrow = x.nrow ∧ (l.foldl step x).ncol = x.ncol ∧
      ∀ i j, ((l.foldl step x).px i j).getLsbD k = (x.px i j).getLsbD k := by
    intro l
    induction l with
    | nil => intro _ x; exact ⟨rfl, rfl, fun _ _ => rfl⟩
    | cons i t ih =>
      intro hne x
      obtain ⟨s1, s2, s3⟩ := symBit_bits rotate a noSym symFlags x i
      obtain ⟨t1, t2, t3⟩ := ih (fun m hm => hne m (by simp [hm])) (step x i)
      simp only [List.foldl_cons]
      refine ⟨by rw [t1]; exact s1, by rw [t2]; exact s2, fun r c => ?_⟩
      rw [t3 r c, Bool.eq_iff_iff]
      constructor
      · intro h
        rcases (s3 r c k hk).1 h with h | h
        · exact h
        · exact absurd h.1.symm (hne i (by simp))
      · exact (s3 r c k hk).2
  obtain ⟨x1, x2, x3⟩ := other (List.range k) (by intro i hi; have := List.mem_range.1 hi; omega) b
  set x := (List.range k).foldl step b with hx
  obtain ⟨_, _, y3⟩ := other (List.range' (k + 1) (31 - k))
    (by intro i hi; have := List.mem_range'_1.1 hi; omega) (step x k)
  rw [y3 r c]
  have hasbit := fun v => hasFlag_twoPow v hk
  have selIff := symSkip_iff symFlags hk
  rw [hstep]
  unfold symmetrizeBit
  simp only [hasbit, x1, x2, x3]
  by_cases hsel : Selected symFlags k
  · rw [if_neg (by rw [selIff]; exact not_not.2 hsel)]
    have anyI : (anyPix b.nrow b.ncol fun r c => (b.px r c).getLsbD k && symAllowed noSym r c) = true ↔
        ∃ i < b.nrow, ∃ j < b.nrow, (b.px i j).getLsbD k = true ∧ ¬ Protected noSym i j := by
      rw [anyPix_iff, ← hsq]
      simp only [Bool.and_eq_true, symAllowed_iff]
    have hind' : (⟨b.nrow, b.ncol, fun r c =>
        if ((b.px r c).getLsbD k && symAllowed noSym r c) = true then 1 else 0⟩ : Img ℚ) = ind := by
      rw [hind]; simp only [Bool.and_eq_true]
    rw [hind']
    split
    · rename_i hany
      have hany' := anyI.1 hany
      simp only
      split
      · rename_i hpos
        rw [BitVec.getLsbD_or, BitVec.getLsbD_twoPow]
        simp only [hk, decide_true, Bool.true_and, Bool.or_true, true_iff]
        exact Or.inr ⟨hsel, hany', hpos⟩
      · rename_i hpos
        rw [x3]
        constructor
        · exact Or.inl
        · rintro (h | h)
          · exact h
          · exact absurd h.2.2 hpos
    · rename_i hany
      rw [x3]
      constructor
      · exact Or.inl
      · rintro (h | h)
        · exact h
        · exact absurd (anyI.2 h.2.1) hany
  · rw [if_pos (selIff.2 hsel), x3]
    constructor
    · exact Or.inl
    · rintro (h | h)
      · exact h
      · exact absurd h.1 hsel

/-- `C19_angle_bits` on the same mask and angle. -/
example (rotate : ℚ → Img ℚ → Img ℚ) := C19_angle_bits rotate
  ⟨5, 5, fun r c => if r = 1 ∧ c = 2 then 3 else 0⟩ 45 none (some 1) rfl

theorem symWeight_ok {A : Type} (rotate : A → Img ℚ → Img ℚ) (w : Img ℚ) (a : Option A)
    (noSym : Option (Img Bool)) (hw : w.nrow = w.ncol) :
    ∃ out, symmetrizeWeight rotate w a noSym = .ok out := by
  unfold symmetrizeWeight
  rw [if_neg (not_not.2 hw)]
  simp only
  cases a with
  | none => simp only; split <;> exact ⟨_, rfl⟩
  | some a =>
    simp only
    split
    · split <;> exact ⟨_, rfl⟩
    · exact ⟨_, rfl⟩

open Classical in
/-- C19: with a list of angles the slice mask becomes the OR over the angles of the
individually symmetrised original masks, and a weight becomes zero iff it is zero in one of
the individually symmetrised original weight maps. -/
theorem C19_angle_list {A : Type} (rotate : A → Img ℚ → Img ℚ) (l : List (Option A))
    (noSym : Option (Img Bool)) (flags : BitVec 32) (w : Img ℚ) (b : Img (BitVec 32))
    (hw : w.nrow = w.ncol) (hb : b.nrow = b.ncol) :
    ∃ w' b', symmetrizeSlice rotate (.angles l) noSym flags w b = .ok (w', b') ∧
      w'.nrow = w.nrow ∧ w'.ncol = w.ncol ∧ b'.nrow = b.nrow ∧ b'.ncol = b.ncol ∧
      (∀ r c k, ((b'.px r c).getLsbD k = true ↔ (b.px r c).getLsbD k = true ∨
        ∃ a ∈ l, ∃ br, symmetrizeBmask rotate b a noSym (some flags) = .ok br ∧
          (br.px r c).getLsbD k = true)) ∧
      (∀ r c, w'.px r c =
        if ∃ a ∈ l, ∃ wr, symmetrizeWeight rotate w a noSym = .ok wr ∧ wr.px r c = 0
        then 0 else w.px r c) := by
  have gen : ∀ (l : List (Option A)) (st : Img ℚ × Img (BitVec 32)),
      ∃ w' b', l.foldlM (symOneAngle rotate noSym flags w b) st = .ok (w', b') ∧
      w'.nrow = st.1.nrow ∧ w'.ncol = st.1.ncol ∧ b'.nrow = st.2.nrow ∧ b'.ncol = st.2.ncol ∧
      (∀ r c k, ((b'.px r c).getLsbD k = true ↔ (st.2.px r c).getLsbD k = true ∨
        ∃ a ∈ l, ∃ br, symmetrizeBmask rotate b a noSym (some flags) = .ok br ∧
          (br.px r c).getLsbD k = true)) ∧
      (∀ r c, w'.px r c =
        if ∃ a ∈ l, ∃ wr, symmetrizeWeight rotate w a noSym = .ok wr ∧ wr.px r c = 0
        then 0 else st.1.px r c) := by
    intro l
    induction l with
    | nil =>
      intro st
      exact ⟨st.1, st.2, rfl, rfl, rfl, rfl, rfl, by simp, by simp⟩
    | cons a t ih =>
      intro st
      obtain ⟨wr, hwr⟩ := symWeight_ok rotate w a noSym hw
      obtain ⟨br, hbr, _⟩ := C19_single_angle_only_adds rotate b a noSym (some flags) hb
      have hstep : symOneAngle rotate noSym flags w b st a =
          .ok (⟨st.1.nrow, st.1.ncol, fun r c => if wr.px r c = 0 then 0 else st.1.px r c⟩,
            ⟨st.2.nrow, st.2.ncol, fun r c => st.2.px r c ||| br.px r c⟩) := by
        unfold symOneAngle
        rw [hwr, hbr]
        rfl
      obtain ⟨w', b', h0, h1, h2, h3, h4, h5, h6⟩ := ih
        (⟨st.1.nrow, st.1.ncol, fun r c => if wr.px r c = 0 then 0 else st.1.px r c⟩,
            ⟨st.2.nrow, st.2.ncol, fun r c => st.2.px r c ||| br.px r c⟩)
      refine ⟨w', b', ?_, h1, h2, h3, h4, ?_, ?_⟩
      · rw [List.foldlM_cons, hstep]; exact h0
      · intro r c k
        rw [h5 r c k]
        simp only [BitVec.getLsbD_or, Bool.or_eq_true, List.mem_cons, exists_eq_or_imp, hbr,
          Except.ok.injEq, exists_eq_left']
        tauto
      · intro r c
        rw [h6 r c]
        simp only [List.mem_cons, exists_eq_or_imp, hwr, Except.ok.injEq, exists_eq_left']
        by_cases hz : wr.px r c = 0 <;> simp [hz]
  cases l with
  | nil => exact ⟨w, b, rfl, rfl, rfl, rfl, rfl, by simp, by simp⟩
  | cons a t => exact gen (a :: t) (w, b)

/-- `C19_angle_list` on a 4 x 4 slice, the angles 45 and the quarter turn. -/
example (rotate : ℚ → Img ℚ → Img ℚ) := C19_angle_list rotate [some 45, none] none 1
  ⟨4, 4, fun r c => r * c⟩ ⟨4, 4, fun r c => if r = 1 ∧ c = 2 then 3 else 0⟩ rfl rfl

/-- C19: the outcome does not depend on the order or repetition of the angles. -/
theorem C19_order_independent {A : Type} (rotate : A → Img ℚ → Img ℚ) (l1 l2 : List (Option A))
    (h : ∀ a, a ∈ l1 ↔ a ∈ l2)
    (noSym : Option (Img Bool)) (flags : BitVec 32) (w : Img ℚ) (b : Img (BitVec 32))
    (hw : w.nrow = w.ncol) (hb : b.nrow = b.ncol) :
    ∃ o1 o2, symmetrizeSlice rotate (.angles l1) noSym flags w b = .ok o1 ∧
      symmetrizeSlice rotate (.angles l2) noSym flags w b = .ok o2 ∧
      o1.1.Eqv o2.1 ∧ o1.2.Eqv o2.2 := by
  obtain ⟨w1, b1, e1, a1, a2, a3, a4, a5, a6⟩ := C19_angle_list rotate l1 noSym flags w b hw hb
  obtain ⟨w2, b2, e2, d1, d2, d3, d4, d5, d6⟩ := C19_angle_list rotate l2 noSym flags w b hw hb
  refine ⟨_, _, e1, e2, ⟨by simp [a1, d1], by simp [a2, d2], ?_⟩, ⟨by simp [a3, d3], by simp [a4, d4], ?_⟩⟩
  · intro r _ c _
    show w1.px r c = w2.px r c
    rw [a6, d6]
    classical exact if_congr (by simp only [h]) rfl rfl
  · intro r _ c _
    apply BitVec.eq_of_getLsbD_eq
    intro k _
    show (b1.px r c).getLsbD k = (b2.px r c).getLsbD k
    rw [Bool.eq_iff_iff, a5, d5]; simp only [h]

/-- `C19_order_independent`: the same angles in another order, one of them twice. -/
example (rotate : ℚ → Img ℚ → Img ℚ) := C19_order_independent rotate [some 45, none]
  [none, some 45, none] (by intro a; simp; tauto) none 1
  ⟨4, 4, fun r c => r * c⟩ ⟨4, 4, fun r c => if r = 1 ∧ c = 2 then 3 else 0⟩ rfl rfl

/-- C19: for every configuration the step only adds selected flags and only zeroes weights. -/
theorem C19_only_adds_masking {A : Type} (rotate : A → Img ℚ → Img ℚ) (cfg : SymCfg A)
    (noSym : Option (Img Bool)) (flags : BitVec 32) (w : Img ℚ) (b : Img (BitVec 32))
    (hw : w.nrow = w.ncol) (hb : b.nrow = b.ncol) :
    ∃ w' b', symmetrizeSlice rotate cfg noSym flags w b = .ok (w', b') ∧
      w'.nrow = w.nrow ∧ w'.ncol = w.ncol ∧ b'.nrow = b.nrow ∧ b'.ncol = b.ncol ∧
      ∀ r < b.nrow, ∀ c < b.nrow,
        (w'.px r c = w.px r c ∨ w'.px r c = 0) ∧
        (∀ k < 32, ((b.px r c).getLsbD k = true → (b'.px r c).getLsbD k = true) ∧
          ((b'.px r c).getLsbD k = true → (b.px r c).getLsbD k = true ∨ flags.getLsbD k = true)) := by
  have selF : ∀ k, Selected (some flags) k → flags.getLsbD k = true := fun k h => h flags rfl
  cases cfg with
  | off => exact ⟨w, b, rfl, rfl, rfl, rfl, rfl, fun r _ c _ => ⟨Or.inl rfl, fun k _ => ⟨id, Or.inl⟩⟩⟩
  | plain =>
    obtain ⟨br, hbr, s1, s2, s3⟩ := C19_single_angle_only_adds rotate b none noSym (some flags) hb
    obtain ⟨wr, hwr, t1, t2, _⟩ := C17_weight_iff rotate w noSym hw
    refine ⟨wr, br, ?_, t1, t2, s1, s2, fun r hr c hc => ⟨?_, fun k hk => ⟨(s3 r hr c hc k hk).2, fun h => ?_⟩⟩⟩
    · simp only [symmetrizeSlice]; rw [hbr, hwr]; rfl
    · exact (C17_never_increases rotate w none noSym).2 wr hwr r c
    · rcases (s3 r hr c hc k hk).1 h with h | h
      · exact Or.inl h
      · exact Or.inr (selF k h)
  | angles l =>
    obtain ⟨w', b', e, a1, a2, a3, a4, a5, a6⟩ := C19_angle_list rotate l noSym flags w b hw hb
    refine ⟨w', b', e, a1, a2, a3, a4, fun r hr c hc => ⟨?_, fun k hk => ⟨fun h => ?_, fun h => ?_⟩⟩⟩
    · rw [a6 r c]; split <;> simp
    · rw [a5]; exact Or.inl h
    · rcases (a5 r c k).1 h with h | ⟨a, _, br, hbr, h⟩
      · exact Or.inl h
      · obtain ⟨br', hbr', _, _, s3⟩ := C19_single_angle_only_adds rotate b a noSym (some flags) hb
        rw [hbr] at hbr'
        injection hbr' with hbr'
        subst hbr'
        rcases (s3 r hr c hc k hk).1 h with h | h
        · exact Or.inl h
        · exact Or.inr (selF k h)

/-- `C19_only_adds_masking` on the same slice. -/
example (rotate : ℚ → Img ℚ → Img ℚ) := C19_only_adds_masking rotate (.angles [some 45, none]) none 1
  ⟨4, 4, fun r c => r * c⟩ ⟨4, 4, fun r c => if r = 1 ∧ c = 2 then 3 else 0⟩ rfl rfl

example : (⟨4, 4, fun _ _ => 1⟩ : Img ℚ).nrow = (⟨4, 4, fun _ _ => 1⟩ : Img ℚ).ncol := rfl

end Pizza
