import Verif.Model.Constants
import Mathlib.Data.List.Pairwise
import Mathlib.Tactic.Linarith

/-! Properties C83 and C84. -/

namespace Pizza

/-! ### C83 -/

/-- C83: the mask flags are single bits below the sign bit of a 32-bit mask, pairwise different,
and likewise the rejection flags; EDGE is bit 29 and shares no bit with any other mask flag.
The flag for ignored CCDs is not one of the mask flags either. -/
theorem C83_distinct_bits :
    (∀ f ∈ maskFlags, ∃ k < 31, ∀ j < 32, f.getLsbD j = decide (j = k)) ∧
    (∀ f ∈ procFlags, ∃ k < 31, ∀ j < 32, f.getLsbD j = decide (j = k)) ∧
    (∀ i j : Nat, ∀ f g, maskFlags[i]? = some f → maskFlags[j]? = some g → i ≠ j → f &&& g = 0) ∧
    (∀ i j : Nat, ∀ f g, procFlags[i]? = some f → procFlags[j]? = some g → i ≠ j → f &&& g = 0) ∧
    (∀ f ∈ maskFlags, f ≠ BMASK_EDGE → f &&& BMASK_EDGE = 0) ∧
    (∀ f ∈ maskFlags, f &&& IGNORED_CCD = 0) ∧
    maskFlags.length = 7 ∧ procFlags.length = 5 := by
  have hp : ∀ (l : List (BitVec 32)), l.Pairwise (fun f g => f &&& g = 0) →
      ∀ i j : Nat, ∀ f g, l[i]? = some f → l[j]? = some g → i ≠ j → f &&& g = 0 := by
    intro l hl i j f g hi hj hij
    obtain ⟨hi', rfl⟩ := List.getElem?_eq_some_iff.1 hi
    obtain ⟨hj', rfl⟩ := List.getElem?_eq_some_iff.1 hj
    rcases Nat.lt_or_gt_of_ne hij with h | h
    · exact List.pairwise_iff_getElem.1 hl i j hi' hj' h
    · have := List.pairwise_iff_getElem.1 hl j i hj' hi' h
      rwa [BitVec.and_comm] at this
  have ha : ∀ (l : List (BitVec 32)) (P : BitVec 32 → Prop) [DecidablePred P],
      l.all (fun f => decide (P f)) = true → ∀ f ∈ l, P f := by
    intro l P _ h f hf
    exact of_decide_eq_true (List.all_eq_true.1 h f hf)
  refine ⟨ha _ (fun f => ∃ k < 31, ∀ j < 32, f.getLsbD j = decide (j = k)) (by decide +kernel),
    ha _ (fun f => ∃ k < 31, ∀ j < 32, f.getLsbD j = decide (j = k)) (by decide +kernel),
    hp _ (by decide +kernel), hp _ (by decide +kernel),
    ha _ (fun f => f ≠ BMASK_EDGE → f &&& BMASK_EDGE = 0) (by decide +kernel),
    ha _ (fun f => f &&& IGNORED_CCD = 0) (by decide +kernel), by decide +kernel,
    by decide +kernel⟩

example : ∃ f ∈ maskFlags, f ≠ BMASK_EDGE := ⟨BMASK_GAIA_STAR, by decide +kernel, by decide +kernel⟩

/-- C83: the values that readers of the files rely on: EDGE, NOISE_INTERP, SPLINE_INTERP, RESAMPLE_BOUNDS, GAIA_STAR,
EXPAND_GAIA_STAR and SLICE_APODIZED are the bits 29 down to 23, above every bit that the masks of the survey can use
(bits 0 to 22), so that a mask of a file says nothing about processing before it is processed. -/
theorem C83_values :
    maskFlags.map BitVec.toNat = [2 ^ 29, 2 ^ 28, 2 ^ 27, 2 ^ 26, 2 ^ 25, 2 ^ 24, 2 ^ 23] ∧
    procFlags.map BitVec.toNat = [1, 2, 4, 16, 32] ∧ IGNORED_CCD.toNat = 2 ^ 30 ∧
    ∀ v : BitVec 32, v.toNat < 2 ^ 23 → ∀ f ∈ maskFlags, v &&& f = 0 := by
  refine ⟨by decide, by decide, by decide, fun v hv f hf => ?_⟩
  have hk : ∀ f ∈ maskFlags, ∃ k, 23 ≤ k ∧ f = BitVec.twoPow 32 k := by
    intro f hf
    simp only [maskFlags, List.mem_cons, List.not_mem_nil, or_false] at hf
    rcases hf with rfl | rfl | rfl | rfl | rfl | rfl | rfl
    exacts [⟨29, by norm_num, rfl⟩, ⟨28, by norm_num, rfl⟩, ⟨27, by norm_num, rfl⟩, ⟨26, by norm_num, rfl⟩,
      ⟨25, by norm_num, rfl⟩, ⟨24, by norm_num, rfl⟩, ⟨23, by norm_num, rfl⟩]
  obtain ⟨k, hk, rfl⟩ := hk f hf
  have : v.toNat.testBit k = false := Nat.testBit_lt_two_pow (lt_of_lt_of_le hv (Nat.pow_le_pow_right (by norm_num) hk))
  rw [BitVec.testBit_toNat] at this
  rw [BitVec.and_twoPow, if_neg (by rw [this]; simp)]
  rfl

example : (15 : BitVec 32).toNat < 2 ^ 23 ∧ BMASK_SLICE_APODIZED ∈ maskFlags := ⟨by decide, by decide⟩

/-! ### C84 -/

/-- A pixel carries at least one of the listed flags: some bit is set both in the pixel and in
one of the flags (specification). -/
def CarriesOneOf (v : BitVec 32) (flags : List Nat) : Prop :=
  ∃ f ∈ flags, ∃ k, f.testBit k = true ∧ v.getLsbD k = true

theorem add_eq_or_of_disjoint (a b : Nat) (h : a &&& b = 0) : a + b = a ||| b := by
  obtain ⟨w, ha, hb, hs⟩ : ∃ w, a < 2 ^ w ∧ b < 2 ^ w ∧ a + b < 2 ^ w :=
    ⟨a + b, (Nat.lt_two_pow_self).trans_le (Nat.pow_le_pow_right (by norm_num) (Nat.le_add_right a b)),
      (Nat.lt_two_pow_self).trans_le (Nat.pow_le_pow_right (by norm_num) (Nat.le_add_left b a)),
      Nat.lt_two_pow_self⟩
  have hand : BitVec.ofNat w a &&& BitVec.ofNat w b = 0#w := by
    apply BitVec.eq_of_toNat_eq
    simp [Nat.mod_eq_of_lt ha, Nat.mod_eq_of_lt hb, h]
  have := congrArg BitVec.toNat (BitVec.add_eq_or_of_and_eq_zero _ _ hand)
  simpa [BitVec.toNat_add, BitVec.toNat_or, Nat.mod_eq_of_lt ha, Nat.mod_eq_of_lt hb,
    Nat.mod_eq_of_lt hs] using this

theorem testBit_foldl (l : List Nat) (a : Nat) (hd : (a :: l).Pairwise fun f g => f &&& g = 0)
    (k : Nat) : (l.foldl (· + ·) a).testBit k = (a.testBit k || l.any fun f => f.testBit k) := by
  induction l generalizing a with
  | nil => simp
  | cons b l ih =>
    rw [List.pairwise_cons, List.pairwise_cons] at hd
    obtain ⟨h1, h2, h3⟩ := hd
    have hab := h1 b (by simp)
    rw [List.foldl_cons, add_eq_or_of_disjoint a b hab, ih]
    · rw [Nat.testBit_or, List.any_cons, Bool.or_assoc]
    · rw [List.pairwise_cons]
      refine ⟨fun g hg => ?_, h3⟩
      rw [Nat.and_or_distrib_right, h1 g (by simp [hg]), h2 g hg]; rfl

/-- C84, restricted to lists whose flags are pairwise disjoint (for instance distinct single
bits): the summed list masks exactly the pixels that carry at least one of the flags. -/
theorem C84_union_partial (v : BitVec 32) (flags : List Nat)
    (hd : flags.Pairwise fun f g => f &&& g = 0) :
    pixelHas v (flagSum flags) = true ↔ CarriesOneOf v flags := by
  have hb : ∀ k, (flagSum flags).testBit k = flags.any fun f => f.testBit k := by
    intro k
    unfold flagSum
    rw [testBit_foldl]
    · simp
    · rw [List.pairwise_cons]; exact ⟨fun g _ => by simp, hd⟩
  have hne : pixelHas v (flagSum flags) = true ↔ ∃ k, (v.toNat &&& flagSum flags).testBit k = true := by
    simp only [pixelHas, decide_eq_true_eq]
    constructor
    · intro h
      obtain ⟨k, hk⟩ := Nat.exists_testBit_of_ne_zero h
      exact ⟨k, hk⟩
    · rintro ⟨k, hk⟩ h0; rw [h0] at hk; simp at hk
  rw [hne]
  constructor
  · rintro ⟨k, hk⟩
    rw [Nat.testBit_and, hb, Bool.and_eq_true, List.any_eq_true] at hk
    obtain ⟨h1, f, hf, h2⟩ := hk
    exact ⟨f, hf, k, h2, h1⟩
  · rintro ⟨f, hf, k, h1, h2⟩
    refine ⟨k, ?_⟩
    rw [Nat.testBit_and, hb, Bool.and_eq_true, List.any_eq_true]
    exact ⟨h2, f, hf, h1⟩

/-- `C84_union_partial` for three flags without a common bit. -/
example := C84_union_partial 2049 [1, 4, 2048] (by decide)

/-- C84 fails for lists with repeated or overlapping flags: listing flag 1 twice no longer masks
pixels with flag 1, and masks pixels with flag 2 instead. -/
theorem C84_union_fails : ∃ (flags : List Nat) (v u : BitVec 32),
    CarriesOneOf v flags ∧ pixelHas v (flagSum flags) = false ∧
    ¬ CarriesOneOf u flags ∧ pixelHas u (flagSum flags) = true := by
  refine ⟨[1, 1], 1, 2, ⟨1, by simp, 0, by decide, by decide⟩, by decide, ?_, by decide⟩
  rintro ⟨f, hf, k, h1, h2⟩
  have : f = 1 := by simpa using hf
  subst this
  have hk : k = 0 := by
    by_contra hk
    rw [Nat.testBit_one_eq_true_iff_self_eq_zero] at h1
    exact hk h1
  subst hk
  revert h2; decide

example : ([1, 4, 2048] : List Nat).Pairwise fun f g => f &&& g = 0 := by decide

end Pizza
