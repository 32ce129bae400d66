import Verif.Lemmas.Flags
import Mathlib.Tactic.Linarith
import Mathlib.Tactic.Positivity
import Mathlib.Tactic.NormNum
import Mathlib.Tactic.FieldSimp

/-!
Properties C13 (full-edge test), C14 (flag test), C15 (masked fraction).
-/

namespace Pizza

/-- C13: `slice_full_edge_masked` is true iff some edge consists only of non-positive weights
or some edge consists only of flagged pixels (non-empty arrays of equal shape). -/
theorem C13_full_edge_iff (weight : Img ℚ) (bmask : Img (BitVec 32)) (flags : BitVec 32)
    (hs : bmask.nrow = weight.nrow ∧ bmask.ncol = weight.ncol)
    (hr : 0 < weight.nrow) (hc : 0 < weight.ncol) :
    ∃ v, sliceFullEdgeMasked weight bmask flags = .ok v ∧
      (v = true ↔
        (∃ e : Edge, ∀ r c, e.On weight.nrow weight.ncol r c → weight.px r c ≤ 0) ∨
        (∃ e : Edge, ∀ r c, e.On weight.nrow weight.ncol r c → Carries (bmask.px r c) flags)) := by
  obtain ⟨hb1, hb2⟩ := hs
  have key : ∀ (α : Type) (a : Img α) (p : α → Bool), a.nrow = weight.nrow → a.ncol = weight.ncol →
      (allLt a.ncol (fun c => p (a.px 0 c)) = true ↔
        ∀ r c, Edge.top.On weight.nrow weight.ncol r c → p (a.px r c) = true) ∧
      (allLt a.ncol (fun c => p (a.px (a.nrow - 1) c)) = true ↔
        ∀ r c, Edge.bottom.On weight.nrow weight.ncol r c → p (a.px r c) = true) ∧
      (allLt a.nrow (fun r => p (a.px r 0)) = true ↔
        ∀ r c, Edge.left.On weight.nrow weight.ncol r c → p (a.px r c) = true) ∧
      (allLt a.nrow (fun r => p (a.px r (a.ncol - 1))) = true ↔
        ∀ r c, Edge.right.On weight.nrow weight.ncol r c → p (a.px r c) = true) := by
    intro α a p h1 h2
    simp only [allLt_iff, h1, h2, Edge.On]
    refine ⟨⟨?_, ?_⟩, ⟨?_, ?_⟩, ⟨?_, ?_⟩, ⟨?_, ?_⟩⟩
    · rintro h r c ⟨_, h4, rfl⟩; exact h c h4
    · intro h c hc'; exact h 0 c ⟨hr, hc', rfl⟩
    · rintro h r c ⟨_, h4, h5⟩
      have := h c h4
      rwa [show weight.nrow - 1 = r by omega] at this
    · intro h c hc'; exact h _ c ⟨by omega, hc', by omega⟩
    · rintro h r c ⟨h3, _, rfl⟩; exact h r h3
    · intro h r hr'; exact h r 0 ⟨hr', hc, rfl⟩
    · rintro h r c ⟨h3, _, h5⟩
      have := h r h3
      rwa [show weight.ncol - 1 = c by omega] at this
    · intro h r hr'; exact h r _ ⟨hr', by omega, by omega⟩
  obtain ⟨w1, w2, w3, w4⟩ := key ℚ weight (fun w => decide (w ≤ 0)) rfl rfl
  obtain ⟨f1, f2, f3, f4⟩ := key _ bmask (fun b => hasFlag b flags) hb1 hb2
  simp only [decide_eq_true_eq, hasFlag_iff] at w1 w2 w3 w4 f1 f2 f3 f4
  have exE : ∀ P : Edge → Prop, (∃ e, P e) ↔ (P .top ∨ P .bottom ∨ P .left ∨ P .right) := by
    intro P
    constructor
    · rintro ⟨e, he⟩; cases e <;> simp [he]
    · rintro (h | h | h | h) <;> exact ⟨_, h⟩
  rw [exE, exE, ← w1, ← w2, ← w3, ← w4, ← f1, ← f2, ← f3, ← f4]
  unfold sliceFullEdgeMasked
  have g1 : weight.nrow ≠ 0 := by omega
  have g2 : weight.ncol ≠ 0 := by omega
  have g3 : bmask.nrow ≠ 0 := by omega
  have g4 : bmask.ncol ≠ 0 := by omega
  simp only [allFirstRow, allLastRow, allFirstCol, allLastCol, g1, g2, g3, g4, if_false]
  generalize allLt weight.ncol _ = a1
  generalize allLt weight.ncol _ = a2
  generalize allLt weight.nrow _ = a3
  generalize allLt weight.nrow _ = a4
  generalize allLt bmask.ncol _ = a5
  generalize allLt bmask.ncol _ = a6
  generalize allLt bmask.nrow _ = a7
  generalize allLt bmask.nrow _ = a8
  cases a1 <;> cases a2 <;> cases a3 <;> cases a4 <;> cases a5 <;> cases a6 <;> cases a7 <;>
    cases a8 <;> simp [orElseE]

/-- `C13_full_edge_iff` on a 2 x 3 slice whose last row has no weight. -/
example := C13_full_edge_iff ⟨2, 3, fun r _ => if r = 1 then 0 else 1⟩ ⟨2, 3, fun _ _ => 0⟩ 1
  ⟨rfl, rfl⟩ (by decide) (by decide)

/-- C13, limitation of the code: an edge on which every pixel is unusable, some by weight and
some by flag, is not reported. -/
theorem C13_mixed_edge_not_detected :
    ∃ (weight : Img ℚ) (bmask : Img (BitVec 32)) (flags : BitVec 32),
      weight.nrow = 3 ∧ weight.ncol = 3 ∧ bmask.nrow = 3 ∧ bmask.ncol = 3 ∧
      (∀ c < 3, weight.px 0 c ≤ 0 ∨ hasFlag (bmask.px 0 c) flags = true) ∧
      sliceFullEdgeMasked weight bmask flags = .ok false :=
  ⟨⟨3, 3, fun r c => if r = 0 ∧ c = 0 then 0 else 1⟩,
    ⟨3, 3, fun r c => if r = 0 ∧ c ≠ 0 then 1 else 0⟩, 1, rfl, rfl, rfl, rfl,
    by decide +kernel, by decide +kernel⟩

example : sliceFullEdgeMasked ⟨2, 3, fun r _ => if r = 1 then 0 else 1⟩
    ⟨2, 3, fun _ _ => 0⟩ 1 = .ok true := by decide +kernel

/-- C14: true iff some pixel in range carries one of the flags. -/
theorem C14_has_flags_iff (bmask : Img (BitVec 32)) (flags : BitVec 32) :
    sliceHasFlags bmask flags = true ↔
      ∃ r < bmask.nrow, ∃ c < bmask.ncol, Carries (bmask.px r c) flags := by
  simp only [sliceHasFlags, anyLt_iff, hasFlag_iff]

/-- C14: only bits among `flags` matter: masks that agree on those bits give the same
answer. -/
theorem C14_other_bits_irrelevant (b1 b2 : Img (BitVec 32)) (flags : BitVec 32)
    (hs : b1.nrow = b2.nrow ∧ b1.ncol = b2.ncol)
    (h : ∀ r < b1.nrow, ∀ c < b1.ncol, ∀ k < 32, flags.getLsbD k = true →
      (b1.px r c).getLsbD k = (b2.px r c).getLsbD k) :
    sliceHasFlags b1 flags = sliceHasFlags b2 flags := by
  rw [Bool.eq_iff_iff, C14_has_flags_iff, C14_has_flags_iff, ← hs.1, ← hs.2]
  have : ∀ r < b1.nrow, ∀ c < b1.ncol, (Carries (b1.px r c) flags ↔ Carries (b2.px r c) flags) := by
    intro r hr c hc
    unfold Carries
    constructor
    · rintro ⟨k, hk, h1, h2⟩; exact ⟨k, hk, by rw [← h r hr c hc k hk h2]; exact h1, h2⟩
    · rintro ⟨k, hk, h1, h2⟩; exact ⟨k, hk, by rw [h r hr c hc k hk h2]; exact h1, h2⟩
  constructor
  · rintro ⟨r, hr, c, hc, hh⟩; exact ⟨r, hr, c, hc, (this r hr c hc).1 hh⟩
  · rintro ⟨r, hr, c, hc, hh⟩; exact ⟨r, hr, c, hc, (this r hr c hc).2 hh⟩

/-- `C14_other_bits_irrelevant`: bits 0 and 1 differ, only bit 2 is asked for. -/
example : sliceHasFlags ⟨2, 2, fun _ _ => 5⟩ 4 = sliceHasFlags ⟨2, 2, fun _ _ => 6⟩ 4 :=
  C14_other_bits_irrelevant _ _ 4 ⟨rfl, rfl⟩ (fun _ _ _ _ => (by decide +kernel :
    ∀ k < 32, (4 : BitVec 32).getLsbD k = true → (5 : BitVec 32).getLsbD k = (6 : BitVec 32).getLsbD k))

example : sliceHasFlags ⟨2, 2, fun r c => if r = 1 ∧ c = 0 then 6 else 1⟩ 4 = true := by
  decide +kernel

/-! ### C15 -/

open Classical in
/-- C15, exact value: with at least one counted pixel the result is the number of counted
unusable pixels divided by the number of counted pixels; if everything is ignored it is 1; an
empty image without ignore mask gives NaN. -/
theorem C15_value (weight : Img ℚ) (bmask : Img (BitVec 32)) (flags : BitVec 32)
    (ignore : Option (Img Bool)) :
    ((∃ p, Counted weight.nrow weight.ncol ignore p) →
      ∃ bad all : Finset (Nat × Nat),
        (∀ p, p ∈ all ↔ Counted weight.nrow weight.ncol ignore p) ∧
        (∀ p, p ∈ bad ↔ Counted weight.nrow weight.ncol ignore p ∧ Unusable weight bmask flags p) ∧
        0 < all.card ∧
        computeMaskedFraction weight bmask flags ignore = .fin ((bad.card : ℚ) / (all.card : ℚ))) ∧
    ((¬ ∃ p, Counted weight.nrow weight.ncol ignore p) →
      computeMaskedFraction weight bmask flags ignore = if ignore = none then .nan else .fin 1) := by
  cases ignore with
  | none =>
    constructor
    · rintro ⟨q, hq1, hq2, -⟩
      refine ⟨(pixels weight.nrow weight.ncol).filter
          (fun q => badPix weight bmask flags q.1 q.2 = true), pixels weight.nrow weight.ncol,
          ?_, ?_, ?_, ?_⟩
      · intro p; simp [mem_pixels, Counted]
      · intro p; simp [mem_pixels, Counted, badPix_iff]
      · exact Finset.card_pos.2 ⟨q, mem_pixels.2 ⟨hq1, hq2⟩⟩
      · have : weight.nrow * weight.ncol ≠ 0 := by
          have := Nat.mul_pos (show 0 < weight.nrow by omega) (show 0 < weight.ncol by omega)
          omega
        simp only [computeMaskedFraction, this, if_false, countPix]
        rw [show (pixels weight.nrow weight.ncol).card = weight.nrow * weight.ncol by
          simp [pixels]]
    · intro h
      have : weight.nrow * weight.ncol = 0 := by
        by_contra hne
        have h1 : 0 < weight.nrow := Nat.pos_of_ne_zero (fun h => hne (by simp [h]))
        have h2 : 0 < weight.ncol := Nat.pos_of_ne_zero (fun h => hne (by simp [h]))
        exact h ⟨(0, 0), h1, h2, by simp⟩
      simp [computeMaskedFraction, this]
  | some ig =>
    have hall : (allLt weight.nrow fun r => allLt weight.ncol fun c => ig.px r c) = true ↔
        ¬ ∃ p, Counted weight.nrow weight.ncol (some ig) p := by
      simp only [allLt_iff, Counted]
      constructor
      · rintro h ⟨p, h1, h2, h3⟩
        have := h p.1 h1 p.2 h2
        rw [h3 ig rfl] at this
        cases this
      · intro h r hr c hc
        by_contra hne
        apply h
        refine ⟨(r, c), hr, hc, ?_⟩
        rintro _ ⟨rfl⟩
        simpa using hne
    constructor
    · intro hex
      obtain ⟨q, hq1, hq2, hq3⟩ := id hex
      have hn : ¬ ((allLt weight.nrow fun r => allLt weight.ncol fun c => ig.px r c) = true) := by
        rw [hall]; exact not_not.2 hex
      refine ⟨(pixels weight.nrow weight.ncol).filter
          (fun q => (badPix weight bmask flags q.1 q.2 && !ig.px q.1 q.2) = true),
          (pixels weight.nrow weight.ncol).filter (fun q => (!ig.px q.1 q.2) = true), ?_, ?_, ?_, ?_⟩
      · intro p; simp [mem_pixels, Counted, and_assoc]
      · intro p
        simp only [Finset.mem_filter, mem_pixels, Counted, Bool.and_eq_true, badPix_iff,
          Bool.not_eq_true', Option.some.injEq, forall_eq']
        tauto
      · refine Finset.card_pos.2 ⟨q, ?_⟩
        simp [mem_pixels, hq1, hq2, hq3]
      · simp only [computeMaskedFraction]
        rw [if_neg hn]
        rfl
    · intro h
      simp only [computeMaskedFraction]
      rw [if_pos (hall.2 h)]
      simp

/-- C15: the result is in [0, 1], it is 0 iff no counted pixel is unusable and 1 iff all
counted pixels are (given that some pixel is counted). -/
theorem C15_range (weight : Img ℚ) (bmask : Img (BitVec 32)) (flags : BitVec 32)
    (ignore : Option (Img Bool)) (h : ∃ p, Counted weight.nrow weight.ncol ignore p) :
    ∃ q, computeMaskedFraction weight bmask flags ignore = .fin q ∧ 0 ≤ q ∧ q ≤ 1 ∧
      (q = 0 ↔ ∀ p, Counted weight.nrow weight.ncol ignore p → ¬ Unusable weight bmask flags p) ∧
      (q = 1 ↔ ∀ p, Counted weight.nrow weight.ncol ignore p → Unusable weight bmask flags p) := by
  obtain ⟨bad, all, ha, hb, hpos, hv⟩ := (C15_value weight bmask flags ignore).1 h
  have hsub : bad ⊆ all := fun p hp => (ha p).2 ((hb p).1 hp).1
  have hp : (0 : ℚ) < all.card := by exact_mod_cast hpos
  refine ⟨_, hv, by positivity, ?_, ?_, ?_⟩
  · rw [div_le_one hp]; exact_mod_cast Finset.card_le_card hsub
  · rw [div_eq_zero_iff]
    constructor
    · rintro (h0 | h0)
      · have : bad = ∅ := Finset.card_eq_zero.1 (by exact_mod_cast h0)
        intro p hp' hu
        have : p ∈ bad := (hb p).2 ⟨hp', hu⟩
        simp_all
      · exact absurd h0 hp.ne'
    · intro h0
      left
      have : bad = ∅ := by
        apply Finset.eq_empty_of_forall_notMem
        intro p hp'
        exact h0 p ((hb p).1 hp').1 ((hb p).1 hp').2
      simp [this]
  · rw [div_eq_one_iff_eq hp.ne']
    constructor
    · intro h1
      have : bad = all := Finset.eq_of_subset_of_card_le hsub (by exact_mod_cast h1.ge)
      intro p hp'
      exact ((hb p).1 (this ▸ (ha p).2 hp')).2
    · intro h1
      have : bad = all := Finset.Subset.antisymm hsub
        (fun p hp' => (hb p).2 ⟨(ha p).1 hp', h1 p ((ha p).1 hp')⟩)
      rw [this]

/-- `C15_range` on a 2 x 2 image with one ignored pixel. -/
example := C15_range ⟨2, 2, fun r _ => r⟩ ⟨2, 2, fun _ _ => 3⟩ 4
  (some ⟨2, 2, fun r c => r == 0 && c == 0⟩)
  ⟨(1, 1), by norm_num, by norm_num, by rintro _ ⟨rfl⟩; rfl⟩

/-- C15, monotonicity: masking more pixels never lowers the fraction. -/
theorem C15_monotone (w1 w2 : Img ℚ) (b1 b2 : Img (BitVec 32)) (f1 f2 : BitVec 32)
    (ignore : Option (Img Bool)) (hs : w1.nrow = w2.nrow ∧ w1.ncol = w2.ncol)
    (h : ∃ p, Counted w1.nrow w1.ncol ignore p)
    (hm : ∀ p, Counted w1.nrow w1.ncol ignore p → Unusable w1 b1 f1 p → Unusable w2 b2 f2 p) :
    ∃ q1 q2, computeMaskedFraction w1 b1 f1 ignore = .fin q1 ∧
      computeMaskedFraction w2 b2 f2 ignore = .fin q2 ∧ q1 ≤ q2 := by
  obtain ⟨bad1, all1, ha1, hb1, hpos1, hv1⟩ := (C15_value w1 b1 f1 ignore).1 h
  have h' : ∃ p, Counted w2.nrow w2.ncol ignore p := by rw [← hs.1, ← hs.2]; exact h
  obtain ⟨bad2, all2, ha2, hb2, hpos2, hv2⟩ := (C15_value w2 b2 f2 ignore).1 h'
  rw [← hs.1, ← hs.2] at ha2 hb2
  have e : all1 = all2 := by ext p; rw [ha1, ha2]
  have hsub : bad1 ⊆ bad2 := fun p hp =>
    (hb2 p).2 ⟨((hb1 p).1 hp).1, hm p ((hb1 p).1 hp).1 ((hb1 p).1 hp).2⟩
  refine ⟨_, _, hv1, hv2, ?_⟩
  rw [e]
  have : (bad1.card : ℚ) ≤ bad2.card := by exact_mod_cast Finset.card_le_card hsub
  gcongr

/-- `C15_monotone` on a 2 x 2 image when further pixels lose their weight. -/
example := C15_monotone ⟨2, 2, fun r _ => r⟩ ⟨2, 2, fun _ _ => 0⟩ ⟨2, 2, fun _ _ => 3⟩
  ⟨2, 2, fun _ _ => 3⟩ 4 4 (some ⟨2, 2, fun r c => r == 0 && c == 0⟩) ⟨rfl, rfl⟩
  ⟨(1, 1), by norm_num, by norm_num, by rintro _ ⟨rfl⟩; rfl⟩
  (fun _ _ _ => Or.inl le_rfl)

/-- Non-vacuity of C15: a 2 x 2 image with one ignored pixel. -/
example : ∃ p, Counted 2 2 (some ⟨2, 2, fun r c => r == 0 && c == 0⟩) p :=
  ⟨(1, 1), by norm_num, by norm_num, by rintro _ ⟨rfl⟩; rfl⟩

end Pizza
