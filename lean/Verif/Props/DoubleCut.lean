import Verif.Model.DoubleCut
import Verif.Props.DoubleCoadd
import Verif.Props.Layout
import Verif.Lemmas.BuildStages

/-! C134: cuts on the masked fraction and the effective number of epochs in floating point arithmetic. -/

namespace Pizza

section
variable {p : ℕ} {rnd : ℚ → ℚ}

/-- Two fractions with small denominators are compared correctly after rounding. -/
theorem Rounds.le_iff (h : Rounds p rnd) (hp : 1 ≤ p) {a b c d : ℕ} (hb : 0 < b) (hd : 0 < d) (hab : a ≤ b) (hcd : c ≤ d)
    (hbd : 2 * (b * d) < 2 ^ p) : rnd ((c : ℚ) / d) ≤ rnd ((a : ℚ) / b) ↔ c * b ≤ d * a := by
  have hb' : (0 : ℚ) < b := by exact_mod_cast hb
  have hd' : (0 : ℚ) < d := by exact_mod_cast hd
  constructor
  · intro hle
    by_contra hc
    have h1 : (d : ℚ) * a + 1 ≤ c * b := by exact_mod_cast not_le.1 hc
    have hu0 := unitOf_pos p
    have hbd' : 2 * ((b : ℚ) * d) < 2 ^ p := by exact_mod_cast hbd
    have hu : 2 * unitOf p < 1 / ((b : ℚ) * d) := by
      unfold unitOf
      rw [mul_one_div, div_lt_div_iff₀ (by positivity) (by positivity)]
      linarith
    have h2 : (a : ℚ) / b + 1 / (b * d) ≤ c / d := by
      rw [div_add_div _ _ hb'.ne' (by positivity), div_le_div_iff₀ (by positivity) hd']
      nlinarith [mul_pos hb' hd']
    obtain ⟨-, r1⟩ := h.between hp (show 0 ≤ (a : ℚ) / b by positivity)
    obtain ⟨r2, -⟩ := h.between hp (show 0 ≤ (c : ℚ) / d by positivity)
    have a1 : (a : ℚ) / b ≤ 1 := by rw [div_le_one hb']; exact_mod_cast hab
    have c1 : (c : ℚ) / d ≤ 1 := by rw [div_le_one hd']; exact_mod_cast hcd
    nlinarith
  · intro hle
    refine h.mono ?_
    rw [div_le_div_iff₀ hd' hb']
    have : (c : ℚ) * b ≤ d * a := by exact_mod_cast hle
    linarith

/-- A value with its rounding. -/
def Flt.rounded (rnd : ℚ → ℚ) : Flt → Flt
  | .fin q => .fin (rnd q)
  | v => v

theorem computeMaskedFractionD_eq (h : Rounds p rnd) (weight : Img ℚ) (bmask : Img (BitVec 32)) (flags : BitVec 32)
    (ignore : Option (Img Bool)) :
    computeMaskedFractionD rnd weight bmask flags ignore = (computeMaskedFraction weight bmask flags ignore).rounded rnd := by
  have h1 : rnd 1 = 1 := h.exact (by simpa using isFloat_int (p := p) (n := 1) (by simpa using one_le_pow₀ (by norm_num)))
  unfold computeMaskedFractionD computeMaskedFraction
  cases ignore with
  | none => dsimp only; split <;> rfl
  | some ig =>
    dsimp only
    split
    · simp [Flt.rounded, h1]
    · rfl

theorem pmaskFractionD_eq (h : Rounds p rnd) (pmask : Img (BitVec 32)) (gaia : Option (Img Bool)) :
    pmaskFractionD rnd pmask gaia = (pmaskFraction pmask gaia).rounded rnd := by
  have h1 : rnd 1 = 1 := h.exact (by simpa using isFloat_int (p := p) (n := 1) (by simpa using one_le_pow₀ (by norm_num)))
  unfold pmaskFractionD pmaskFraction
  cases gaia with
  | none => dsimp only; split <;> rfl
  | some ig =>
    dsimp only
    split
    · simp [Flt.rounded, h1]
    · rfl

theorem fraction_le_iff (h : Rounds p rnd) (hp : 1 ≤ p) {n c d : ℕ} (hd : 0 < d) (hcd : c ≤ d)
    (hbig : 2 * (n * n * d) < 2 ^ p) {g : Option (Img Bool)} {P : Nat × Nat → Prop} {q : ℚ} (hq : IsFraction n g P q) :
    rnd ((c : ℚ) / d) ≤ rnd q ↔ (c : ℚ) / d ≤ q := by
  obtain ⟨all, bad, ha, hb, hq⟩ := hq
  have hsub : bad ⊆ all := fun p hp => (ha p).2 ((hb p).1 hp).1
  have hall : all.card ≤ n * n := by
    have : all ⊆ pixels n n := fun p hp => mem_pixels.2 ⟨((ha p).1 hp).1, ((ha p).1 hp).2.1⟩
    simpa [pixels] using Finset.card_le_card this
  have hd' : (0 : ℚ) < d := by exact_mod_cast hd
  rcases hq with ⟨hpos, rfl⟩ | ⟨-, rfl⟩
  · rw [h.le_iff hp hpos hd (Finset.card_le_card hsub) hcd
      (lt_of_le_of_lt (Nat.mul_le_mul_left 2 (Nat.mul_le_mul_right d hall)) hbig)]
    rw [div_le_div_iff₀ hd' (by exact_mod_cast hpos)]
    constructor
    · intro hle
      have : (c : ℚ) * all.card ≤ d * bad.card := by exact_mod_cast hle
      linarith
    · intro hle
      have : (c : ℚ) * all.card ≤ d * bad.card := by linarith
      exact_mod_cast this
  · have h1 : (c : ℚ) / d ≤ 1 := by rw [div_le_one hd']; exact_mod_cast hcd
    exact ⟨fun _ => h1, fun _ => h.mono h1⟩

/-- C134: both cuts on the masked fraction are those of exact arithmetic.  The limit is written as a decimal number and
rounded when it is read, the fraction is rounded too, and still an image is rejected iff its masked fraction is at least the
limit as written: for instance at exactly a tenth of the pixels with a limit of 0.1. -/
theorem C134_cut (p : ℕ) (hp : 1 ≤ p) (rnd : ℚ → ℚ) (h : Rounds p rnd) (n c d : ℕ) (hn : 1 ≤ n) (hd : 0 < d) (hcd : c ≤ d)
    (hbig : 2 * (n * n * d) < 2 ^ p) (g : Option (Img Bool)) (hg : ∀ m, g = some m → m.Sq n) (weight : Img ℚ)
    (bmask pmask : Img (BitVec 32)) (flags : BitVec 32) (hw : weight.Sq n) (hm : pmask.Sq n) :
    (skipFracD rnd (c / d) weight bmask flags g = true ↔
      ∃ q, IsFraction n g (Unusable weight bmask flags) q ∧ (c : ℚ) / d ≤ q) ∧
    (retestFracD rnd (c / d) pmask g = true ↔
      ∃ q, IsFraction n g (fun x => pmask.px x.1 x.2 ≠ 0) q ∧ (c : ℚ) / d ≤ q) := by
  obtain ⟨q, q1, q2⟩ := maskedFraction_eq (bmask := bmask) (flags := flags) (g := g) hw hn
  obtain ⟨r, r1, r2⟩ := pmaskFraction_eq hm hn hg
  constructor
  · unfold skipFracD
    rw [computeMaskedFractionD_eq h, q1]
    simp only [Flt.rounded, Flt.geq, decide_eq_true_eq]
    rw [fraction_le_iff h hp hd hcd hbig q2]
    exact ⟨fun hle => ⟨q, q2, hle⟩, fun ⟨q', hq', hle⟩ => isFraction_unique q2 hq' ▸ hle⟩
  · unfold retestFracD
    rw [pmaskFractionD_eq h, r1]
    simp only [Flt.rounded, Flt.geq, decide_eq_true_eq]
    rw [fraction_le_iff h hp hd hcd hbig r2]
    exact ⟨fun hle => ⟨r, r2, hle⟩, fun ⟨q', hq', hle⟩ => isFraction_unique r2 hq' ▸ hle⟩

/-- C134: whether the interpolation refuses an image is decided as in exact arithmetic. -/
theorem C134_interp (p : ℕ) (hp : 1 ≤ p) (rnd : ℚ → ℚ) (h : Rounds p rnd) (nbad npix c d : ℕ) (hd : 0 < d) (hcd : c ≤ d)
    (hpix : 0 < npix) (hle : nbad ≤ npix) (hbig : 2 * (npix * d) < 2 ^ p) :
    (interpAtMaskD rnd (c / d) nbad npix = true ↔ d * nbad ≤ c * npix ∧ nbad ≠ npix) ∧
    (interpRefusedD rnd (c / d) nbad npix = true ↔ c * npix < d * nbad ∨ nbad = npix) := by
  have e : rnd ((nbad : ℚ) / npix) ≤ rnd ((c : ℚ) / d) ↔ nbad * d ≤ npix * c :=
    h.le_iff hp hd hpix hcd hle (by rw [mul_comm d]; exact hbig)
  unfold interpAtMaskD interpRefusedD
  simp only [decide_eq_true_eq, gt_iff_lt]
  rw [e, mul_comm d, mul_comm c]
  constructor
  · constructor
    · rintro ⟨-, h1, h2⟩
      exact ⟨h1, h2.ne⟩
    · rintro ⟨h1, h2⟩
      exact ⟨hpix.ne', h1, lt_of_le_of_ne hle h2⟩
  · rw [← not_le (a := rnd _), e, not_le]

/-- C134: the effective number of epochs is at least 1 without any allowance, exactly 1 for one epoch, and at most the
number of epochs up to rounding. -/
theorem C134_epochs (p : ℕ) (hp : 1 ≤ p) (rnd : ℚ → ℚ) (h : Rounds p rnd) (w : List ℚ) (hne : w ≠ [])
    (hw : ∀ x ∈ w, IsFloat p x ∧ 0 < x) (e : ℚ) (he : NepochRuns rnd w e) :
    1 ≤ e ∧ e ≤ (1 + 1 / 2 ^ p) ^ w.length * w.length ∧ (w.length = 1 → e = 1) := by
  have h1 : rnd 1 = 1 := h.exact (by simpa using isFloat_int (p := p) (n := 1) (by simpa using one_le_pow₀ (by norm_num)))
  rw [show (1 : ℚ) / 2 ^ p = unitOf p from rfl]
  cases w with
  | nil => exact absurd rfl hne
  | cons a l =>
    obtain ⟨s, hs, rfl⟩ := he
    obtain ⟨m1, m2, m3⟩ := foldl_max_spec l a
    have hmem : l.foldl max a ∈ a :: l := by
      rcases m1 with h | h
      · rw [h]; simp
      · simp [h]
    have hpos := (hw _ hmem).2
    obtain ⟨b1, b2, -, b4⟩ := sumRuns_bounds h hp hs fun x hx => ⟨(hw x hx).1, (hw x hx).2.le⟩
    have hu0 := unitOf_pos p
    refine ⟨?_, ?_, ?_⟩
    · have : 1 ≤ s / l.foldl max a := by rw [le_div_iff₀ hpos, one_mul]; exact b1 _ hmem
      have := h.mono this
      rwa [h1] at this
    · have hsum : (a :: l).sum ≤ (a :: l).length * l.foldl max a := by
        have := List.sum_le_card_nsmul (a :: l) (l.foldl max a) (by
          intro x hx
          rcases List.mem_cons.1 hx with rfl | hx
          · exact m2
          · exact m3 x hx)
        simpa using this
      have hq : s / l.foldl max a ≤ (1 + unitOf p) ^ l.length * (a :: l).length := by
        rw [div_le_iff₀ hpos]
        calc s ≤ (1 + unitOf p) ^ l.length * (a :: l).sum := by simpa using b4
          _ ≤ (1 + unitOf p) ^ l.length * ((a :: l).length * l.foldl max a) := mul_le_mul_of_nonneg_left hsum (by positivity)
          _ = _ := by ring
      refine (h.between hp (div_nonneg b2 hpos.le)).2.trans ?_
      calc _ ≤ (1 + unitOf p) * ((1 + unitOf p) ^ l.length * (a :: l).length) := mul_le_mul_of_nonneg_left hq (by positivity)
        _ = _ := by rw [List.length_cons, pow_succ]; ring
    · intro hlen
      obtain rfl : l = [] := by simpa using hlen
      have hsa : s = a := by
        refine le_antisymm (by simpa using b4) (b1 a (by simp))
      rw [hsa]
      simp only [List.foldl_nil] at hpos ⊢
      rw [div_self hpos.ne', h1]

end

/-- The hypotheses of `C134_cut` are met in double precision by a slice of 300 pixels and a limit of 0.1, with pixels that
are masked. -/
example : ∃ rnd, Rounds 53 rnd ∧ 2 * (300 * 300 * 10) < 2 ^ 53 ∧ (⟨300, 300, fun _ _ => (0 : ℚ)⟩ : Img ℚ).Sq 300 ∧
    skipFracD rnd ((1 : ℕ) / (10 : ℕ)) ⟨300, 300, fun _ _ => 0⟩ ⟨300, 300, fun _ _ => 0⟩ 0 none = true := by
  obtain ⟨rnd, h⟩ := exists_rounds 53 (by norm_num)
  refine ⟨rnd, h, by norm_num, ⟨rfl, rfl⟩, ?_⟩
  rw [(C134_cut 53 (by norm_num) rnd h 300 1 10 (by norm_num) (by norm_num) (by norm_num) (by norm_num) none (by simp)
    ⟨300, 300, fun _ _ => 0⟩ ⟨300, 300, fun _ _ => 0⟩ ⟨300, 300, fun _ _ => 0⟩ 0 ⟨rfl, rfl⟩ ⟨rfl, rfl⟩).1]
  refine ⟨1, ⟨pixels 300 300, pixels 300 300, ?_, ?_, .inl ⟨by simp [pixels], ?_⟩⟩, by norm_num⟩
  · intro p; simp [mem_pixels, Counted]
  · intro p; simp [mem_pixels, Counted, Unusable]
  · rw [div_self]
    simp [pixels]

/-- The hypotheses of `C134_interp` and `C134_epochs` are met. -/
example : ∃ rnd, Rounds 53 rnd ∧ interpRefusedD rnd ((9 : ℕ) / (10 : ℕ)) 91 100 = true ∧
    interpAtMaskD rnd ((9 : ℕ) / (10 : ℕ)) 90 100 = true ∧
    (∀ x ∈ [(1 : ℚ), 3], IsFloat 53 x ∧ 0 < x) ∧ ∃ e, NepochRuns rnd [1, 3] e := by
  obtain ⟨rnd, h⟩ := exists_rounds 53 (by norm_num)
  refine ⟨rnd, h, ?_, ?_, ?_, ?_⟩
  · exact (C134_interp 53 (by norm_num) rnd h 91 100 9 10 (by norm_num) (by norm_num) (by norm_num) (by norm_num)
      (by norm_num)).2.2 (.inl (by norm_num))
  · exact (C134_interp 53 (by norm_num) rnd h 90 100 9 10 (by norm_num) (by norm_num) (by norm_num) (by norm_num)
      (by norm_num)).1.2 ⟨by norm_num, by norm_num⟩
  · intro x hx
    simp only [List.mem_cons, List.not_mem_nil, or_false] at hx
    rcases hx with rfl | rfl
    · exact ⟨by simpa using isFloat_int (p := 53) (n := 1) (by norm_num), by norm_num⟩
    · exact ⟨by simpa using isFloat_int (p := 53) (n := 3) (by norm_num), by norm_num⟩
  · obtain ⟨s, hs⟩ := exists_sumRuns rnd [1, 3]
    exact ⟨_, s, hs, rfl⟩

end Pizza
