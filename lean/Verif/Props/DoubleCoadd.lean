import Verif.Model.DoubleCoadd
import Verif.Lemmas.Double
import Mathlib.Algebra.BigOperators.Group.List.Basic
import Mathlib.Algebra.Order.BigOperators.Group.List
import Mathlib.Algebra.Order.Ring.Pow

/-! C131: weights and coadds in floating point arithmetic. -/

namespace Pizza

/-- The weighted sum of pixels. -/
def wsum (l : List (ℚ × ℚ)) : ℚ := (l.map fun e => e.1 * e.2).sum

/-- The weighted sum of the absolute values of pixels. -/
def wabs (l : List (ℚ × ℚ)) : ℚ := (l.map fun e => |e.1 * e.2|).sum

section
variable {p : ℕ} {rnd : ℚ → ℚ}

/-- The unit of rounding, `2⁻ᵖ`. -/
def unitOf (p : ℕ) : ℚ := 1 / 2 ^ p

theorem unitOf_pos (p : ℕ) : 0 < unitOf p := by unfold unitOf; positivity

theorem unitOf_le (hp : 1 ≤ p) : unitOf p ≤ 1 / 2 := by
  unfold unitOf
  have : (2 : ℚ) ≤ 2 ^ p := by
    calc (2 : ℚ) = 2 ^ 1 := by norm_num
      _ ≤ 2 ^ p := pow_le_pow_right₀ (by norm_num) hp
  gcongr

theorem Rounds.err (h : Rounds p rnd) (hp : 1 ≤ p) (x : ℚ) : |rnd x - x| ≤ unitOf p * |x| := by
  have := h.rel hp x
  rw [abs_sub_comm]
  refine this.trans (le_of_eq ?_)
  unfold unitOf
  ring

theorem Rounds.between (h : Rounds p rnd) (hp : 1 ≤ p) {x : ℚ} (hx : 0 ≤ x) :
    (1 - unitOf p) * x ≤ rnd x ∧ rnd x ≤ (1 + unitOf p) * x := by
  have := h.err hp x
  rw [abs_of_nonneg hx] at this
  obtain ⟨h1, h2⟩ := abs_le.1 this
  constructor <;> linarith

theorem sumRuns_float (h : Rounds p rnd) {l : List ℚ} {s : ℚ} (hs : SumRuns rnd l s) (hl : ∀ x ∈ l, IsFloat p x) :
    IsFloat p s := by
  cases hs with
  | nil => exact isFloat_zero p
  | one x => exact hl s (by simp)
  | add _ _ _ => exact h.float _

/-- The rounded sum is not less than any of its terms, and within `(1 ± u) ^ (n - 1)` of the sum. -/
theorem sumRuns_bounds (h : Rounds p rnd) (hp : 1 ≤ p) {l : List ℚ} {s : ℚ} (hs : SumRuns rnd l s)
    (hl : ∀ x ∈ l, IsFloat p x ∧ 0 ≤ x) :
    (∀ x ∈ l, x ≤ s) ∧ 0 ≤ s ∧ (1 - unitOf p) ^ (l.length - 1) * l.sum ≤ s ∧ s ≤ (1 + unitOf p) ^ (l.length - 1) * l.sum := by
  have hu0 := unitOf_pos p
  have hu1 := unitOf_le hp
  induction hs with
  | nil => simp
  | one x =>
    refine ⟨by simp, (hl x (by simp)).2, by simp, by simp⟩
  | @add l a b s t hperm ha hb iha ihb =>
    have hmem : ∀ x, x ∈ l ↔ x ∈ a ∨ x ∈ b := fun x => by rw [hperm.mem_iff, List.mem_append]
    have hla : ∀ x ∈ a, IsFloat p x ∧ 0 ≤ x := fun x hx => hl x ((hmem x).2 (.inl hx))
    have hlb : ∀ x ∈ b, IsFloat p x ∧ 0 ≤ x := fun x hx => hl x ((hmem x).2 (.inr hx))
    obtain ⟨a1, a2, a3, a4⟩ := iha hla
    obtain ⟨b1, b2, b3, b4⟩ := ihb hlb
    have hsf := sumRuns_float h ha fun x hx => (hla x hx).1
    have htf := sumRuns_float h hb fun x hx => (hlb x hx).1
    have hsum : l.sum = a.sum + b.sum := by rw [hperm.sum_eq, List.sum_append]
    have hlen : l.length = a.length + b.length := by rw [hperm.length_eq, List.length_append]
    have has : 0 ≤ a.sum := List.sum_nonneg fun x hx => (hla x hx).2
    have hbs : 0 ≤ b.sum := List.sum_nonneg fun x hx => (hlb x hx).2
    have hge1 : s ≤ rnd (s + t) := by
      have := h.mono (show s ≤ s + t by linarith)
      rwa [h.exact hsf] at this
    have hge2 : t ≤ rnd (s + t) := by
      have := h.mono (show t ≤ s + t by linarith)
      rwa [h.exact htf] at this
    refine ⟨?_, h.nonneg (by linarith), ?_⟩
    · intro x hx
      rcases (hmem x).1 hx with hx | hx
      · exact (a1 x hx).trans hge1
      · exact (b1 x hx).trans hge2
    rcases Nat.eq_zero_or_pos a.length with h0 | hapos
    · obtain rfl := List.length_eq_zero_iff.1 h0
      have hs0 : s = 0 := le_antisymm (by simpa using a4) a2
      rw [hs0, zero_add, h.exact htf, hsum, hlen]
      simpa using ⟨b3, b4⟩
    rcases Nat.eq_zero_or_pos b.length with h0 | hbpos
    · obtain rfl := List.length_eq_zero_iff.1 h0
      have ht0 : t = 0 := le_antisymm (by simpa using b4) b2
      rw [ht0, add_zero, h.exact hsf, hsum, hlen]
      simpa using ⟨a3, a4⟩
    obtain ⟨r1, r2⟩ := h.between hp (show 0 ≤ s + t by linarith)
    obtain ⟨k, hk⟩ : ∃ k, l.length - 1 = k + 1 := ⟨l.length - 2, by omega⟩
    have hka : a.length - 1 ≤ k := by omega
    have hkb : b.length - 1 ≤ k := by omega
    rw [hk, hsum]
    have up : ∀ j, j ≤ k → ∀ y : ℚ, 0 ≤ y → (1 + unitOf p) ^ j * y ≤ (1 + unitOf p) ^ k * y := fun j hj y hy =>
      mul_le_mul_of_nonneg_right (pow_le_pow_right₀ (by linarith) hj) hy
    have dn : ∀ j, j ≤ k → ∀ y : ℚ, 0 ≤ y → (1 - unitOf p) ^ k * y ≤ (1 - unitOf p) ^ j * y := fun j hj y hy =>
      mul_le_mul_of_nonneg_right (pow_le_pow_of_le_one (by linarith) (by linarith) hj) hy
    constructor
    · calc (1 - unitOf p) ^ (k + 1) * (a.sum + b.sum)
          = (1 - unitOf p) * ((1 - unitOf p) ^ k * a.sum + (1 - unitOf p) ^ k * b.sum) := by ring
        _ ≤ (1 - unitOf p) * (s + t) := by
          refine mul_le_mul_of_nonneg_left ?_ (by linarith)
          exact add_le_add ((dn _ hka _ has).trans a3) ((dn _ hkb _ hbs).trans b3)
        _ ≤ _ := r1
    · calc rnd (s + t) ≤ (1 + unitOf p) * (s + t) := r2
        _ ≤ (1 + unitOf p) * ((1 + unitOf p) ^ k * a.sum + (1 + unitOf p) ^ k * b.sum) := by
          refine mul_le_mul_of_nonneg_left ?_ (by linarith)
          exact add_le_add (a4.trans (up _ hka _ has)) (b4.trans (up _ hkb _ hbs))
        _ = _ := by ring

/-- What one normalisation may lose. -/
def lowOf (u : ℚ) (n : ℕ) : ℚ := (1 - u) / (1 + u) ^ (n - 1)

/-- What one normalisation may gain. -/
def highOf (u : ℚ) (n : ℕ) : ℚ := (1 + u) / (1 - u) ^ (n - 1)

theorem lowOf_pos (hp : 1 ≤ p) (n : ℕ) : 0 < lowOf (unitOf p) n := by
  have h0 := unitOf_pos p
  have h1 := unitOf_le hp
  unfold lowOf
  have : 0 < 1 - unitOf p := by linarith
  positivity

theorem highOf_pos (hp : 1 ≤ p) (n : ℕ) : 0 < highOf (unitOf p) n := by
  have h0 := unitOf_pos p
  have h1 := unitOf_le hp
  unfold highOf
  have : 0 < 1 - unitOf p := by linarith
  positivity

/-- Some order of summation. -/
theorem exists_sumRuns (rnd : ℚ → ℚ) (l : List ℚ) : ∃ s, SumRuns rnd l s := by
  induction l with
  | nil => exact ⟨0, .nil⟩
  | cons x l ih =>
    obtain ⟨s, hs⟩ := ih
    exact ⟨_, .add (a := [x]) (b := l) (.refl _) (.one x) hs⟩

theorem exists_weightRuns (rnd : ℚ → ℚ) (l : List ℚ) : ∃ l'', WeightRuns rnd l l'' := by
  obtain ⟨s, hs⟩ := exists_sumRuns rnd l
  obtain ⟨t, ht⟩ := exists_sumRuns rnd (l.map fun w => rnd (w / s))
  exact ⟨_, _, ⟨s, hs, rfl⟩, ⟨t, ht, rfl⟩⟩

/-- C131: each weight is a positive fraction of the whole, at most 1, and within rounding of its share. -/
theorem C131_normalised (p : ℕ) (hp : 1 ≤ p) (rnd : ℚ → ℚ) (h : Rounds p rnd) (l l' : List ℚ)
    (hl : ∀ x ∈ l, IsFloat p x ∧ 0 < x) (hn : NormRuns rnd l l') :
    List.Forall₂ (fun w w' => IsFloat p w' ∧ 0 < w' ∧ w' ≤ 1 ∧
      lowOf (unitOf p) l.length * (w / l.sum) ≤ w' ∧ w' ≤ highOf (unitOf p) l.length * (w / l.sum)) l l' := by
  obtain ⟨s, hs, rfl⟩ := hn
  have hu0 := unitOf_pos p
  have hu1 := unitOf_le hp
  obtain ⟨b1, b2, b3, b4⟩ := sumRuns_bounds h hp hs fun x hx => ⟨(hl x hx).1, (hl x hx).2.le⟩
  rw [List.forall₂_map_right_iff, List.forall₂_same]
  intro w hw
  have hw0 := (hl w hw).2
  have hs0 : 0 < s := hw0.trans_le (b1 w hw)
  have hS0 : 0 < l.sum := by
    have hle : w ≤ l.sum := List.single_le_sum (fun x hx => (hl x hx).2.le) w hw
    linarith
  have hq : 0 < w / s := div_pos hw0 hs0
  obtain ⟨r1, r2⟩ := h.between hp hq.le
  have hone : IsFloat p 1 := by
    have := isFloat_int (p := p) (n := 1) (by rw [abs_one]; exact one_le_pow₀ (by norm_num))
    simpa using this
  have hd1 : 0 < 1 - unitOf p := by linarith
  have hd2 : 0 < 1 + unitOf p := by linarith
  refine ⟨h.float _, h.pos hp hq, ?_, ?_, ?_⟩
  · have := h.mono (show w / s ≤ 1 by rw [div_le_one hs0]; exact b1 w hw)
    rwa [h.exact hone] at this
  · refine le_trans ?_ r1
    unfold lowOf
    rw [div_mul_div_comm, mul_div_assoc']
    exact div_le_div_of_nonneg_left (by positivity) hs0 b4
  · refine r2.trans ?_
    unfold highOf
    rw [div_mul_div_comm, mul_div_assoc']
    exact div_le_div_of_nonneg_left (by positivity) (by positivity) b3

/-- Three equal weights. -/
example : ∃ rnd, Rounds 53 rnd ∧ ∃ l', NormRuns rnd [5, 5, 5] l' ∧ ∀ w ∈ l', 0 < w ∧ w ≤ 1 := by
  obtain ⟨rnd, h⟩ := exists_rounds 53 (by norm_num)
  obtain ⟨s, hs⟩ := exists_sumRuns rnd [5, 5, 5]
  refine ⟨rnd, h, _, ⟨s, hs, rfl⟩, ?_⟩
  have := C131_normalised 53 (by norm_num) rnd h [5, 5, 5] _ (by
    intro w hw
    simp only [List.mem_cons, List.not_mem_nil, or_false, or_self] at hw
    subst hw
    exact ⟨⟨5, 0, by norm_num, by norm_num⟩, by norm_num⟩) ⟨s, hs, rfl⟩
  intro w hw
  obtain ⟨i, hi, rfl⟩ := List.mem_iff_getElem.1 hw
  have := (List.forall₂_iff_get.1 this).2 i (by simpa using hi) hi
  exact ⟨this.2.1, this.2.2.1⟩

/-- The weights after both normalisations: positive, at most one, and within rounding of their shares. -/
theorem C131_weights (p : ℕ) (hp : 1 ≤ p) (rnd : ℚ → ℚ) (h : Rounds p rnd) (l l'' : List ℚ)
    (hl : ∀ x ∈ l, IsFloat p x ∧ 0 < x) (hn : WeightRuns rnd l l'') :
    List.Forall₂ (fun w w'' => 0 < w'' ∧ w'' ≤ 1 ∧
      lowOf (unitOf p) l.length ^ 2 / highOf (unitOf p) l.length * (w / l.sum) ≤ w'' ∧
      w'' ≤ highOf (unitOf p) l.length ^ 2 / lowOf (unitOf p) l.length * (w / l.sum)) l l'' := by
  obtain ⟨l', h1, h2⟩ := hn
  have f1 := C131_normalised p hp rnd h l l' hl h1
  have hlen := f1.length_eq
  have hl' : ∀ x ∈ l', IsFloat p x ∧ 0 < x := by
    intro x hx
    obtain ⟨i, hi, rfl⟩ := List.mem_iff_getElem.1 hx
    have := (List.forall₂_iff_get.1 f1).2 i (by omega) hi
    exact ⟨this.1, this.2.1⟩
  have f2 := C131_normalised p hp rnd h l' l'' hl' h2
  rw [← hlen] at f2
  have hlo := lowOf_pos hp l.length
  have hhi := highOf_pos hp l.length
  generalize lowOf (unitOf p) l.length = lo at *
  generalize highOf (unitOf p) l.length = hi at *
  rcases eq_or_ne l [] with rfl | hne
  · cases f1
    cases f2
    exact .nil
  have hS0 : 0 < l.sum := List.sum_pos l (fun x hx => (hl x hx).2) hne
  -- the weights after the first normalisation sum to about one
  have hsum : ∀ {a b : List ℚ} {S : ℚ}, List.Forall₂ (fun w w' => IsFloat p w' ∧ 0 < w' ∧ w' ≤ 1 ∧
      lo * (w / S) ≤ w' ∧ w' ≤ hi * (w / S)) a b → lo * (a.sum / S) ≤ b.sum ∧ b.sum ≤ hi * (a.sum / S) := by
    intro a b S hab
    induction hab with
    | nil => simp
    | cons hh _ ih =>
      obtain ⟨-, -, -, h3, h4⟩ := hh
      simp only [List.sum_cons, add_div, mul_add]
      exact ⟨add_le_add h3 ih.1, add_le_add h4 ih.2⟩
  obtain ⟨s1, s2⟩ := hsum f1
  rw [div_self hS0.ne', mul_one] at s1 s2
  have hS' : 0 < l'.sum := hlo.trans_le s1
  -- join the two
  rw [List.forall₂_iff_get]
  refine ⟨by rw [hlen, f2.length_eq], fun i hi1 hi2 => ?_⟩
  obtain ⟨-, g1, -, g3, g4⟩ := (List.forall₂_iff_get.1 f1).2 i hi1 (by omega)
  obtain ⟨-, k1, k2, k3, k4⟩ := (List.forall₂_iff_get.1 f2).2 i (by omega) hi2
  generalize l.get ⟨i, hi1⟩ = w at *
  generalize l'.get ⟨i, _⟩ = w' at *
  generalize l''.get ⟨i, hi2⟩ = w'' at *
  refine ⟨k1, k2, ?_, ?_⟩
  · refine le_trans ?_ k3
    calc lo ^ 2 / hi * (w / l.sum) = lo * (lo * (w / l.sum) / hi) := by ring
      _ ≤ lo * (w' / l'.sum) := by
        refine mul_le_mul_of_nonneg_left ?_ hlo.le
        exact div_le_div₀ g1.le g3 hS' s2
  · refine k4.trans ?_
    calc hi * (w' / l'.sum) ≤ hi * (hi * (w / l.sum) / lo) := by
          refine mul_le_mul_of_nonneg_left ?_ hhi.le
          exact div_le_div₀ (g1.le.trans g4) g4 hlo s1
      _ = hi ^ 2 / lo * (w / l.sum) := by ring

/-- Weights of 1 and 3: the weight of the second epoch is 0.75 within 1e-15. -/
example : ∃ rnd, Rounds 53 rnd ∧ ∃ w1 w2, WeightRuns rnd [1, 3] [w1, w2] ∧ |w2 - 3 / 4| ≤ 1 / 10 ^ 15 := by
  obtain ⟨rnd, h⟩ := exists_rounds 53 (by norm_num)
  obtain ⟨l'', hn⟩ := exists_weightRuns rnd [1, 3]
  have := C131_weights 53 (by norm_num) rnd h [1, 3] l'' (by
      intro w hw
      rcases List.mem_cons.1 hw with rfl | hw
      · exact ⟨⟨1, 0, by norm_num, by norm_num⟩, by norm_num⟩
      · rw [List.mem_singleton] at hw
        subst hw
        exact ⟨⟨3, 0, by norm_num, by norm_num⟩, by norm_num⟩) hn
  cases this with | cons h1 this => cases this with | cons h2 this =>
  cases this
  refine ⟨rnd, h, _, _, hn, ?_⟩
  obtain ⟨-, -, g1, g2⟩ := h2
  norm_num [unitOf, highOf, lowOf] at g1 g2
  rw [abs_le]
  constructor <;> norm_num <;> linarith

end

/-! The sum over epochs -/

section
variable {pp pa ps : ℕ} {rp ra rs : ℚ → ℚ}

/-- What one addition to the stored sum may gain. -/
def stepOf (ua us : ℚ) : ℚ := (1 + ua) * (1 + us)

theorem coaddPixelD_bound (hrp : Rounds pp rp) (hra : Rounds pa ra) (hrs : Rounds ps rs) (h1 : 1 ≤ pp) (h2 : 1 ≤ pa)
    (h3 : 1 ≤ ps) (l : List (ℚ × ℚ)) (acc : ℚ) :
    |coaddPixelD rp ra rs acc l - (acc + wsum l)| ≤
      (stepOf (unitOf pa) (unitOf ps) ^ l.length * (1 + unitOf pp) - 1) * wabs l +
      (stepOf (unitOf pa) (unitOf ps) ^ l.length - 1) * |acc| := by
  have hup := unitOf_pos pp
  have hua := unitOf_pos pa
  have hus := unitOf_pos ps
  obtain ⟨A, hA⟩ : ∃ A, A = stepOf (unitOf pa) (unitOf ps) := ⟨_, rfl⟩
  have hA1 : 1 ≤ A := by rw [hA, stepOf]; nlinarith
  rw [← hA]
  induction l generalizing acc with
  | nil => simp [coaddPixelD, wsum, wabs]
  | cons e l ih =>
    obtain ⟨x, w⟩ := e
    obtain ⟨q, hq⟩ : ∃ q, q = rp (x * w) := ⟨_, rfl⟩
    obtain ⟨acc', hacc'⟩ : ∃ a, a = rs (ra (acc + q)) := ⟨_, rfl⟩
    have hstep : coaddPixelD rp ra rs acc ((x, w) :: l) = coaddPixelD rp ra rs acc' l := by
      rw [coaddPixelD, ← hq, ← hacc']
    have hws : wsum ((x, w) :: l) = x * w + wsum l := rfl
    have hwa : wabs ((x, w) :: l) = |x * w| + wabs l := rfl
    have e1 := hrp.err h1 (x * w)
    rw [← hq] at e1
    have e2 := hra.err h2 (acc + q)
    have e3 := hrs.err h3 (ra (acc + q))
    rw [← hacc'] at e3
    have hq1 : |q| ≤ (1 + unitOf pp) * |x * w| := by
      have := abs_add_le (x * w) (q - x * w)
      rw [add_sub_cancel] at this
      linarith
    have hra1 : |ra (acc + q)| ≤ (1 + unitOf pa) * |acc + q| := by
      have := abs_add_le (acc + q) (ra (acc + q) - (acc + q))
      rw [add_sub_cancel] at this
      linarith
    have hsum : |acc + q| ≤ |acc| + (1 + unitOf pp) * |x * w| := (abs_add_le acc q).trans (by linarith)
    have hd : |acc' - (acc + q)| ≤ (A - 1) * |acc + q| := by
      have t1 : |acc' - (acc + q)| ≤ |acc' - ra (acc + q)| + |ra (acc + q) - (acc + q)| := abs_sub_le _ _ _
      have t2 : unitOf ps * |ra (acc + q)| ≤ unitOf ps * ((1 + unitOf pa) * |acc + q|) :=
        mul_le_mul_of_nonneg_left hra1 hus.le
      rw [hA, stepOf]
      linarith
    have hd' : |acc' - (acc + x * w)| ≤ (A - 1) * |acc| + (A * (1 + unitOf pp) - 1) * |x * w| := by
      have t1 : |acc' - (acc + x * w)| ≤ |acc' - (acc + q)| + |(acc + q) - (acc + x * w)| := abs_sub_le _ _ _
      rw [show acc + q - (acc + x * w) = q - x * w by ring] at t1
      have t2 : (A - 1) * |acc + q| ≤ (A - 1) * (|acc| + (1 + unitOf pp) * |x * w|) :=
        mul_le_mul_of_nonneg_left hsum (by linarith)
      nlinarith
    have habs : |acc'| ≤ A * (|acc| + (1 + unitOf pp) * |x * w|) := by
      have t1 := abs_add_le (acc + q) (acc' - (acc + q))
      rw [add_sub_cancel] at t1
      have t2 : A * |acc + q| ≤ A * (|acc| + (1 + unitOf pp) * |x * w|) := mul_le_mul_of_nonneg_left hsum (by linarith)
      linarith
    have ih' := ih acc'
    rw [hstep, hws, hwa, List.length_cons]
    have hAn : 1 ≤ A ^ l.length := one_le_pow₀ hA1
    have hAnn : A ^ l.length ≤ A ^ (l.length + 1) := pow_le_pow_right₀ hA1 (Nat.le_succ _)
    have hwl : 0 ≤ wabs l := List.sum_nonneg (by
      intro y hy
      obtain ⟨e, -, rfl⟩ := List.mem_map.1 hy
      exact abs_nonneg _)
    calc |coaddPixelD rp ra rs acc' l - (acc + (x * w + wsum l))|
        ≤ |coaddPixelD rp ra rs acc' l - (acc' + wsum l)| + |acc' + wsum l - (acc + (x * w + wsum l))| := abs_sub_le _ _ _
      _ ≤ ((A ^ l.length * (1 + unitOf pp) - 1) * wabs l + (A ^ l.length - 1) * |acc'|) +
          ((A - 1) * |acc| + (A * (1 + unitOf pp) - 1) * |x * w|) := by
        refine add_le_add ih' ?_
        rw [show acc' + wsum l - (acc + (x * w + wsum l)) = acc' - (acc + x * w) by ring]
        exact hd'
      _ ≤ ((A ^ (l.length + 1) * (1 + unitOf pp) - 1) * wabs l +
          (A ^ l.length - 1) * (A * (|acc| + (1 + unitOf pp) * |x * w|))) +
          ((A - 1) * |acc| + (A * (1 + unitOf pp) - 1) * |x * w|) := by
        have t1 : (A ^ l.length * (1 + unitOf pp) - 1) * wabs l ≤ (A ^ (l.length + 1) * (1 + unitOf pp) - 1) * wabs l := by
          refine mul_le_mul_of_nonneg_right ?_ hwl
          nlinarith
        have t2 : (A ^ l.length - 1) * |acc'| ≤ (A ^ l.length - 1) * (A * (|acc| + (1 + unitOf pp) * |x * w|)) :=
          mul_le_mul_of_nonneg_left habs (by linarith)
        linarith
      _ = (A ^ (l.length + 1) * (1 + unitOf pp) - 1) * (|x * w| + wabs l) + (A ^ (l.length + 1) - 1) * |acc| := by
        rw [pow_succ]
        ring

theorem lowOf_add_highOf {u : ℚ} (h0 : 0 ≤ u) (h1 : u ≤ 1 / 2) (n : ℕ) : 2 ≤ lowOf u n + highOf u n := by
  unfold lowOf highOf
  generalize n - 1 = m
  have a1 : 0 < 1 - u := by linarith
  have a2 : 0 < 1 + u := by linarith
  have b1 : 1 + ((m + 1 : ℕ) : ℚ) * u ≤ (1 + u) ^ (m + 1) := one_add_mul_le_pow (by linarith) _
  have b2 : 1 + ((m + 1 : ℕ) : ℚ) * (-u) ≤ (1 + -u) ^ (m + 1) := one_add_mul_le_pow (by linarith) _
  rw [← sub_eq_add_neg] at b2
  have c : (1 - u) / (1 + u) ^ m + (1 + u) / (1 - u) ^ m =
      ((1 - u) ^ (m + 1) + (1 + u) ^ (m + 1)) / ((1 + u) * (1 - u)) ^ m := by
    rw [mul_pow]
    field_simp
    ring
  rw [c, le_div_iff₀ (by positivity)]
  have d : ((1 + u) * (1 - u)) ^ m ≤ 1 := pow_le_one₀ (by positivity) (by nlinarith)
  linarith

/-- Both normalisations together lose no more than they may gain. -/
theorem lose_le_gain {p : ℕ} (hp : 1 ≤ p) (n : ℕ) :
    2 - highOf (unitOf p) n ^ 2 / lowOf (unitOf p) n ≤ lowOf (unitOf p) n ^ 2 / highOf (unitOf p) n := by
  have hs := lowOf_add_highOf (unitOf_pos p).le (unitOf_le hp) n
  have hlo := lowOf_pos hp n
  have hhi := highOf_pos hp n
  generalize lowOf (unitOf p) n = lo at *
  generalize highOf (unitOf p) n = hi at *
  have h1 : lo ^ 2 / hi + hi ^ 2 / lo = (lo ^ 3 + hi ^ 3) / (hi * lo) := by field_simp
  have h2 : 2 ≤ lo ^ 2 / hi + hi ^ 2 / lo := by
    rw [h1, le_div_iff₀ (by positivity)]
    nlinarith [mul_pos hlo hhi, sq_nonneg (lo - hi), mul_nonneg (add_pos hlo hhi).le (sq_nonneg (lo - hi))]
  linarith

theorem weighted_close {δ S : ℚ} {l l'' : List ℚ}
    (hw : List.Forall₂ (fun w w'' => 0 ≤ w / S ∧ |w'' - w / S| ≤ δ * (w / S)) l l'') (xs : List ℚ) :
    |wsum (xs.zip l'') - (List.zipWith (fun x w => x * w) xs l).sum / S| ≤
        δ * ((List.zipWith (fun x w => |x| * w) xs l).sum / S) ∧
      wabs (xs.zip l'') ≤ (1 + δ) * ((List.zipWith (fun x w => |x| * w) xs l).sum / S) := by
  induction hw generalizing xs with
  | nil => simp [wsum, wabs]
  | @cons w w'' l l'' h _ ih =>
    obtain ⟨h0, h⟩ := h
    cases xs with
    | nil => simp [wsum, wabs]
    | cons x xs =>
      obtain ⟨i1, i2⟩ := ih xs
      simp only [List.zip_cons_cons, List.zipWith_cons_cons, List.sum_cons, add_div, mul_add]
      have e1 : wsum ((x, w'') :: xs.zip l'') = x * w'' + wsum (xs.zip l'') := rfl
      have e2 : wabs ((x, w'') :: xs.zip l'') = |x * w''| + wabs (xs.zip l'') := rfl
      rw [e1, e2]
      have h1 : |x * w'' - x * w / S| ≤ δ * (|x| * w / S) := by
        rw [show x * w'' - x * w / S = x * (w'' - w / S) by ring, abs_mul]
        calc |x| * |w'' - w / S| ≤ |x| * (δ * (w / S)) := mul_le_mul_of_nonneg_left h (abs_nonneg x)
          _ = _ := by ring
      have h2 : |x * w''| ≤ (1 + δ) * (|x| * w / S) := by
        have t := abs_add_le (x * w / S) (x * w'' - x * w / S)
        rw [add_sub_cancel] at t
        have t2 : |x * w / S| = |x| * w / S := by rw [mul_div_assoc, abs_mul, abs_of_nonneg h0, mul_div_assoc]
        rw [t2] at t
        linarith
      constructor
      · rw [show x * w'' + wsum (xs.zip l'') - (x * w / S + (List.zipWith (fun x w => x * w) xs l).sum / S) =
          (x * w'' - x * w / S) + (wsum (xs.zip l'') - (List.zipWith (fun x w => x * w) xs l).sum / S) by ring]
        exact (abs_add_le _ _).trans (add_le_add h1 i1)
      · exact add_le_add h2 i2

theorem weights_close {p : ℕ} (hp : 1 ≤ p) {rnd : ℚ → ℚ} (h : Rounds p rnd) {l l'' : List ℚ}
    (hl : ∀ w ∈ l, IsFloat p w ∧ 0 < w) (hn : WeightRuns rnd l l'') :
    List.Forall₂ (fun w w'' => 0 ≤ w / l.sum ∧ |w'' - w / l.sum| ≤
      (highOf (unitOf p) l.length ^ 2 / lowOf (unitOf p) l.length - 1) * (w / l.sum)) l l'' := by
  have hf := C131_weights p hp rnd h l l'' hl hn
  have hlose := lose_le_gain hp l.length
  have hS : 0 ≤ l.sum := List.sum_nonneg fun w hw => (hl w hw).2.le
  rw [List.forall₂_iff_get] at hf ⊢
  refine ⟨hf.1, fun i hi1 hi2 => ?_⟩
  obtain ⟨-, -, g1, g2⟩ := hf.2 i hi1 hi2
  have hw0 : 0 ≤ l.get ⟨i, hi1⟩ / l.sum := div_nonneg (hl _ (List.get_mem _ _)).2.le hS
  generalize l.get ⟨i, hi1⟩ / l.sum = v at *
  refine ⟨hw0, abs_le.2 ⟨?_, by linarith⟩⟩
  have := mul_le_mul_of_nonneg_right hlose hw0
  linarith

/-- C131: the weights sum to one, up to rounding. -/
theorem C131_sum (p : ℕ) (hp : 1 ≤ p) (rnd : ℚ → ℚ) (h : Rounds p rnd) (l l'' : List ℚ) (hne : l ≠ [])
    (hl : ∀ x ∈ l, IsFloat p x ∧ 0 < x) (hn : WeightRuns rnd l l'') :
    |l''.sum - 1| ≤ highOf (unitOf p) l.length ^ 2 / lowOf (unitOf p) l.length - 1 := by
  have hS0 : 0 < l.sum := List.sum_pos l (fun x hx => (hl x hx).2) hne
  have key : ∀ {δ S : ℚ} {a b : List ℚ}, List.Forall₂ (fun w w'' => 0 ≤ w / S ∧ |w'' - w / S| ≤ δ * (w / S)) a b →
      |b.sum - a.sum / S| ≤ δ * (a.sum / S) := by
    intro δ S a b hab
    induction hab with
    | nil => simp
    | @cons w w'' a b hh _ ih =>
      simp only [List.sum_cons, add_div, mul_add]
      rw [show w'' + b.sum - (w / S + a.sum / S) = (w'' - w / S) + (b.sum - a.sum / S) by ring]
      exact (abs_add_le _ _).trans (add_le_add hh.2 ih)
  have := key (weights_close hp h hl hn)
  rwa [div_self hS0.ne', mul_one] at this

/-- Fifty equal weights of 1/4 sum to one within 1e-13. -/
example : ∃ rnd, Rounds 53 rnd ∧ ∃ l'', WeightRuns rnd (List.replicate 50 (1 / 4)) l'' ∧ |l''.sum - 1| ≤ 1 / 10 ^ 13 := by
  obtain ⟨rnd, h⟩ := exists_rounds 53 (by norm_num)
  obtain ⟨l'', hn⟩ := exists_weightRuns rnd (List.replicate 50 (1 / 4))
  refine ⟨rnd, h, l'', hn, (C131_sum 53 (by norm_num) rnd h _ l'' (by simp [List.replicate_succ]) (by
      intro w hw
      rw [List.eq_of_mem_replicate hw]
      exact ⟨⟨1, -2, by norm_num, by norm_num⟩, by norm_num⟩) hn).trans ?_⟩
  rw [List.length_replicate]
  norm_num [unitOf, highOf, lowOf]

/-- C131: a pixel of the coadd is the weighted mean of the pixels of the epochs, with the weights as they came from
the epochs, up to the rounding of the weights, the products, the sums and the values stored. -/
theorem C131_mean (pw pp pa ps : ℕ) (h1 : 1 ≤ pw) (h2 : 1 ≤ pp) (h3 : 1 ≤ pa) (h4 : 1 ≤ ps) (rw' rp ra rs : ℚ → ℚ)
    (hrw : Rounds pw rw') (hrp : Rounds pp rp) (hra : Rounds pa ra) (hrs : Rounds ps rs) (xs l l'' : List ℚ)
    (hl : ∀ w ∈ l, IsFloat pw w ∧ 0 < w) (hlen : xs.length = l.length) (hn : WeightRuns rw' l l'') :
    |coaddPixelD rp ra rs 0 (xs.zip l'') - (List.zipWith (fun x w => x * w) xs l).sum / l.sum| ≤
      (((1 + unitOf pa) * (1 + unitOf ps)) ^ l.length * (1 + unitOf pp) *
        (highOf (unitOf pw) l.length ^ 2 / lowOf (unitOf pw) l.length) - 1) *
      ((List.zipWith (fun x w => |x| * w) xs l).sum / l.sum) := by
  have hf := C131_weights pw h1 rw' hrw l l'' hl hn
  have hll : l''.length = l.length := hf.length_eq.symm
  obtain ⟨K, hK⟩ : ∃ K, K = highOf (unitOf pw) l.length ^ 2 / lowOf (unitOf pw) l.length := ⟨_, rfl⟩
  have hclose := weights_close h1 hrw hl hn
  rw [← hK] at hclose ⊢
  obtain ⟨c1, c2⟩ := weighted_close hclose xs
  have hzip : (xs.zip l'').length = l.length := by rw [List.length_zip, hll, hlen, min_self]
  have hb := coaddPixelD_bound hrp hra hrs h2 h3 h4 (xs.zip l'') 0
  rw [hzip, abs_zero, mul_zero, add_zero, zero_add] at hb
  change _ ≤ (((1 + unitOf pa) * (1 + unitOf ps)) ^ l.length * (1 + unitOf pp) - 1) * _ at hb
  have hB : 1 ≤ ((1 + unitOf pa) * (1 + unitOf ps)) ^ l.length * (1 + unitOf pp) := by
    have u1 := unitOf_pos pa
    have u2 := unitOf_pos ps
    have u3 := unitOf_pos pp
    have : 1 ≤ ((1 + unitOf pa) * (1 + unitOf ps)) ^ l.length := one_le_pow₀ (by nlinarith)
    nlinarith
  generalize ((1 + unitOf pa) * (1 + unitOf ps)) ^ l.length * (1 + unitOf pp) = B at *
  rw [show 1 + (K - 1) = K by ring] at c2
  calc _ ≤ |coaddPixelD rp ra rs 0 (xs.zip l'') - wsum (xs.zip l'')| +
        |wsum (xs.zip l'') - (List.zipWith (fun x w => x * w) xs l).sum / l.sum| := abs_sub_le _ _ _
    _ ≤ (B - 1) * (K * ((List.zipWith (fun x w => |x| * w) xs l).sum / l.sum)) +
        (K - 1) * ((List.zipWith (fun x w => |x| * w) xs l).sum / l.sum) := by
      refine add_le_add (hb.trans ?_) c1
      exact mul_le_mul_of_nonneg_left c2 (by linarith)
    _ = _ := by ring

/-- Two epochs of weights 1 and 3 with pixels 10 and 1/10, weights in doubles and pixels stored in singles. -/
example : ∃ rd rf, Rounds 53 rd ∧ Rounds 24 rf ∧ ∃ l'', WeightRuns rd [1, 3] l'' ∧
    |coaddPixelD rd rd rf 0 ([10, 1 / 10].zip l'') - (10 * 1 + 1 / 10 * 3) / 4| ≤ 1 / 1000000 := by
  obtain ⟨rd, hd⟩ := exists_rounds 53 (by norm_num)
  obtain ⟨rf, hf⟩ := exists_rounds 24 (by norm_num)
  obtain ⟨l'', hn⟩ := exists_weightRuns rd [1, 3]
  refine ⟨rd, rf, hd, hf, l'', hn, ?_⟩
  have := C131_mean 53 53 53 24 (by norm_num) (by norm_num) (by norm_num) (by norm_num) rd rd rd rf hd hd hd hf
    [10, 1 / 10] [1, 3] l'' (by
      intro w hw
      rcases List.mem_cons.1 hw with rfl | hw
      · exact ⟨⟨1, 0, by norm_num, by norm_num⟩, by norm_num⟩
      · rw [List.mem_singleton] at hw
        subst hw
        exact ⟨⟨3, 0, by norm_num, by norm_num⟩, by norm_num⟩) rfl hn
  norm_num [unitOf, highOf, lowOf] at this
  norm_num
  linarith

/-- With a hundred epochs in doubles the allowance is less than 1e-13 of the mean of the absolute values. -/
example : ((1 + unitOf 53) * (1 + unitOf 53)) ^ 100 * (1 + unitOf 53) *
    (highOf (unitOf 53) 100 ^ 2 / lowOf (unitOf 53) 100) - 1 < 1 / 10 ^ 13 := by
  norm_num [unitOf, highOf, lowOf]

/-- C131: the coadd is monotone, with no allowance for rounding: with pixels that are nowhere lower the coadd is
nowhere lower.  So pixels that are not negative have a coadd that is not negative, and zeros a coadd of zero. -/
theorem C131_monotone (pp pa ps : ℕ) (rp ra rs : ℚ → ℚ) (hrp : Rounds pp rp) (hra : Rounds pa ra) (hrs : Rounds ps rs)
    (ws xs ys : List ℚ) (hw : ∀ w ∈ ws, 0 ≤ w) (hxy : List.Forall₂ (· ≤ ·) xs ys) :
    coaddPixelD rp ra rs 0 (xs.zip ws) ≤ coaddPixelD rp ra rs 0 (ys.zip ws) ∧
    ((∀ x ∈ xs, 0 ≤ x) → 0 ≤ coaddPixelD rp ra rs 0 (xs.zip ws)) ∧
    ((∀ x ∈ xs, x = 0) → coaddPixelD rp ra rs 0 (xs.zip ws) = 0) := by
  have mono : ∀ (a b : ℚ) (xs ys : List ℚ) (ws : List ℚ), a ≤ b → (∀ w ∈ ws, 0 ≤ w) → List.Forall₂ (· ≤ ·) xs ys →
      coaddPixelD rp ra rs a (xs.zip ws) ≤ coaddPixelD rp ra rs b (ys.zip ws) := by
    intro a b xs ys ws hab hws h
    induction h generalizing a b ws with
    | nil => exact hab
    | @cons x y xs ys hle _ ih =>
      cases ws with
      | nil => exact hab
      | cons w ws =>
        simp only [List.zip_cons_cons, coaddPixelD]
        refine ih _ _ ws ?_ fun v hv => hws v (by simp [hv])
        refine hrs.mono (hra.mono (add_le_add hab (hrp.mono ?_)))
        exact mul_le_mul_of_nonneg_right hle (hws w (by simp))
  have zero : ∀ xs ws : List ℚ, (∀ x ∈ xs, x = 0) → coaddPixelD rp ra rs 0 (xs.zip ws) = 0 := by
    intro xs
    induction xs with
    | nil => intro ws _; rfl
    | cons x xs ih =>
      intro ws h
      cases ws with
      | nil => rfl
      | cons w ws =>
        simp only [List.zip_cons_cons, coaddPixelD]
        rw [h x (by simp), zero_mul, hrp.zero, add_zero, hra.zero, hrs.zero]
        exact ih ws fun v hv => h v (by simp [hv])
  refine ⟨mono 0 0 xs ys ws le_rfl hw hxy, fun h => ?_, zero xs ws⟩
  have hz := zero (List.replicate xs.length 0) ws fun x hx => List.eq_of_mem_replicate hx
  refine hz.ge.trans (mono 0 0 _ xs ws le_rfl hw ?_)
  clear hz hxy
  induction xs with
  | nil => exact .nil
  | cons x xs ih =>
    rw [List.length_cons, List.replicate_succ]
    exact .cons (h x (by simp)) (ih fun v hv => h v (by simp [hv]))

/-- A pixel that is interpolated in no epoch stays at zero, and one with light in one epoch is not negative. -/
example : ∃ rnd, Rounds 53 rnd ∧ coaddPixelD rnd rnd rnd 0 ([0, 0, 0].zip [1 / 3, 1 / 3, 1 / 3]) = 0 ∧
    0 ≤ coaddPixelD rnd rnd rnd 0 ([0, 7, 0].zip [1 / 3, 1 / 3, 1 / 3]) := by
  obtain ⟨rnd, h⟩ := exists_rounds 53 (by norm_num)
  have hw : ∀ w ∈ ([1 / 3, 1 / 3, 1 / 3] : List ℚ), 0 ≤ w := by
    intro w hw
    simp only [List.mem_cons, List.not_mem_nil, or_false, or_self] at hw
    rw [hw]
    norm_num
  refine ⟨rnd, h, (C131_monotone 53 53 53 rnd rnd rnd h h h [1 / 3, 1 / 3, 1 / 3] [0, 0, 0] [0, 7, 0] hw ?_).2.2 (by simp),
    (C131_monotone 53 53 53 rnd rnd rnd h h h [1 / 3, 1 / 3, 1 / 3] [0, 7, 0] [0, 7, 0] hw ?_).2.1 (by simp)⟩
  · exact .cons le_rfl (.cons (by norm_num) (.cons le_rfl .nil))
  · exact .cons le_rfl (.cons le_rfl (.cons le_rfl .nil))

/-- C131: the interpolated fraction of a pixel of the coadd is not negative, and above one by no more than
rounding, whatever fractions come out of resampling. -/
theorem C131_interp_frac (pw pp pa ps : ℕ) (h1 : 1 ≤ pw) (h2 : 1 ≤ pp) (h3 : 1 ≤ pa) (h4 : 1 ≤ ps)
    (rw' rp ra rs : ℚ → ℚ) (hrw : Rounds pw rw') (hrp : Rounds pp rp) (hra : Rounds pa ra) (hrs : Rounds ps rs)
    (xs l l'' : List ℚ) (hl : ∀ w ∈ l, IsFloat pw w ∧ 0 < w) (hlen : xs.length = l.length) (hn : WeightRuns rw' l l'') :
    0 ≤ interpFracD rp ra rs (xs.zip l'') ∧
    interpFracD rp ra rs (xs.zip l'') ≤ ((1 + unitOf pa) * (1 + unitOf ps)) ^ l.length * (1 + unitOf pp) *
        (highOf (unitOf pw) l.length ^ 2 / lowOf (unitOf pw) l.length) := by
  have hf := C131_weights pw h1 rw' hrw l l'' hl hn
  have hw : ∀ w ∈ l'', 0 ≤ w := by
    intro w hw
    obtain ⟨i, hi, rfl⟩ := List.mem_iff_getElem.1 hw
    exact ((List.forall₂_iff_get.1 hf).2 i (by rw [hf.length_eq]; exact hi) hi).1.le
  have hmap : (xs.zip l'').map (fun e => (clipFracD e.1, e.2)) = (xs.map clipFracD).zip l'' := by
    rw [List.zip_map_left]
    rfl
  have hclip : ∀ v : ℚ, 0 ≤ clipFracD v ∧ clipFracD v ≤ 1 := by
    intro v
    exact ⟨le_min (le_max_right _ _) zero_le_one, min_le_right _ _⟩
  obtain ⟨ones, hones⟩ : ∃ o : List ℚ, o = List.replicate l.length 1 := ⟨_, rfl⟩
  have hle : List.Forall₂ (· ≤ ·) (xs.map clipFracD) ones := by
    rw [hones, ← hlen]
    clear hmap hlen
    induction xs with
    | nil => exact .nil
    | cons x xs ih =>
      rw [List.map_cons, List.length_cons, List.replicate_succ]
      exact .cons (hclip x).2 ih
  have hm := C131_monotone pp pa ps rp ra rs hrp hra hrs l'' _ _ hw hle
  unfold interpFracD
  rw [hmap]
  refine ⟨hm.2.1 ?_, hm.1.trans ?_⟩
  · intro v hv
    obtain ⟨x, -, rfl⟩ := List.mem_map.1 hv
    exact (hclip x).1
  · have hb := C131_mean pw pp pa ps h1 h2 h3 h4 rw' rp ra rs hrw hrp hra hrs ones l l'' hl (by rw [hones, List.length_replicate]) hn
    have e1 : (List.zipWith (fun x w => x * w) ones l) = l := by
      rw [hones]
      clear * -
      induction l with
      | nil => rfl
      | cons w l ih => rw [List.length_cons, List.replicate_succ, List.zipWith_cons_cons, ih, one_mul]
    have e2 : (List.zipWith (fun x w => |x| * w) ones l) = l := by
      rw [hones]
      clear * -
      induction l with
      | nil => rfl
      | cons w l ih => rw [List.length_cons, List.replicate_succ, List.zipWith_cons_cons, ih, abs_one, one_mul]
    rw [e1, e2] at hb
    rcases eq_or_ne l [] with rfl | hne
    · cases hf
      have hz : coaddPixelD rp ra rs 0 (ones.zip []) = 0 := by rw [List.zip_nil_right]; rfl
      rw [hz]
      have u0 := (unitOf_pos pa).le
      have u1 := (unitOf_pos ps).le
      have u2 := (unitOf_pos pp).le
      have g1 := (highOf_pos h1 ([] : List ℚ).length).le
      have g2 := (lowOf_pos h1 ([] : List ℚ).length).le
      positivity
    · have hS0 : 0 < l.sum := List.sum_pos l (fun x hx => (hl x hx).2) hne
      rw [div_self hS0.ne', mul_one] at hb
      linarith [(abs_le.1 hb).2]

/-- Lanczos resampling may give −0.1 and 1.2. -/
example : ∃ rnd, Rounds 53 rnd ∧ ∃ l'', WeightRuns rnd [1, 3] l'' ∧ 0 ≤ interpFracD rnd rnd rnd ([-1 / 10, 12 / 10].zip l'') ∧
    interpFracD rnd rnd rnd ([-1 / 10, 12 / 10].zip l'') ≤ 1 + 1 / 10 ^ 14 := by
  obtain ⟨rnd, h⟩ := exists_rounds 53 (by norm_num)
  obtain ⟨l'', hn⟩ := exists_weightRuns rnd [1, 3]
  have := C131_interp_frac 53 53 53 53 (by norm_num) (by norm_num) (by norm_num) (by norm_num) rnd rnd rnd rnd h h h h
    [-1 / 10, 12 / 10] [1, 3] l'' (by
      intro w hw
      rcases List.mem_cons.1 hw with rfl | hw
      · exact ⟨⟨1, 0, by norm_num, by norm_num⟩, by norm_num⟩
      · rw [List.mem_singleton] at hw
        subst hw
        exact ⟨⟨3, 0, by norm_num, by norm_num⟩, by norm_num⟩) rfl hn
  refine ⟨rnd, h, l'', hn, this.1, this.2.trans ?_⟩
  norm_num [unitOf, highOf, lowOf]

end

end Pizza
