import Verif.Lemmas.Interp
import Verif.Spec.Interp
import Mathlib.Algebra.Field.Rat
import Mathlib.Algebra.Order.Ring.Rat

/-!
Properties C20 - C24: interpolation over bad pixels.
-/

namespace Pizza

theorem numTrue_eq (m : Img Bool) : numTrue m = maskSum m := rfl

theorem mem_masked {m : Img Bool} {p : Nat × Nat} : p ∈ maskedList m ↔ BadAt m p := mem_maskedList

theorem numTrue_pos {m : Img Bool} : numTrue m ≠ 0 ↔ ∃ p, BadAt m p := by
  rw [numTrue_eq, maskSum_eq, ← Nat.pos_iff_ne_zero, List.length_pos_iff_exists_mem]
  simp only [mem_masked]

theorem numTrue_lt {m : Img Bool} : numTrue m ≠ m.nrow * m.ncol ↔ ∃ p, GoodAt m p := by
  unfold numTrue
  have hc : (Finset.range m.nrow ×ˢ Finset.range m.ncol).card = m.nrow * m.ncol := by simp
  rw [← hc, Ne, Finset.card_filter_eq_iff]
  push Not
  constructor
  · rintro ⟨p, hp, h⟩
    exact ⟨p, by simpa [InRange] using hp, by simpa using h⟩
  · rintro ⟨p, hp, h⟩
    exact ⟨p, by simpa [InRange] using hp, by simpa using h⟩

theorem all_win_iff {m : Img Bool} {b : ℤ} {p : Nat × Nat} :
    ((winPix m b p).all fun q => m.px q.1.toNat q.2.toNat) = true ↔
      ∀ q, GoodAt m q → ¬ Within b q p := by
  rw [List.all_eq_true]
  constructor
  · rintro h q ⟨⟨h1, h2⟩, h3⟩ ⟨h4, h5⟩
    have := h ((q.1 : ℤ), (q.2 : ℤ)) (mem_winPix.2 ⟨⟨by simp, by simp only; exact_mod_cast h1, by simp, by simp only; exact_mod_cast h2⟩, h4, h5⟩)
    simp only [Int.toNat_natCast, h3] at this
    cases this
  · intro h q hq
    obtain ⟨⟨a, b', c, d⟩, e, f⟩ := mem_winPix.1 hq
    by_contra hf
    refine h (q.1.toNat, q.2.toNat) ⟨⟨by simp only; omega, by simp only; omega⟩, by simpa using hf⟩ ⟨?_, ?_⟩
    · simp only [Int.toNat_of_nonneg a]; exact e
    · simp only [Int.toNat_of_nonneg c]; exact f

theorem rowmajor_lt {ncol : Nat} {p q : Nat × Nat} (_hp : p.2 < ncol) (hq : q.2 < ncol)
    (h : p.1 * ncol + p.2 < q.1 * ncol + q.2) : p.1 < q.1 ∨ (p.1 = q.1 ∧ p.2 < q.2) := by
  rcases lt_trichotomy p.1 q.1 with h1 | h1 | h1
  · exact Or.inl h1
  · exact Or.inr ⟨h1, by rw [h1] at h; omega⟩
  · have : (q.1 + 1) * ncol ≤ p.1 * ncol := Nat.mul_le_mul_right _ h1
    rw [Nat.add_mul] at this
    omega

theorem good_list (m : Img Bool) (buff : ℤ) :
    ∃ G, unravelIndex m.nrow m.ncol (npUnique ((maskedList m).flatMap
        fun p => (goodWin m buff p).map (ravel m))) = .ok G ∧ IsGoodList m buff G := by
  obtain ⟨G, g1, g2, g3⟩ := good_points m buff
  refine ⟨G, g1, ?_, ?_⟩
  · have := List.Pairwise.and_mem.1 g2
    refine this.imp ?_
    rintro a b ⟨ha, hb, hab⟩
    exact rowmajor_lt ((g3 a).1 ha).1.1.2 ((g3 b).1 hb).1.1.2 hab
  · intro q
    rw [g3 q]
    simp only [GoodAt, InRange, Within, mem_maskedList, BadAt]

/-- C20: with `nbad` the number of bad pixels the search succeeds (no overflow, no out-of-range
access), lists the bad pixels once each in row-major order, marks exactly the isolated ones,
and lists exactly the good pixels within `buff` of a bad one. -/
theorem C20_nearby_good_pixels (m : Img Bool) (buff isoBuff : ℤ) :
    ∃ st, getNearbyGoodPixels m (numTrue m) buff isoBuff = .ok st ∧
      st.badInd.Pairwise (· < ·) ∧
      (∀ k, k ∈ st.badInd ↔ ∃ p, BadAt m p ∧ k = (p.1 : ℤ) * m.ncol + p.2) ∧
      st.badIso.length = st.badInd.length ∧
      (∀ (t : Nat) (p : Nat × Nat), BadAt m p → st.badInd[t]? = some ((p.1 : ℤ) * m.ncol + p.2) →
        (Isolated m isoBuff p ∧ st.badIso[t]? = some 1) ∨
        (¬ Isolated m isoBuff p ∧ st.badIso[t]? = some 0)) ∧
      (∀ k, k ∈ st.goodInd ↔ ∃ q, (GoodAt m q ∧ ∃ p, BadAt m p ∧ Within buff q p) ∧
        k = (q.1 : ℤ) * m.ncol + q.2) ∧
      (∃ G, unravelIndex m.nrow m.ncol (npUnique st.goodInd) = .ok G ∧ IsGoodList m buff G) := by
  refine ⟨_, getNearby_ok m buff isoBuff, ?_, ?_, ?_, ?_, ?_, good_list m buff⟩
  · rw [List.pairwise_map]
    exact (maskedList_pairwise m).imp (by intro a b h; exact_mod_cast h)
  · intro k
    simp only [List.mem_map, mem_masked]
    exact ⟨fun ⟨p, h, e⟩ => ⟨p, h, e.symm⟩, fun ⟨p, h, e⟩ => ⟨p, h, e.symm⟩⟩
  · simp
  · intro t p hp ht
    simp only [List.getElem?_map, Option.map_eq_some_iff] at ht ⊢
    obtain ⟨p', hp', e⟩ := ht
    have hb : BadAt m p' := mem_masked.1 (List.mem_of_getElem? hp')
    have := flat_inj hb.1.2 hp.1.2 e
    subst this
    have hiff : ((winPix m isoBuff p').all fun q => m.px q.1.toNat q.2.toNat) = true ↔
        Isolated m isoBuff p' := by
      rw [all_win_iff]; unfold Isolated; tauto
    by_cases hiso : Isolated m isoBuff p'
    · exact Or.inl ⟨hiso, p', hp', by rw [if_pos (hiff.2 hiso)]⟩
    · exact Or.inr ⟨hiso, p', hp', by rw [if_neg (fun h => hiso (hiff.1 h))]⟩
  · intro k
    rw [mem_goodInd]
    simp only [GoodAt, InRange, Within, mem_maskedList, BadAt, flatIx]
    exact ⟨fun ⟨q, a, b, c⟩ => ⟨q, ⟨a, b⟩, c⟩, fun ⟨q, ⟨a, b⟩, c⟩ => ⟨q, a, b, c⟩⟩

example : numTrue ⟨3, 3, fun r c => decide (r = 1 ∧ c = 1)⟩ = 1 ∧
    BadAt ⟨3, 3, fun r c => decide (r = 1 ∧ c = 1)⟩ (1, 1) ∧
    GoodAt ⟨3, 3, fun r c => decide (r = 1 ∧ c = 1)⟩ (0, 2) := by
  refine ⟨by decide, ⟨⟨by decide, by decide⟩, by decide⟩, ⟨⟨by decide, by decide⟩, by decide⟩⟩

/-! ### C21 -/

/-- `im` is `a` with the bad pixels replaced by the values of `f` (specification). -/
def FilledBy {V : Type} (m : Img Bool) (a im : Img V) (f : Nat × Nat → V) : Prop :=
  im.nrow = a.nrow ∧ im.ncol = a.ncol ∧
  ∀ p, (BadAt m p → im.px p.1 p.2 = f p) ∧ (GoodAt m p → im.px p.1 p.2 = a.px p.1 p.2)

/-- `im` is obtained from `a` by interpolating at the bad pixels from the points `G`. -/
def InterpolatedFrom {V : Type} (interp : List (Nat × Nat) → List V → Except Err (Nat × Nat → V))
    (m : Img Bool) (G : List (Nat × Nat)) (a im : Img V) : Prop :=
  ∃ f, interp G (G.map fun p => a.px p.1 p.2) = .ok f ∧ FilledBy m a im f

theorem assign_filled {V : Type} (a : Img V) (m : Img Bool) (f : Nat × Nat → V) :
    ∃ out, assignMask a m ((maskedList m).map f) = .ok out ∧ FilledBy m a out f := by
  obtain ⟨out, h1, h2, h3, h4⟩ := assignMask_ok a m f
  refine ⟨out, h1, h2, h3, fun p => ⟨?_, ?_⟩⟩
  · rintro ⟨hin, hb⟩; rw [h4 _ hin.1 _ hin.2, if_pos hb]
  · rintro ⟨hin, hb⟩; rw [h4 _ hin.1 _ hin.2, if_neg (by simp [hb])]

theorem interpOne_spec {V σ : Type}
    (interp : List (Nat × Nat) → List V → Except Err (Nat × Nat → V))
    (normal : σ → Nat → ℚ → List V × σ) (a : Img V) (G : List (Nat × Nat)) (m : Img Bool)
    (w : ℚ) (rng : Option σ) :
    (∃ e, interp G (G.map fun p => a.px p.1 p.2) = .error e ∧
      interpOne interp normal a (maskedList m) G m none w rng = .error e) ∨
    (∃ im, InterpolatedFrom interp m G a im ∧
      interpOne interp normal a (maskedList m) G m none w rng = .ok (im, rng)) := by
  have e : interpOne interp normal a (maskedList m) G m none w rng =
      (interp G (G.map fun p => a.px p.1 p.2) >>= fun f =>
        assignMask a m ((maskedList m).map f) >>= fun out => pure (out, rng)) := rfl
  cases h : interp G (G.map fun p => a.px p.1 p.2) with
  | error x => left; exact ⟨x, rfl, by rw [e, h]; rfl⟩
  | ok f =>
    right
    obtain ⟨out, h1, h2⟩ := assign_filled a m f
    exact ⟨out, ⟨f, h, h2⟩, by rw [e, h, ok_bind, h1]; rfl⟩

theorem interpAll_spec {V σ : Type}
    (interp : List (Nat × Nat) → List V → Except Err (Nat × Nat → V))
    (normal : σ → Nat → ℚ → List V × σ) (G : List (Nat × Nat)) (m : Img Bool)
    (w : ℚ) (rng : Option σ) (l : List (Img V)) :
    (∃ e, interpAll (fun a rng => interpOne interp normal a (maskedList m) G m none w rng) l rng
        = .error e ∧ ∃ a ∈ l, interp G (G.map fun p => a.px p.1 p.2) = .error e) ∨
    (∃ ns, List.Forall₂ (InterpolatedFrom interp m G) l ns ∧
      interpAll (fun a rng => interpOne interp normal a (maskedList m) G m none w rng) l rng
        = .ok (ns, rng)) := by
  induction l with
  | nil => right; exact ⟨[], .nil, rfl⟩
  | cons a t ih =>
    rcases interpOne_spec interp normal a G m w rng with ⟨e, h1, h2⟩ | ⟨im, h1, h2⟩
    · left
      refine ⟨e, ?_, a, by simp, h1⟩
      simp only [interpAll, h2]; rfl
    · rcases ih with ⟨e, h3, b, hb, h4⟩ | ⟨ns, h3, h4⟩
      · left
        refine ⟨e, ?_, b, by simp [hb], h4⟩
        simp only [interpAll, h2, ok_bind, h3]; rfl
      · right
        refine ⟨im :: ns, .cons h1 h3, ?_⟩
        simp only [interpAll, h2, ok_bind, h4]; rfl

theorem badMaskOf_iff (weight : Img ℚ) (bmask : Img (BitVec 32)) (flags : BitVec 32) (p : Nat × Nat) :
    (badMaskOf weight bmask flags).px p.1 p.2 = true ↔ Unusable weight bmask flags p :=
  badPix_iff weight bmask flags p.1 p.2

/-- The mask of unusable pixels (specification). -/
def IsBadMask (weight : Img ℚ) (bmask : Img (BitVec 32)) (flags : BitVec 32) (m : Img Bool) :
    Prop :=
  m.nrow = weight.nrow ∧ m.ncol = weight.ncol ∧
  ∀ p, InRange m.nrow m.ncol p → (m.px p.1 p.2 = true ↔ Unusable weight bmask flags p)

theorem eqv_maskedList {m m' : Img Bool} (h : m.Eqv m') : maskedList m = maskedList m' := by
  unfold maskedList
  rw [← h.1, ← h.2.1]
  apply List.filter_congr
  intro p hp
  have := (mem_allPix (nrow := m.nrow) (ncol := m.ncol)).1 hp
  exact h.2.2 _ this.1 _ this.2

theorem isBadMask_eqv {weight : Img ℚ} {bmask : Img (BitVec 32)} {flags : BitVec 32}
    {m : Img Bool} (h : IsBadMask weight bmask flags m) :
    m.Eqv (badMaskOf weight bmask flags) := by
  refine ⟨h.1, h.2.1, fun r hr c hc => ?_⟩
  rw [Bool.eq_iff_iff, h.2.2 (r, c) ⟨hr, hc⟩]
  exact (badMaskOf_iff weight bmask flags (r, c)).symm

theorem eqv_badAt {m m' : Img Bool} (h : m.Eqv m') (p : Nat × Nat) : BadAt m p ↔ BadAt m' p := by
  rw [← mem_masked, ← mem_masked, eqv_maskedList h]

theorem eqv_goodAt {m m' : Img Bool} (h : m.Eqv m') (p : Nat × Nat) :
    GoodAt m p ↔ GoodAt m' p := by
  unfold GoodAt InRange
  rw [← h.1, ← h.2.1]
  constructor
  · rintro ⟨h1, h2⟩; exact ⟨h1, by rw [← h.2.2 _ h1.1 _ h1.2]; exact h2⟩
  · rintro ⟨h1, h2⟩; exact ⟨h1, by rw [h.2.2 _ h1.1 _ h1.2]; exact h2⟩

theorem eqv_numTrue {m m' : Img Bool} (h : m.Eqv m') : numTrue m = numTrue m' := by
  rw [numTrue_eq, numTrue_eq, maskSum_eq, maskSum_eq, eqv_maskedList h]

theorem eqv_isGoodList {m m' : Img Bool} (h : m.Eqv m') (b : ℤ) (G : List (Nat × Nat)) :
    IsGoodList m b G ↔ IsGoodList m' b G := by
  unfold IsGoodList
  simp only [eqv_badAt h, eqv_goodAt h]

theorem isGoodList_unique {m : Img Bool} {b : ℤ} {G G' : List (Nat × Nat)}
    (h : IsGoodList m b G) (h' : IsGoodList m b G') : G = G' := by
  refine List.Perm.eq_of_pairwise (le := fun p q => p.1 < q.1 ∨ (p.1 = q.1 ∧ p.2 < q.2))
    (fun a b _ _ h1 h2 => by omega) h.1 h'.1 ?_
  refine (List.perm_ext_iff_of_nodup ?_ ?_).2 (fun q => by rw [h.2, h'.2])
  · exact h.1.imp (by rintro a b h rfl; omega)
  · exact h'.1.imp (by rintro a b h rfl; omega)

/-- C21 (main statement, default options): the three outcomes of
`interpolate_image_and_noise`.  Nothing bad: equal copies.  Too much bad: nothing.  Otherwise,
if the interpolator accepts the data, image and all noise fields are interpolated at the same
bad pixels from the same good points and are unchanged elsewhere. -/
theorem C21_outcome {V σ : Type}
    (interp : List (Nat × Nat) → List V → Except Err (Nat × Nat → V))
    (normal : σ → Nat → ℚ → List V × σ) (image : Img V) (noises : List (Img V))
    (weight : Img ℚ) (bmask : Img (BitVec 32)) (flags : BitVec 32) (rng : Option σ)
    (maxfrac : ℚ) (buff isoBuff : ℤ) (m : Img Bool) (hm : IsBadMask weight bmask flags m)
    (res : Except Err (Option (Img V × List (Img V)) × Option σ))
    (hres : interpolateImageAndNoise interp normal image noises weight bmask flags rng maxfrac
      buff false isoBuff = res) :
    ((¬ ∃ p, BadAt m p) → res = .ok (some (image, noises), rng)) ∧
    ((∃ p, BadAt m p) →
      ((¬ ∃ p, GoodAt m p) ∨ (numTrue m : ℚ) / (m.nrow * m.ncol : Nat) > maxfrac) →
      res = .ok (none, rng)) ∧
    ((∃ p, BadAt m p) → (∃ p, GoodAt m p) →
      (numTrue m : ℚ) / (m.nrow * m.ncol : Nat) ≤ maxfrac →
      ∃ G, IsGoodList m buff G ∧
        ((∃ im ns, res = .ok (some (im, ns), rng) ∧ InterpolatedFrom interp m G image im ∧
            List.Forall₂ (InterpolatedFrom interp m G) noises ns) ∨
         (∃ e, res = .error e ∧ ∃ a ∈ image :: noises,
            interp G (G.map fun p => a.px p.1 p.2) = .error e))) := by
  have heq := isBadMask_eqv hm
  subst hres
  set bm := badMaskOf weight bmask flags with hbm
  have hN : numTrue m = maskSum bm := by rw [eqv_numTrue heq, numTrue_eq]
  have hP : m.nrow * m.ncol = bm.nrow * bm.ncol := by rw [heq.1, heq.2.1]
  have hbad : (∃ p, BadAt m p) ↔ maskSum bm ≠ 0 := by rw [← hN, numTrue_pos]
  have hgood : (∃ p, GoodAt m p) ↔ maskSum bm ≠ bm.nrow * bm.ncol := by
    rw [← hN, ← hP, numTrue_lt]
  rw [hbad, hgood, hN, hP]
  refine ⟨?_, ?_, ?_⟩
  · intro h0
    unfold interpolateImageAndNoise
    simp only [← hbm]
    rw [if_neg h0]
    rfl
  · intro h0 h1
    unfold interpolateImageAndNoise
    simp only [← hbm]
    rw [if_pos h0, if_pos (by rcases h1 with h | h; · exact Or.inr (not_not.1 h)
                              · exact Or.inl h)]
    rfl
  · intro h0 h1 h2
    obtain ⟨G, g1, g2⟩ := good_list bm buff
    refine ⟨G, (eqv_isGoodList heq buff G).2 g2, ?_⟩
    unfold interpolateImageAndNoise
    simp only [← hbm]
    rw [if_pos h0, if_neg (by push Not; exact ⟨h2, h1⟩), getNearby_ok]
    simp only [ok_bind, unravel_bad, g1, Bool.false_eq_true, if_false]
    generalize median _ = w
    change (∃ im ns, (interpOne interp normal image (maskedList bm) G bm none w rng >>= _) = _ ∧ _) ∨
      ∃ e, (interpOne interp normal image (maskedList bm) G bm none w rng >>= _) = _ ∧ _
    have tr : ∀ a im, InterpolatedFrom interp bm G a im → InterpolatedFrom interp m G a im := by
      rintro a im ⟨f, hf, h1, h2, h3⟩
      refine ⟨f, hf, h1, h2, fun p => ?_⟩
      rw [eqv_badAt heq, eqv_goodAt heq]
      exact h3 p
    rcases interpOne_spec interp normal image G bm w rng with ⟨e, h3, h4⟩ | ⟨im, h3, h4⟩
    · right
      refine ⟨e, ?_, image, by simp, h3⟩
      rw [h4]; rfl
    · rw [h4]
      simp only [ok_bind]
      rcases interpAll_spec interp normal G bm w rng noises with ⟨e, h5, b, hb, h6⟩ | ⟨ns, h5, h6⟩
      · right
        refine ⟨e, ?_, b, by simp [hb], h6⟩
        rw [h5]; rfl
      · left
        refine ⟨im, ns, ?_, tr _ _ h3, h5.imp tr⟩
        rw [h6]; rfl

/-- Example weights: 3 x 3 pixels, the centre without weight (example). -/
def exDotWeight : Img ℚ := ⟨3, 3, fun r c => if r = 1 ∧ c = 1 then 0 else 1⟩

/-- Its bad pixels (example). -/
def exDotBad : Img Bool := ⟨3, 3, fun r c => decide (r = 1 ∧ c = 1)⟩

/-- An interpolator that returns the sum of the values it is given (example). -/
def exSumInterp : List (Nat × Nat) → List ℚ → Except Err (Nat × Nat → ℚ) :=
  fun _ vals => .ok fun _ => vals.sum

/-- A generator that returns ones and counts (example). -/
def exOnes : Nat → Nat → ℚ → List ℚ × Nat := fun s n _ => (List.replicate n 1, s + n)

/-- The mask of the example belongs to its weights. -/
theorem exDot_mask : IsBadMask exDotWeight ⟨3, 3, fun _ _ => 0⟩ 1 exDotBad := by
  refine ⟨rfl, rfl, fun p _ => ?_⟩
  simp only [Unusable, Carries, exDotBad, exDotWeight, decide_eq_true_eq]
  by_cases h : p.1 = 1 ∧ p.2 = 1 <;> simp [h]

/-- The example has a bad pixel. -/
theorem exDot_bad : ∃ p, BadAt exDotBad p := ⟨(1, 1), ⟨by decide, by decide⟩, by decide⟩

/-- The example has a good pixel. -/
theorem exDot_good : ∃ p, GoodAt exDotBad p := ⟨(0, 2), ⟨by decide, by decide⟩, by decide⟩

/-- `C21_outcome` on a 3 x 3 image with one bad pixel and one noise field: the third case. -/
example : ∃ im ns rng', interpolateImageAndNoise exSumInterp exOnes ⟨3, 3, fun r c => r + c⟩
    [⟨3, 3, fun _ _ => 2⟩] exDotWeight ⟨3, 3, fun _ _ => 0⟩ 1 (some 7) (1/2) 4 false 1 =
      .ok (some (im, ns), rng') := by
  obtain ⟨G, _, h | ⟨e, _, a, _, h⟩⟩ := (C21_outcome exSumInterp exOnes ⟨3, 3, fun r c => r + c⟩
    [⟨3, 3, fun _ _ => 2⟩] exDotWeight ⟨3, 3, fun _ _ => 0⟩ 1 (some 7) (1/2) 4 1 exDotBad exDot_mask
    _ rfl).2.2 exDot_bad exDot_good (by
      have : numTrue exDotBad = 1 := by decide
      rw [this]; norm_num [exDotBad])
  · obtain ⟨im, ns, h, _⟩ := h
    exact ⟨im, ns, _, h⟩
  · cases h

/-- C21: it returns nothing iff all pixels are bad or the bad fraction exceeds `maxfrac` (and
there is a bad pixel at all). -/
theorem C21_none_iff {V σ : Type}
    (interp : List (Nat × Nat) → List V → Except Err (Nat × Nat → V))
    (normal : σ → Nat → ℚ → List V × σ) (image : Img V) (noises : List (Img V))
    (weight : Img ℚ) (bmask : Img (BitVec 32)) (flags : BitVec 32) (rng rng' : Option σ)
    (maxfrac : ℚ) (buff isoBuff : ℤ) (m : Img Bool) (hm : IsBadMask weight bmask flags m) :
    (interpolateImageAndNoise interp normal image noises weight bmask flags rng maxfrac
      buff false isoBuff = .ok (none, rng')) ↔
    (rng' = rng ∧ (∃ p, BadAt m p) ∧
      ((¬ ∃ p, GoodAt m p) ∨ (numTrue m : ℚ) / (m.nrow * m.ncol : Nat) > maxfrac)) := by
  obtain ⟨h1, h2, h3⟩ := C21_outcome interp normal image noises weight bmask flags rng maxfrac
    buff isoBuff m hm _ rfl
  constructor
  · intro h
    by_cases hb : ∃ p, BadAt m p
    · by_cases hg : (¬ ∃ p, GoodAt m p) ∨ (numTrue m : ℚ) / (m.nrow * m.ncol : Nat) > maxfrac
      · rw [h2 hb hg] at h
        injection h with h
        injection h with _ h
        exact ⟨h.symm, hb, hg⟩
      · rw [not_or, not_not, not_lt] at hg
        obtain ⟨G, _, ⟨im, ns, e, _⟩ | ⟨e, he, _⟩⟩ := h3 hb hg.1 hg.2
        · rw [e] at h; injection h with h; injection h with h _; cases h
        · rw [he] at h; cases h
    · rw [h1 hb] at h; injection h with h; injection h with h _; cases h
  · rintro ⟨rfl, hb, hg⟩
    exact h2 hb hg

/-- `C21_none_iff` on the same image. -/
example (rng') := C21_none_iff exSumInterp exOnes ⟨3, 3, fun r c => r + c⟩
  [⟨3, 3, fun _ _ => 2⟩] exDotWeight ⟨3, 3, fun _ _ => 0⟩ 1 (some 7) rng' (1/2) 4 1 exDotBad exDot_mask

/-- C21, non-interference: changing image and noise values at bad pixels only (NaN, garbage)
does not change the output (nor whether there is an error, see `C21_ignores_bad_values_errors`). -/
theorem C21_ignores_bad_values {V σ : Type}
    (interp : List (Nat × Nat) → List V → Except Err (Nat × Nat → V))
    (normal : σ → Nat → ℚ → List V × σ) (image image' : Img V) (noises noises' : List (Img V))
    (weight : Img ℚ) (bmask : Img (BitVec 32)) (flags : BitVec 32) (rng : Option σ)
    (maxfrac : ℚ) (buff isoBuff : ℤ) (m : Img Bool) (hm : IsBadMask weight bmask flags m)
    (him : ∀ p, GoodAt m p → image.px p.1 p.2 = image'.px p.1 p.2)
    (hsh : image.nrow = m.nrow ∧ image.ncol = m.ncol ∧ image'.nrow = m.nrow ∧ image'.ncol = m.ncol)
    (hns : List.Forall₂ (fun a a' : Img V => (a.nrow = m.nrow ∧ a.ncol = m.ncol ∧
      a'.nrow = m.nrow ∧ a'.ncol = m.ncol) ∧
      ∀ p, GoodAt m p → a.px p.1 p.2 = a'.px p.1 p.2) noises noises') :
    ∀ im ns rng1,
      interpolateImageAndNoise interp normal image noises weight bmask flags rng maxfrac
        buff false isoBuff = .ok (some (im, ns), rng1) →
      ∃ im' ns', interpolateImageAndNoise interp normal image' noises' weight bmask flags rng
          maxfrac buff false isoBuff = .ok (some (im', ns'), rng1) ∧ im.Eqv im' ∧
          List.Forall₂ Img.Eqv ns ns' := by
  intro im ns rng1 h
  obtain ⟨h1, h2, h3⟩ := C21_outcome interp normal image noises weight bmask flags rng maxfrac
    buff isoBuff m hm _ rfl
  obtain ⟨k1, k2, k3⟩ := C21_outcome interp normal image' noises' weight bmask flags rng maxfrac
    buff isoBuff m hm _ rfl
  have dich : ∀ p, InRange m.nrow m.ncol p → BadAt m p ∨ GoodAt m p := by
    intro p hp
    cases hpx : m.px p.1 p.2
    · exact Or.inr ⟨hp, hpx⟩
    · exact Or.inl ⟨hp, hpx⟩
  by_cases hb : ∃ p, BadAt m p
  · by_cases hg : (¬ ∃ p, GoodAt m p) ∨ (numTrue m : ℚ) / (m.nrow * m.ncol : Nat) > maxfrac
    · rw [h2 hb hg] at h; injection h with h; injection h with h _; cases h
    · rw [not_or, not_not, not_lt] at hg
      obtain ⟨G, hG, ⟨im0, ns0, e, hi, hn⟩ | ⟨e, he, _⟩⟩ := h3 hb hg.1 hg.2
      · rw [e] at h
        injection h with h
        injection h with h hr
        injection h with h
        injection h with ha hb'
        subst ha hb' hr
        obtain ⟨G', hG', hk⟩ := k3 hb hg.1 hg.2
        have := isGoodList_unique hG hG'
        subst this
        have vals : ∀ a a' : Img V, (∀ p, GoodAt m p → a.px p.1 p.2 = a'.px p.1 p.2) →
            G.map (fun p => a.px p.1 p.2) = G.map (fun p => a'.px p.1 p.2) := by
          intro a a' haa
          apply List.map_congr_left
          intro p hp
          exact haa p ((hG.2 p).1 hp).1
        have tr : ∀ a a' o o' : Img V, (a.nrow = m.nrow ∧ a.ncol = m.ncol ∧
            a'.nrow = m.nrow ∧ a'.ncol = m.ncol) →
            (∀ p, GoodAt m p → a.px p.1 p.2 = a'.px p.1 p.2) →
            InterpolatedFrom interp m G a o → InterpolatedFrom interp m G a' o' → o.Eqv o' := by
          rintro a a' o o' ⟨s1, s2, s3, s4⟩ haa ⟨f, f1, f2, f3, f4⟩ ⟨g, g1, g2, g3, g4⟩
          rw [vals a a' haa, g1] at f1
          injection f1 with f1
          subst f1
          refine ⟨by rw [f2, g2, s1, s3], by rw [f3, g3, s2, s4], fun r hr c hc => ?_⟩
          rw [f2, s1] at hr
          rw [f3, s2] at hc
          rcases dich (r, c) ⟨hr, hc⟩ with hp | hp
          · exact ((f4 (r, c)).1 hp).trans ((g4 (r, c)).1 hp).symm
          · exact ((f4 (r, c)).2 hp).trans ((haa _ hp).trans ((g4 (r, c)).2 hp).symm)
        rcases hk with ⟨im', ns', e', hi', hn'⟩ | ⟨e', he', b, hbm, hbe⟩
        · refine ⟨im', ns', e', tr _ _ _ _ hsh him hi hi', ?_⟩
          clear h1 h2 h3 k1 k2 k3 e e'
          induction hns generalizing ns0 ns' with
          | nil => cases hn; cases hn'; exact .nil
          | cons hab _ ih =>
            cases hn with
            | cons x1 y1 =>
              cases hn' with
              | cons x2 y2 => exact .cons (tr _ _ _ _ hab.1 hab.2 x1 x2) (ih _ y1 _ y2)
        · exfalso
          rcases List.mem_cons.1 hbm with rfl | hbm
          · obtain ⟨f, hf, _⟩ := hi
            rw [vals _ _ him, hbe] at hf
            cases hf
          · clear h1 h2 h3 k1 k2 k3 e he'
            induction hns generalizing ns0 with
            | nil => cases hbm
            | cons hab _ ih =>
              cases hn with
              | cons x1 y1 =>
                rcases List.mem_cons.1 hbm with rfl | hbm
                · obtain ⟨f, hf, _⟩ := x1
                  rw [vals _ _ hab.2, hbe] at hf
                  cases hf
                · exact ih _ y1 (List.mem_cons_of_mem _ hbm) hbm
      · rw [he] at h; cases h
  · rw [h1 hb] at h
    injection h with h
    injection h with h hr
    injection h with h
    injection h with ha hb'
    subst ha hb' hr
    refine ⟨image', noises', k1 hb, ?_, ?_⟩
    · refine ⟨by rw [hsh.1, hsh.2.2.1], by rw [hsh.2.1, hsh.2.2.2], fun r hr c hc => ?_⟩
      rw [hsh.1] at hr
      rw [hsh.2.1] at hc
      rcases dich (r, c) ⟨hr, hc⟩ with hp | hp
      · exact absurd ⟨_, hp⟩ hb
      · exact him _ hp
    · refine hns.imp ?_
      rintro a a' ⟨⟨s1, s2, s3, s4⟩, haa⟩
      refine ⟨by rw [s1, s3], by rw [s2, s4], fun r hr c hc => ?_⟩
      rw [s1] at hr
      rw [s2] at hc
      rcases dich (r, c) ⟨hr, hc⟩ with hp | hp
      · exact absurd ⟨_, hp⟩ hb
      · exact haa _ hp

/-- `C21_ignores_bad_values`: another value at the bad centre, in the image and the noise field. -/
example := C21_ignores_bad_values exSumInterp exOnes ⟨3, 3, fun r c => r + c⟩
  ⟨3, 3, fun r c => if r = 1 ∧ c = 1 then 99 else r + c⟩ [⟨3, 3, fun _ _ => 2⟩]
  [⟨3, 3, fun r c => if r = 1 ∧ c = 1 then -5 else 2⟩] exDotWeight ⟨3, 3, fun _ _ => 0⟩ 1 (some 7)
  (1/2) 4 1 exDotBad exDot_mask
  (fun p hp => by have h := hp.2; simp only [exDotBad, decide_eq_false_iff_not] at h; simp [h])
  ⟨rfl, rfl, rfl, rfl⟩
  (.cons ⟨⟨rfl, rfl, rfl, rfl⟩, fun p hp => by
    have h := hp.2; simp only [exDotBad, decide_eq_false_iff_not] at h; simp [h]⟩ .nil)

/-- C21, non-interference: nor does it change whether nothing is returned or an exception is raised. -/
theorem C21_ignores_bad_values_errors {V σ : Type}
    (interp : List (Nat × Nat) → List V → Except Err (Nat × Nat → V))
    (normal : σ → Nat → ℚ → List V × σ) (image image' : Img V) (noises noises' : List (Img V))
    (weight : Img ℚ) (bmask : Img (BitVec 32)) (flags : BitVec 32) (rng : Option σ)
    (maxfrac : ℚ) (buff isoBuff : ℤ) (m : Img Bool) (hm : IsBadMask weight bmask flags m)
    (him : ∀ p, GoodAt m p → image.px p.1 p.2 = image'.px p.1 p.2)
    (hsh : image.nrow = m.nrow ∧ image.ncol = m.ncol ∧ image'.nrow = m.nrow ∧ image'.ncol = m.ncol)
    (hns : List.Forall₂ (fun a a' : Img V => (a.nrow = m.nrow ∧ a.ncol = m.ncol ∧
      a'.nrow = m.nrow ∧ a'.ncol = m.ncol) ∧
      ∀ p, GoodAt m p → a.px p.1 p.2 = a'.px p.1 p.2) noises noises') (res res')
    (h : interpolateImageAndNoise interp normal image noises weight bmask flags rng maxfrac
      buff false isoBuff = res)
    (h' : interpolateImageAndNoise interp normal image' noises' weight bmask flags rng maxfrac
      buff false isoBuff = res') :
    ((∃ g, res = .ok (none, g)) ↔ ∃ g, res' = .ok (none, g)) ∧
    ((∃ e, res = .error e) ↔ ∃ e, res' = .error e) := by
  subst h h'
  have hnone : ∀ g, interpolateImageAndNoise interp normal image noises weight bmask flags rng maxfrac
        buff false isoBuff = .ok (none, g) ↔
      interpolateImageAndNoise interp normal image' noises' weight bmask flags rng maxfrac
        buff false isoBuff = .ok (none, g) := fun g => by
    rw [C21_none_iff _ _ _ _ _ _ _ _ _ _ _ _ m hm, C21_none_iff _ _ _ _ _ _ _ _ _ _ _ _ m hm]
  have fwd := C21_ignores_bad_values interp normal image image' noises noises' weight bmask flags rng maxfrac
    buff isoBuff m hm him hsh hns
  have bwd := C21_ignores_bad_values interp normal image' image noises' noises weight bmask flags rng maxfrac
    buff isoBuff m hm (fun p hp => (him p hp).symm) ⟨hsh.2.2.1, hsh.2.2.2, hsh.1, hsh.2.1⟩
    (hns.flip.imp fun a a' hab => ⟨⟨hab.1.2.2.1, hab.1.2.2.2, hab.1.1, hab.1.2.1⟩,
      fun p hp => (hab.2 p hp).symm⟩)
  refine ⟨exists_congr hnone, ?_⟩
  generalize interpolateImageAndNoise interp normal image noises weight bmask flags rng maxfrac
    buff false isoBuff = res at *
  generalize interpolateImageAndNoise interp normal image' noises' weight bmask flags rng maxfrac
    buff false isoBuff = res' at *
  constructor
  · rintro ⟨e, rfl⟩
    rcases res' with e' | ⟨_ | ⟨im, ns⟩, g⟩
    · exact ⟨e', rfl⟩
    · exact absurd ((hnone g).2 rfl) (by simp)
    · obtain ⟨_, _, hh, _⟩ := bwd im ns g rfl
      cases hh
  · rintro ⟨e, rfl⟩
    rcases res with e' | ⟨_ | ⟨im, ns⟩, g⟩
    · exact ⟨e', rfl⟩
    · exact absurd ((hnone g).1 rfl) (by simp)
    · obtain ⟨_, _, hh, _⟩ := fwd im ns g rfl
      cases hh

/-- `C21_ignores_bad_values_errors` on the same images, with an interpolator that always fails. -/
example := C21_ignores_bad_values_errors (fun _ _ => .error .valueError) exOnes
  ⟨3, 3, fun r c => r + c⟩
  ⟨3, 3, fun r c => if r = 1 ∧ c = 1 then 99 else r + c⟩ [⟨3, 3, fun _ _ => 2⟩]
  [⟨3, 3, fun r c => if r = 1 ∧ c = 1 then -5 else 2⟩] exDotWeight ⟨3, 3, fun _ _ => 0⟩ 1 (some 7)
  (1/2) 4 1 exDotBad exDot_mask
  (fun p hp => by have h := hp.2; simp only [exDotBad, decide_eq_false_iff_not] at h; simp [h])
  ⟨rfl, rfl, rfl, rfl⟩
  (.cons ⟨⟨rfl, rfl, rfl, rfl⟩, fun p hp => by
    have h := hp.2; simp only [exDotBad, decide_eq_false_iff_not] at h; simp [h]⟩ .nil) _ _ rfl rfl

/-- A 3 x 3 image with one bad pixel satisfies the hypotheses. -/
example : IsBadMask ⟨3, 3, fun r c => if r = 1 ∧ c = 1 then 0 else 1⟩ ⟨3, 3, fun _ _ => 0⟩ 1
    ⟨3, 3, fun r c => decide (r = 1 ∧ c = 1)⟩ := by
  refine ⟨rfl, rfl, fun p _ => ?_⟩
  simp only [Unusable, Carries, decide_eq_true_eq]
  by_cases h : p.1 = 1 ∧ p.2 = 1 <;> simp [h]

/-! ### C23 -/

/-- C23: whenever there are bad and good pixels, the good list is not empty (for `buff >= 1`)
and some bad pixel is not isolated (for `iso_buff >= 1`). -/
theorem C23_data_to_work_from (m : Img Bool) (buff isoBuff : ℤ)
    (hb : ∃ p, BadAt m p) (hg : ∃ p, GoodAt m p) :
    (1 ≤ buff → ∀ G, IsGoodList m buff G → G ≠ []) ∧
    (1 ≤ isoBuff → ∃ p, BadAt m p ∧ ¬ Isolated m isoBuff p) := by
  obtain ⟨p, q, p1, p2, q1, q2, d1, d2⟩ := exists_boundary m
    (by obtain ⟨p, hp⟩ := hb; exact ⟨p, hp⟩) (by obtain ⟨p, hp⟩ := hg; exact ⟨p, hp⟩)
  constructor
  · intro h1 G hG hnil
    have := (hG.2 q).2 ⟨⟨q1, q2⟩, p, ⟨p1, p2⟩, le_trans d1 h1, le_trans d2 h1⟩
    rw [hnil] at this
    cases this
  · intro h1
    refine ⟨p, ⟨p1, p2⟩, ?_⟩
    rintro ⟨_, h⟩
    exact h q ⟨q1, q2⟩ ⟨le_trans d1 h1, le_trans d2 h1⟩

/-- `C23_data_to_work_from` on the 3 x 3 image with a bad centre. -/
example := C23_data_to_work_from exDotBad 4 1 exDot_bad exDot_good

/-- C23: after noise-filling the isolated pixels (marking them good) there is still a bad pixel
and the new good list is non-empty. -/
theorem C23_after_noise_fill (m m' : Img Bool) (buff isoBuff : ℤ) (h1 : 1 ≤ buff)
    (h2 : 1 ≤ isoBuff) (hb : ∃ p, BadAt m p) (hg : ∃ p, GoodAt m p)
    (hm' : m'.nrow = m.nrow ∧ m'.ncol = m.ncol ∧ ∀ p, BadAt m' p ↔ BadAt m p ∧ ¬ Isolated m isoBuff p) :
    (∃ p, BadAt m' p) ∧ ∀ G, IsGoodList m' buff G → G ≠ [] := by
  obtain ⟨p, hp, hni⟩ := (C23_data_to_work_from m buff isoBuff hb hg).2 h2
  have hb' : ∃ p, BadAt m' p := ⟨p, (hm'.2.2 p).2 ⟨hp, hni⟩⟩
  have hg' : ∃ p, GoodAt m' p := by
    obtain ⟨q, hq⟩ := hg
    refine ⟨q, by unfold InRange; rw [hm'.1, hm'.2.1]; exact hq.1, ?_⟩
    cases hpx : m'.px q.1 q.2
    · rfl
    · have : BadAt m' q := ⟨by unfold InRange; rw [hm'.1, hm'.2.1]; exact hq.1, hpx⟩
      have := ((hm'.2.2 q).1 this).1.2
      rw [hq.2] at this
      cases this
  exact ⟨hb', (C23_data_to_work_from m' buff isoBuff hb' hg').1 h1⟩

/-- `C23_after_noise_fill`: no pixel of the 3 x 3 image is isolated, so the mask stays. -/
example := C23_after_noise_fill exDotBad exDotBad 4 1 (by norm_num) (by norm_num) exDot_bad exDot_good
  ⟨rfl, rfl, fun p => ⟨fun h => ⟨h, fun hi => by
    have h1 := h.2
    simp only [exDotBad, decide_eq_true_eq] at h1
    refine hi.2 (0, 0) ⟨⟨by decide, by decide⟩, by decide⟩ ⟨?_, ?_⟩ <;> simp [h1.1, h1.2]⟩, And.left⟩⟩

/-- C23: `buff = 0` leaves the interpolator without data, so `buff >= 1` is needed. -/
theorem C23_buff_zero_has_no_data (m : Img Bool) : IsGoodList m 0 [] := by
  refine ⟨List.Pairwise.nil, fun q => ⟨by simp, ?_⟩⟩
  rintro ⟨hq, p, hp, h1, h2⟩
  have e1 : (q.1 : ℤ) = p.1 := by have := abs_nonpos_iff.1 h1; omega
  have e2 : (q.2 : ℤ) = p.2 := by have := abs_nonpos_iff.1 h2; omega
  have : q = p := Prod.ext (by exact_mod_cast e1) (by exact_mod_cast e2)
  subst this
  have a := hq.2
  rw [hp.2] at a
  cases a

example : (∃ p, BadAt ⟨2, 2, fun r c => decide (r = 0 ∧ c = 0)⟩ p) ∧
    (∃ p, GoodAt ⟨2, 2, fun r c => decide (r = 0 ∧ c = 0)⟩ p) :=
  ⟨⟨(0, 0), ⟨by decide, by decide⟩, by decide⟩, ⟨(1, 1), ⟨by decide, by decide⟩, by decide⟩⟩

end Pizza
