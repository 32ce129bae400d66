import Verif.Props.Interp
import Verif.Lemmas.Median

/-!
Properties C22, C24 (interpolation at a mask, noise filling) and C25 (edge copying).
-/

namespace Pizza

/-! ### C22 -/

/-- C22 (default options, at least one bad pixel): the outcomes of `interpolate_image_at_mask`. -/
theorem C22_at_mask_partial {V σ : Type}
    (interp : List (Nat × Nat) → List V → Except Err (Nat × Nat → V))
    (normal : σ → Nat → ℚ → List V × σ) (image : Img V) (m : Img Bool) (maxfrac : ℚ)
    (buff isoBuff : ℤ) (w : Option ℚ) (rng : Option σ) (hb : ∃ p, BadAt m p) :
    (((¬ ∃ p, GoodAt m p) ∨ (numTrue m : ℚ) / (m.nrow * m.ncol : Nat) > maxfrac) →
      interpolateImageAtMask interp normal image m maxfrac buff false w rng isoBuff = .ok none) ∧
    ((∃ p, GoodAt m p) → (numTrue m : ℚ) / (m.nrow * m.ncol : Nat) ≤ maxfrac →
      ∃ G, IsGoodList m buff G ∧
        ((∃ im, interpolateImageAtMask interp normal image m maxfrac buff false w rng isoBuff =
            .ok (some im) ∧ InterpolatedFrom interp m G image im) ∨
         (∃ e, interpolateImageAtMask interp normal image m maxfrac buff false w rng isoBuff =
            .error e ∧ interp G (G.map fun p => image.px p.1 p.2) = .error e))) := by
  have hpos : m.nrow * m.ncol ≠ 0 := by
    obtain ⟨p, ⟨h1, h2⟩, _⟩ := hb
    exact Nat.mul_ne_zero (by omega) (by omega)
  have hle : numTrue m ≤ m.nrow * m.ncol := by
    have : (Finset.range m.nrow ×ˢ Finset.range m.ncol).card = m.nrow * m.ncol := by simp
    rw [← this]
    exact Finset.card_filter_le _ _
  constructor
  · intro h
    unfold interpolateImageAtMask
    simp only
    rw [if_neg]
    · rfl
    · rintro ⟨_, h1, h2⟩
      rw [← numTrue_eq] at h1 h2
      rcases h with h | h
      · exact h (numTrue_lt.1 (by omega))
      · exact absurd h1 (not_le.2 h)
  · intro hg h
    obtain ⟨G, g1, g2⟩ := good_list m buff
    refine ⟨G, g2, ?_⟩
    unfold interpolateImageAtMask
    simp only
    rw [if_pos ⟨hpos, h, by rw [← numTrue_eq]; have := numTrue_lt.2 hg; omega⟩, getNearby_ok]
    simp only [ok_bind, g1, unravel_bad, Bool.false_eq_true, if_false]
    change (∃ im, (interp G (G.map fun p => image.px p.1 p.2) >>= _) = _ ∧ _) ∨
      (∃ e, (interp G (G.map fun p => image.px p.1 p.2) >>= _) = _ ∧ _)
    cases hi : interp G (G.map fun p => image.px p.1 p.2) with
    | error e => right; exact ⟨e, rfl, rfl⟩
    | ok f =>
      left
      obtain ⟨out, h1, h2⟩ := assign_filled image m f
      refine ⟨out, ?_, f, hi, h2⟩
      rw [ok_bind, h1]; rfl

/-- `C22_at_mask_partial` on a 3 x 3 image with a bad centre. -/
example := C22_at_mask_partial exSumInterp exOnes ⟨3, 3, fun r c => r + c⟩ exDotBad (1/2) 4 1
  none none exDot_bad

/-- C22: with at least one bad pixel the result equals (up to error values) the image part of
`interpolate_image_and_noise` with the same mask. -/
theorem C22_agrees_partial {V σ : Type}
    (interp : List (Nat × Nat) → List V → Except Err (Nat × Nat → V))
    (normal : σ → Nat → ℚ → List V × σ) (image : Img V)
    (weight : Img ℚ) (bmask : Img (BitVec 32)) (flags : BitVec 32) (m : Img Bool)
    (hm : IsBadMask weight bmask flags m) (maxfrac : ℚ)
    (hsh : image.nrow = m.nrow ∧ image.ncol = m.ncol)
    (buff isoBuff : ℤ) (w : Option ℚ) (rng rng' : Option σ) (hb : ∃ p, BadAt m p) :
    (interpolateImageAtMask interp normal image m maxfrac buff false w rng isoBuff = .ok none ↔
      interpolateImageAndNoise interp normal image [] weight bmask flags rng' maxfrac
        buff false isoBuff = .ok (none, rng')) ∧
    (∀ im, interpolateImageAtMask interp normal image m maxfrac buff false w rng isoBuff
        = .ok (some im) →
      ∃ im', interpolateImageAndNoise interp normal image [] weight bmask flags rng' maxfrac
        buff false isoBuff = .ok (some (im', []), rng') ∧ im.Eqv im') := by
  obtain ⟨h1, h2⟩ := C22_at_mask_partial interp normal image m maxfrac buff isoBuff w rng hb
  obtain ⟨_, k2, k3⟩ := C21_outcome interp normal image [] weight bmask flags rng' maxfrac
    buff isoBuff m hm _ rfl
  by_cases hg : (¬ ∃ p, GoodAt m p) ∨ (numTrue m : ℚ) / (m.nrow * m.ncol : Nat) > maxfrac
  · refine ⟨⟨fun _ => k2 hb hg, fun _ => h1 hg⟩, fun im h => ?_⟩
    rw [h1 hg] at h
    cases h
  · rw [not_or, not_not, not_lt] at hg
    obtain ⟨G, hG, h⟩ := h2 hg.1 hg.2
    obtain ⟨G', hG', k⟩ := k3 hb hg.1 hg.2
    have := isGoodList_unique hG hG'
    subst this
    rcases h with ⟨im, e, f, f1, f2, f3, f4⟩ | ⟨e, he, hi⟩
    · rcases k with ⟨im', ns, e', ⟨g, g1, g2, g3, g4⟩, hn⟩ | ⟨e', he', a, ha, hi⟩
      · cases hn
        rw [e, e']
        refine ⟨⟨fun h => (by cases h), fun h => (by cases h)⟩, fun x hx => ?_⟩
        injection hx with hx
        injection hx with hx
        subst hx
        refine ⟨im', rfl, by rw [f2, g2], by rw [f3, g3], fun r hr c hc => ?_⟩
        rw [f2, hsh.1] at hr
        rw [f3, hsh.2] at hc
        rw [g1] at f1
        injection f1 with f1
        subst f1
        cases hpx : m.px r c
        · have hq : GoodAt m (r, c) := ⟨⟨hr, hc⟩, hpx⟩
          exact ((f4 (r, c)).2 hq).trans ((g4 (r, c)).2 hq).symm
        · have hq : BadAt m (r, c) := ⟨⟨hr, hc⟩, hpx⟩
          exact ((f4 (r, c)).1 hq).trans ((g4 (r, c)).1 hq).symm
      · rcases List.mem_cons.1 ha with rfl | ha
        · rw [hi] at f1; cases f1
        · cases ha
    · rcases k with ⟨im', ns, e', ⟨g, g1, _⟩, hn⟩ | ⟨e', he', a, ha, hi'⟩
      · rw [g1] at hi; cases hi
      · rw [he, he']
        refine ⟨⟨fun h => (by cases h), fun h => (by cases h)⟩, fun x hx => by cases hx⟩

/-- `C22_agrees_partial` on the same image. -/
example := C22_agrees_partial exSumInterp exOnes ⟨3, 3, fun r c => r + c⟩ exDotWeight
  ⟨3, 3, fun _ _ => 0⟩ 1 exDotBad exDot_mask (1/2) ⟨rfl, rfl⟩ 4 1 none none (some 3) exDot_bad

/-- C22, independence of the values at bad pixels (at least one bad pixel). -/
theorem C22_ignores_bad_values_partial {V σ : Type}
    (interp : List (Nat × Nat) → List V → Except Err (Nat × Nat → V))
    (normal : σ → Nat → ℚ → List V × σ) (image image' : Img V) (m : Img Bool)
    (maxfrac : ℚ) (buff isoBuff : ℤ) (w : Option ℚ) (rng : Option σ) (hb : ∃ p, BadAt m p)
    (hsh : image.nrow = m.nrow ∧ image.ncol = m.ncol ∧ image'.nrow = m.nrow ∧ image'.ncol = m.ncol)
    (him : ∀ p, GoodAt m p → image.px p.1 p.2 = image'.px p.1 p.2) (im : Img V)
    (h : interpolateImageAtMask interp normal image m maxfrac buff false w rng isoBuff
      = .ok (some im)) :
    ∃ im', interpolateImageAtMask interp normal image' m maxfrac buff false w rng isoBuff
      = .ok (some im') ∧ im.Eqv im' := by
  obtain ⟨h1, h2⟩ := C22_at_mask_partial interp normal image m maxfrac buff isoBuff w rng hb
  obtain ⟨k1, k2⟩ := C22_at_mask_partial interp normal image' m maxfrac buff isoBuff w rng hb
  by_cases hg : (¬ ∃ p, GoodAt m p) ∨ (numTrue m : ℚ) / (m.nrow * m.ncol : Nat) > maxfrac
  · rw [h1 hg] at h; cases h
  · rw [not_or, not_not, not_lt] at hg
    obtain ⟨G, hG, hh⟩ := h2 hg.1 hg.2
    obtain ⟨G', hG', kk⟩ := k2 hg.1 hg.2
    have := isGoodList_unique hG hG'
    subst this
    have vals : G.map (fun p => image.px p.1 p.2) = G.map (fun p => image'.px p.1 p.2) :=
      List.map_congr_left (fun p hp => him p ((hG.2 p).1 hp).1)
    rcases hh with ⟨im0, e, f, f1, f2, f3, f4⟩ | ⟨e, he, _⟩
    · rw [e] at h
      injection h with h
      injection h with h
      subst h
      rcases kk with ⟨im', e', g, g1, g2, g3, g4⟩ | ⟨e', he', hi⟩
      · rw [vals, g1] at f1
        injection f1 with f1
        subst f1
        refine ⟨im', e', by rw [f2, g2, hsh.1, hsh.2.2.1], by rw [f3, g3, hsh.2.1, hsh.2.2.2],
          fun r hr c hc => ?_⟩
        rw [f2, hsh.1] at hr
        rw [f3, hsh.2.1] at hc
        cases hpx : m.px r c
        · have hq : GoodAt m (r, c) := ⟨⟨hr, hc⟩, hpx⟩
          exact ((f4 (r, c)).2 hq).trans ((him _ hq).trans ((g4 (r, c)).2 hq).symm)
        · have hq : BadAt m (r, c) := ⟨⟨hr, hc⟩, hpx⟩
          exact ((f4 (r, c)).1 hq).trans ((g4 (r, c)).1 hq).symm
      · rw [vals, hi] at f1; cases f1
    · rw [he] at h; cases h

/-- `C22_ignores_bad_values_partial`: another value at the bad centre. -/
example : ∃ im im', interpolateImageAtMask exSumInterp exOnes ⟨3, 3, fun r c => r + c⟩ exDotBad (1/2)
      4 false none none 1 = .ok (some im) ∧
    interpolateImageAtMask exSumInterp exOnes
      ⟨3, 3, fun r c => if r = 1 ∧ c = 1 then 99 else r + c⟩ exDotBad (1/2) 4 false none none 1 =
        .ok (some im') ∧ im.Eqv im' := by
  obtain ⟨G, _, ⟨im, h, _⟩ | ⟨e, _, h⟩⟩ := (C22_at_mask_partial exSumInterp exOnes
    ⟨3, 3, fun r c => r + c⟩ exDotBad (1/2) 4 1 none none exDot_bad).2 exDot_good (by
      have : numTrue exDotBad = 1 := by decide
      rw [this]; norm_num [exDotBad])
  · obtain ⟨im', h', he⟩ := C22_ignores_bad_values_partial exSumInterp exOnes _
      ⟨3, 3, fun r c => if r = 1 ∧ c = 1 then 99 else r + c⟩ exDotBad (1/2) 4 1 none none exDot_bad
      ⟨rfl, rfl, rfl, rfl⟩ (fun p hp => by
        have h := hp.2; simp only [exDotBad, decide_eq_false_iff_not] at h; simp [h]) im h
    exact ⟨im, im', h, h', he⟩
  · cases h

/-- C22: without any bad pixel the interpolator is built from an empty point list, so with an
interpolator that rejects empty data (as scipy's does) the function raises instead of returning
the image: the statement of C22 fails for the empty mask. -/
theorem C22_no_bad_pixels_fails {V σ : Type}
    (interp : List (Nat × Nat) → List V → Except Err (Nat × Nat → V))
    (hempty : interp [] [] = .error .valueError)
    (normal : σ → Nat → ℚ → List V × σ) (image : Img V) (m : Img Bool)
    (maxfrac : ℚ) (hf : 0 ≤ maxfrac) (buff isoBuff : ℤ) (w : Option ℚ) (rng : Option σ)
    (hne : m.nrow * m.ncol ≠ 0) (hb : ¬ ∃ p, BadAt m p) :
    interpolateImageAtMask interp normal image m maxfrac buff false w rng isoBuff
      = .error .valueError := by
  have h0 : numTrue m = 0 := by
    by_contra h
    exact hb (numTrue_pos.1 h)
  have hl : maskedList m = [] := by
    have := maskSum_eq m
    rw [← numTrue_eq, h0] at this
    exact List.eq_nil_of_length_eq_zero this.symm
  unfold interpolateImageAtMask
  simp only
  rw [if_pos ⟨hne, by rw [← numTrue_eq, h0]; simpa using hf, by rw [← numTrue_eq]; omega⟩,
    getNearby_ok, hl]
  simp only [ok_bind, List.map_nil, List.flatMap_nil]
  have : unravelIndex m.nrow m.ncol (npUnique []) = .ok [] := by simp [npUnique, unravelIndex]; rfl
  rw [this]
  have : unravelIndex m.nrow m.ncol [] = .ok [] := rfl
  rw [this]
  simp only [ok_bind, Bool.false_eq_true, if_false]
  change (interp [] _ >>= _) = _
  rw [List.map_nil, hempty]
  rfl

/-- `C22_no_bad_pixels_fails` on a 2 x 3 image without bad pixels. -/
example := C22_no_bad_pixels_fails (fun G vals => if G = [] then .error .valueError else
    exSumInterp G vals) rfl exOnes ⟨2, 3, fun r c => r + c⟩ ⟨2, 3, fun _ _ => false⟩ (1/2)
  (by norm_num) 4 1 none none (by decide) (by rintro ⟨p, _, h⟩; cases h)

example : (⟨2, 3, fun _ _ => false⟩ : Img Bool).nrow * 3 ≠ 0 ∧
    ¬ ∃ p, BadAt ⟨2, 3, fun _ _ => false⟩ p := by
  refine ⟨by decide, ?_⟩
  rintro ⟨p, _, h⟩
  cases h

/-! ### C24 -/

theorem isoPixels_eq (l : List (Nat × Nat)) (g : Nat × Nat → ℤ) :
    isoPixels l (l.map g) = l.filter fun p => g p == 1 := by
  unfold isoPixels
  induction l with
  | nil => rfl
  | cons a t ih =>
    rw [List.map_cons, List.zip_cons_cons, List.filter_cons, List.filter_cons]
    split
    · rw [List.map_cons, ih]
    · exact ih

/-- The isolated bad pixels in row-major order. -/
theorem isoPixels_spec (m : Img Bool) (b : ℤ) :
    ∃ l, isoPixels (maskedList m) ((maskedList m).map fun p =>
      if ((winPix m b p).all fun q => m.px q.1.toNat q.2.toNat) then (1 : ℤ) else 0) = l ∧
      l.Nodup ∧ ∀ p, p ∈ l ↔ Isolated m b p := by
  refine ⟨_, rfl, ?_, ?_⟩
  · rw [isoPixels_eq]
    exact (maskedList_nodup m).filter _
  · intro p
    rw [isoPixels_eq, List.mem_filter, mem_masked]
    unfold Isolated
    apply and_congr Iff.rfl
    rw [← all_win_iff]
    split <;> simp_all

/-- C24, the defect: with `fill_isolated_with_noise` and a mask within limits in which no bad
pixel is isolated, the function raises UnboundLocalError. -/
theorem C24_no_isolated_fails {V σ : Type}
    (interp : List (Nat × Nat) → List V → Except Err (Nat × Nat → V))
    (normal : σ → Nat → ℚ → List V × σ) (image : Img V) (noises : List (Img V))
    (weight : Img ℚ) (bmask : Img (BitVec 32)) (flags : BitVec 32) (rng : σ)
    (maxfrac : ℚ) (buff isoBuff : ℤ) (m : Img Bool) (hm : IsBadMask weight bmask flags m)
    (hb : ∃ p, BadAt m p) (hg : ∃ p, GoodAt m p)
    (hf : (numTrue m : ℚ) / (m.nrow * m.ncol : Nat) ≤ maxfrac)
    (hiso : ∀ p, ¬ Isolated m isoBuff p) :
    interpolateImageAndNoise interp normal image noises weight bmask flags (some rng) maxfrac
      buff true isoBuff = .error .unboundLocal := by
  have heq := isBadMask_eqv hm
  set bm := badMaskOf weight bmask flags with hbm
  have hN : numTrue m = maskSum bm := by rw [eqv_numTrue heq, numTrue_eq]
  have hP : m.nrow * m.ncol = bm.nrow * bm.ncol := by rw [heq.1, heq.2.1]
  have hbad : maskSum bm ≠ 0 := by rw [← hN]; exact numTrue_pos.2 hb
  have hgood : maskSum bm ≠ bm.nrow * bm.ncol := by rw [← hN, ← hP]; exact numTrue_lt.2 hg
  obtain ⟨G, g1, g2⟩ := good_list bm buff
  obtain ⟨l, l1, _, l2⟩ := isoPixels_spec bm isoBuff
  have hnil : l = [] := by
    rw [List.eq_nil_iff_forall_not_mem]
    intro p hp
    have := (l2 p).1 hp
    apply hiso p
    unfold Isolated at this ⊢
    simpa only [eqv_badAt heq, eqv_goodAt heq] using this
  rw [hnil] at l1
  unfold interpolateImageAndNoise
  simp only [← hbm]
  rw [hN, hP] at hf
  rw [if_pos hbad, if_neg (by push Not; exact ⟨hf, hgood⟩), getNearby_ok]
  simp only [ok_bind, unravel_bad, g1, if_true]
  rw [l1]
  rfl

/-- No pixel of the 3 x 3 image with a bad centre is isolated (example). -/
theorem exDot_no_isolated : ∀ p, ¬ Isolated exDotBad 1 p := fun p h => by
  have h1 := h.1.2
  simp only [exDotBad, decide_eq_true_eq] at h1
  refine h.2 (0, 0) ⟨⟨by decide, by decide⟩, by decide⟩ ⟨?_, ?_⟩ <;> simp [h1.1, h1.2]

/-- One pixel in nine is bad (example). -/
theorem exDot_fraction : (numTrue exDotBad : ℚ) / (exDotBad.nrow * exDotBad.ncol : Nat) ≤ 1/2 := by
  have : numTrue exDotBad = 1 := by decide
  rw [this]; norm_num [exDotBad]

/-- `C24_no_isolated_fails` on that image. -/
example := C24_no_isolated_fails exSumInterp exOnes ⟨3, 3, fun r c => r + c⟩
  [⟨3, 3, fun _ _ => 2⟩] exDotWeight ⟨3, 3, fun _ _ => 0⟩ 1 7 (1/2) 4 1 exDotBad exDot_mask
  exDot_bad exDot_good exDot_fraction exDot_no_isolated

/-- `im` is `a` with the isolated pixels (listed in `F`) replaced by the draws made from the
generator state `s`, the other bad pixels interpolated from the points `G` (whose noise-filled
members count with their new values), and good pixels unchanged (specification). -/
def NoiseFilledFrom {V σ : Type}
    (interp : List (Nat × Nat) → List V → Except Err (Nat × Nat → V))
    (normal : σ → Nat → ℚ → List V × σ) (m : Img Bool) (isoBuff : ℤ) (F G : List (Nat × Nat))
    (w : ℚ) (s : σ) (a im : Img V) : Prop :=
  im.nrow = a.nrow ∧ im.ncol = a.ncol ∧
  (∀ p, GoodAt m p → im.px p.1 p.2 = a.px p.1 p.2) ∧
  (∀ p, Isolated m isoBuff p → ∃ k : Nat, F[k]? = some p ∧
    (normal s F.length w).1[k]? = some (im.px p.1 p.2)) ∧
  ∃ f, interp G (G.map fun p => im.px p.1 p.2) = .ok f ∧
    ∀ p, BadAt m p → ¬ Isolated m isoBuff p → im.px p.1 p.2 = f p

/-- The images are filled one after the other, each with the draws made from the state that the one
before has left (specification). -/
inductive FilledInTurn {V σ : Type}
    (interp : List (Nat × Nat) → List V → Except Err (Nat × Nat → V))
    (normal : σ → Nat → ℚ → List V × σ) (m : Img Bool) (isoBuff : ℤ) (F G : List (Nat × Nat)) (w : ℚ) :
    σ → List (Img V) → List (Img V) → σ → Prop
  | nil (s : σ) : FilledInTurn interp normal m isoBuff F G w s [] [] s
  | cons (s s' : σ) (a im : Img V) (l l' : List (Img V)) :
      NoiseFilledFrom interp normal m isoBuff F G w s a im →
      FilledInTurn interp normal m isoBuff F G w (normal s F.length w).2 l l' s' →
      FilledInTurn interp normal m isoBuff F G w s (a :: l) (im :: l') s'

/-- `w` is the median of the weights of the good pixels (specification). -/
def IsGoodMedian (m : Img Bool) (weight : Img ℚ) (w : ℚ) : Prop :=
  ∃ pts : List (Nat × Nat), pts.Nodup ∧ (∀ p, p ∈ pts ↔ GoodAt m p) ∧
    IsMedian (pts.map fun p => weight.px p.1 p.2) w

theorem goodMedian_of (weight : Img ℚ) (bm : Img Bool) (h : bm.nrow = weight.nrow ∧ bm.ncol = weight.ncol)
    (hg : ∃ p, GoodAt bm p) :
    IsGoodMedian bm weight (median (((List.range weight.nrow).flatMap fun r =>
      (List.range weight.ncol).map fun c => (r, c)).filterMap fun p =>
        if bm.px p.1 p.2 then none else some (weight.px p.1 p.2))) := by
  set all := (List.range weight.nrow).flatMap fun r => (List.range weight.ncol).map fun c => (r, c) with hall
  have hmem : ∀ p, p ∈ all.filter (fun p => !bm.px p.1 p.2) ↔ GoodAt bm p := by
    rintro ⟨r, c⟩
    simp only [hall, List.mem_filter, List.mem_flatMap, List.mem_map, List.mem_range, Prod.mk.injEq]
    unfold GoodAt InRange
    simp only [h.1, h.2]
    constructor
    · rintro ⟨⟨r', hr, c', hc, rfl, rfl⟩, hb⟩
      exact ⟨⟨hr, hc⟩, by simpa using hb⟩
    · rintro ⟨⟨hr, hc⟩, hb⟩
      exact ⟨⟨r, hr, c, hc, rfl, rfl⟩, by simpa using hb⟩
  have heq : (all.filterMap fun p => if bm.px p.1 p.2 then none else some (weight.px p.1 p.2)) =
      (all.filter fun p => !bm.px p.1 p.2).map fun p => weight.px p.1 p.2 := by
    generalize all = l
    induction l with
    | nil => rfl
    | cons p l ih =>
      rw [List.filterMap_cons, List.filter_cons]
      cases hb : bm.px p.1 p.2 <;> simp [ih]
  refine ⟨_, ?_, hmem, ?_⟩
  · refine List.Nodup.filter _ ?_
    rw [hall, List.nodup_flatMap]
    refine ⟨fun r _ => ?_, ?_⟩
    · exact List.nodup_range.map (fun a b hab => (Prod.mk.inj hab).2)
    · refine List.nodup_range.imp ?_
      intro a b hab
      rw [Function.onFun, List.disjoint_left]
      intro p hp hq
      obtain ⟨_, _, rfl⟩ := List.mem_map.1 hp
      obtain ⟨_, _, hq⟩ := List.mem_map.1 hq
      exact hab (Prod.mk.inj hq).1.symm
  · rw [heq]
    apply median_isMedian
    obtain ⟨p, hp⟩ := hg
    have := (hmem p).2 hp
    intro h0
    rw [List.map_eq_nil_iff] at h0
    rw [h0] at this
    cases this

/-- C24: with at least one isolated pixel the function behaves as documented for the image and
every noise field.  (Missing for the full statement: the case without isolated pixels, which
raises, see `C24_no_isolated_fails`.) -/
theorem C24_noise_fill_partial {V σ : Type}
    (interp : List (Nat × Nat) → List V → Except Err (Nat × Nat → V))
    (hinterp : ∀ G vals, ∃ f, interp G vals = .ok f)
    (normal : σ → Nat → ℚ → List V × σ) (hnormal : ∀ s n w, (normal s n w).1.length = n)
    (image : Img V) (noises : List (Img V))
    (weight : Img ℚ) (bmask : Img (BitVec 32)) (flags : BitVec 32) (rng : σ)
    (maxfrac : ℚ) (buff isoBuff : ℤ) (m : Img Bool) (hm : IsBadMask weight bmask flags m)
    (hb : ∃ p, BadAt m p) (hg : ∃ p, GoodAt m p)
    (hf : (numTrue m : ℚ) / (m.nrow * m.ncol : Nat) ≤ maxfrac)
    (hiso : ∃ p, Isolated m isoBuff p) :
    ∃ (im : Img V) (ns : List (Img V)) (rng' : σ) (F G : List (Nat × Nat)) (w : ℚ),
      interpolateImageAndNoise interp normal image noises weight bmask flags
        (some rng) maxfrac buff true isoBuff = .ok (some (im, ns), some rng') ∧
      F.Nodup ∧ (∀ p, p ∈ F ↔ Isolated m isoBuff p) ∧
      (∀ q, q ∈ G ↔ (GoodAt m q ∨ Isolated m isoBuff q) ∧
        ∃ p, (BadAt m p ∧ ¬ Isolated m isoBuff p) ∧ Within buff q p) ∧
      IsGoodMedian m weight w ∧
      FilledInTurn interp normal m isoBuff F G w rng (image :: noises) (im :: ns) rng' := by
  have heq := isBadMask_eqv hm
  set bm := badMaskOf weight bmask flags with hbm
  have hN : numTrue m = maskSum bm := by rw [eqv_numTrue heq, numTrue_eq]
  have hP : m.nrow * m.ncol = bm.nrow * bm.ncol := by rw [heq.1, heq.2.1]
  have hbad : maskSum bm ≠ 0 := by rw [← hN]; exact numTrue_pos.2 hb
  have hgood : maskSum bm ≠ bm.nrow * bm.ncol := by rw [← hN, ← hP]; exact numTrue_lt.2 hg
  obtain ⟨G0, g1, g2⟩ := good_list bm buff
  obtain ⟨F, l1, lnd, l2⟩ := isoPixels_spec bm isoBuff
  have hisoI : ∀ p, Isolated bm isoBuff p ↔ Isolated m isoBuff p := by
    intro p; unfold Isolated; simp only [eqv_badAt heq, eqv_goodAt heq]
  have hne : F ≠ [] := by
    obtain ⟨p, hp⟩ := hiso
    intro h
    have := (l2 p).2 ((hisoI p).2 hp)
    rw [h] at this
    cases this
  set bm2 := clearPts bm F with hbm2
  obtain ⟨G, G1, G2⟩ := good_list bm2 buff
  have hG1 : unravelIndex bm.nrow bm.ncol (npUnique ((maskedList bm2).flatMap
        fun p => (goodWin bm2 buff p).map (ravel bm2))) = .ok G := G1
  have hB1 : unravelIndex bm.nrow bm.ncol ((maskedList bm2).map
      fun p => (p.1 : ℤ) * bm2.ncol + p.2) = .ok (maskedList bm2) := unravel_bad bm2
  have hbad2 : ∀ p, BadAt bm2 p ↔ BadAt m p ∧ ¬ Isolated m isoBuff p := by
    intro p
    rw [eqv_badAt heq, ← hisoI, ← l2]
    unfold BadAt
    simp only [hbm2, clearPts]
    by_cases hF : p ∈ F <;> simp [hF]
  have hgood2 : ∀ p, GoodAt bm2 p ↔ GoodAt m p ∨ Isolated m isoBuff p := by
    intro p
    rw [eqv_goodAt heq, ← hisoI]
    unfold GoodAt
    simp only [hbm2, clearPts]
    by_cases hF : p ∈ F
    · have := (l2 p).1 hF
      simp [hF, this, this.1.1]
    · have : ¬ Isolated bm isoBuff p := fun h => hF ((l2 p).2 h)
      simp [hF, this]
  -- one image
  have one : ∀ (w : ℚ) (a : Img V) (s : σ), ∃ im,
      interpOne interp normal a (maskedList bm2) G bm2 (some F) w (some s) =
        .ok (im, some (normal s F.length w).2) ∧
      NoiseFilledFrom interp normal m isoBuff F G w s a im := by
    intro w a s
    obtain ⟨a1, e1, s1, s2, s3, s4⟩ := assignPts_ok a F (normal s F.length w).1 (hnormal s _ w)
    obtain ⟨f, hfm⟩ := hinterp G (G.map fun p => a1.px p.1 p.2)
    obtain ⟨out, o1, o2, o3, o4⟩ := assign_filled a1 bm2 f
    refine ⟨out, ?_, by rw [o2, s1], by rw [o3, s2], ?_, ?_, f, ?_, ?_⟩
    · unfold interpOne
      simp only [e1, ok_bind]
      change (interp G _ >>= _) = _
      rw [hfm, ok_bind, o1]
      rfl
    · intro p hp
      have hnF : p ∉ F := by
        intro h
        have h1 := ((l2 p).1 h).1.2
        have h2 := ((eqv_goodAt heq p).1 hp).2
        rw [h2] at h1
        cases h1
      rw [(o4 p).2 ((hgood2 p).2 (Or.inl hp)), s3 _ _ hnF]
    · intro p hp
      rw [(o4 p).2 ((hgood2 p).2 (Or.inr hp))]
      exact s4 _ _ ((l2 p).2 ((hisoI p).2 hp))
    · rw [← hfm]
      congr 1
      apply List.map_congr_left
      intro q hq
      exact (o4 q).2 ((G2.2 q).1 hq).1
    · intro p hp hni; exact (o4 p).1 ((hbad2 p).2 ⟨hp, hni⟩)
  have all : ∀ (w : ℚ) (l : List (Img V)) (s : σ), ∃ ns s',
      interpAll (fun a rng => interpOne interp normal a (maskedList bm2) G bm2 (some F) w rng) l
        (some s) = .ok (ns, some s') ∧
      FilledInTurn interp normal m isoBuff F G w s l ns s' := by
    intro w l
    induction l with
    | nil => intro s; exact ⟨[], s, rfl, .nil s⟩
    | cons a t ih =>
      intro s
      obtain ⟨im, h1, h1'⟩ := one w a s
      obtain ⟨ns, s2, h2, h3⟩ := ih (normal s F.length w).2
      refine ⟨im :: ns, s2, ?_, .cons _ _ _ _ _ _ h1' h3⟩
      simp only [interpAll, h1, ok_bind, h2]
      rfl
  have hgm := goodMedian_of weight bm ⟨rfl, rfl⟩ (by
    obtain ⟨p, hp⟩ := hg; exact ⟨p, (eqv_goodAt heq p).1 hp⟩)
  generalize hw : median (((List.range weight.nrow).flatMap fun r =>
      (List.range weight.ncol).map fun c => (r, c)).filterMap fun p =>
        if bm.px p.1 p.2 then none else some (weight.px p.1 p.2)) = w at hgm
  obtain ⟨im, h1, h2⟩ := one w image rng
  obtain ⟨ns, s2, k1, k2⟩ := all w noises (normal rng F.length w).2
  refine ⟨im, ns, s2, F, G, w, ?_, lnd, ?_, ?_, ?_, .cons _ _ _ _ _ _ h2 k2⟩
  · unfold interpolateImageAndNoise
    simp only [← hbm]
    rw [hN, hP] at hf
    rw [if_pos hbad, if_neg (by push Not; exact ⟨hf, hgood⟩), getNearby_ok]
    simp only [ok_bind, unravel_bad, g1, if_true]
    rw [l1]
    simp only [if_pos hne, ← hbm2]
    rw [getNearby_ok bm2]
    simp only [ok_bind, hB1, hG1, hw]
    change (interpOne interp normal image (maskedList bm2) G bm2 (some F) w (some rng) >>= _) = _
    rw [h1, ok_bind]
    simp only [k1, ok_bind]
    rfl
  · intro p; rw [l2, hisoI]
  · intro q; rw [G2.2]; simp only [hbad2, hgood2]
  · obtain ⟨pts, q1, q2, q3⟩ := hgm
    exact ⟨pts, q1, fun p => by rw [q2, eqv_goodAt heq], q3⟩

/-- Example weights: a 3 x 3 block without weight inside 5 x 5 pixels (example). -/
def exBlockWeight : Img ℚ := ⟨5, 5, fun r c => if 1 ≤ r ∧ r ≤ 3 ∧ 1 ≤ c ∧ c ≤ 3 then 0 else 1⟩

/-- Its bad pixels (example). -/
def exBlockBad : Img Bool := ⟨5, 5, fun r c => decide (1 ≤ r ∧ r ≤ 3 ∧ 1 ≤ c ∧ c ≤ 3)⟩

/-- The mask of the block belongs to its weights. -/
theorem exBlock_mask : IsBadMask exBlockWeight ⟨5, 5, fun _ _ => 0⟩ 1 exBlockBad := by
  refine ⟨rfl, rfl, fun p _ => ?_⟩
  simp only [Unusable, Carries, exBlockBad, exBlockWeight, decide_eq_true_eq]
  by_cases h : 1 ≤ p.1 ∧ p.1 ≤ 3 ∧ 1 ≤ p.2 ∧ p.2 ≤ 3 <;> simp [h]

/-- The centre of the block is isolated. -/
theorem exBlock_isolated : Isolated exBlockBad 1 (2, 2) := by
  refine ⟨⟨⟨by decide, by decide⟩, by decide⟩, ?_⟩
  rintro ⟨a, b⟩ ⟨_, h⟩ ⟨h1, h2⟩
  simp only [abs_le] at h1 h2
  have : 1 ≤ a ∧ a ≤ 3 ∧ 1 ≤ b ∧ b ≤ 3 := by push_cast at h1 h2; omega
  simp [this, exBlockBad] at h

/-- Nine pixels in 25 are bad. -/
theorem exBlock_fraction :
    (numTrue exBlockBad : ℚ) / (exBlockBad.nrow * exBlockBad.ncol : Nat) ≤ 1/2 := by
  have : numTrue exBlockBad = 9 := by decide
  rw [this]; norm_num [exBlockBad]

/-- `C24_noise_fill_partial` on the block, with one noise field. -/
example := C24_noise_fill_partial exSumInterp (fun _ _ => ⟨_, rfl⟩) exOnes
  (fun _ _ _ => List.length_replicate) ⟨5, 5, fun r c => r + c⟩ [⟨5, 5, fun _ _ => 2⟩] exBlockWeight
  ⟨5, 5, fun _ _ => 0⟩ 1 7 (1/2) 4 1 exBlockBad exBlock_mask ⟨_, exBlock_isolated.1⟩
  ⟨(0, 0), ⟨by decide, by decide⟩, by decide⟩ exBlock_fraction ⟨_, exBlock_isolated⟩

/-- C24: `interpolate_image_at_mask` with noise filling and at least one isolated pixel. -/
theorem C24_at_mask_fill {V σ : Type}
    (interp : List (Nat × Nat) → List V → Except Err (Nat × Nat → V))
    (hinterp : ∀ G vals, ∃ f, interp G vals = .ok f)
    (normal : σ → Nat → ℚ → List V × σ) (hnormal : ∀ s n w, (normal s n w).1.length = n)
    (image : Img V) (m : Img Bool) (w : ℚ) (rng : σ) (maxfrac : ℚ) (buff isoBuff : ℤ)
    (hb : ∃ p, BadAt m p) (hg : ∃ p, GoodAt m p)
    (hf : (numTrue m : ℚ) / (m.nrow * m.ncol : Nat) ≤ maxfrac)
    (hiso : ∃ p, Isolated m isoBuff p) :
    ∃ (im : Img V) (F G : List (Nat × Nat)),
      interpolateImageAtMask interp normal image m maxfrac buff true (some w) (some rng) isoBuff =
        .ok (some im) ∧
      F.Nodup ∧ (∀ p, p ∈ F ↔ Isolated m isoBuff p) ∧
      (∀ q, q ∈ G ↔ (GoodAt m q ∨ Isolated m isoBuff q) ∧
        ∃ p, (BadAt m p ∧ ¬ Isolated m isoBuff p) ∧ Within buff q p) ∧
      NoiseFilledFrom interp normal m isoBuff F G w rng image im := by
  have hpos : m.nrow * m.ncol ≠ 0 := by
    obtain ⟨p, ⟨h1, h2⟩, _⟩ := hb
    exact Nat.mul_ne_zero (by omega) (by omega)
  have hle : numTrue m ≤ m.nrow * m.ncol := by
    have : (Finset.range m.nrow ×ˢ Finset.range m.ncol).card = m.nrow * m.ncol := by simp
    rw [← this]
    exact Finset.card_filter_le _ _
  have hlt : maskSum m < m.nrow * m.ncol := by
    rw [← numTrue_eq]; have := numTrue_lt.2 hg; omega
  obtain ⟨G0, g1, _⟩ := good_list m buff
  obtain ⟨F, l1, lnd, l2⟩ := isoPixels_spec m isoBuff
  have hne : F ≠ [] := by
    obtain ⟨p, hp⟩ := hiso
    intro h
    have := (l2 p).2 hp
    rw [h] at this
    cases this
  set bm2 := clearPts m F with hbm2
  obtain ⟨G, G1, G2⟩ := good_list bm2 buff
  have hG1 : unravelIndex m.nrow m.ncol (npUnique ((maskedList bm2).flatMap
        fun p => (goodWin bm2 buff p).map (ravel bm2))) = .ok G := G1
  have hB1 : unravelIndex m.nrow m.ncol ((maskedList bm2).map
      fun p => (p.1 : ℤ) * bm2.ncol + p.2) = .ok (maskedList bm2) := unravel_bad bm2
  have hbad2 : ∀ p, BadAt bm2 p ↔ BadAt m p ∧ ¬ Isolated m isoBuff p := by
    intro p
    rw [← l2]
    unfold BadAt
    simp only [hbm2, clearPts]
    by_cases hF : p ∈ F <;> simp [hF]
  have hgood2 : ∀ p, GoodAt bm2 p ↔ GoodAt m p ∨ Isolated m isoBuff p := by
    intro p
    unfold GoodAt
    simp only [hbm2, clearPts]
    by_cases hF : p ∈ F
    · have := (l2 p).1 hF
      simp [hF, this, this.1.1]
    · have : ¬ Isolated m isoBuff p := fun h => hF ((l2 p).2 h)
      simp [hF, this]
  obtain ⟨a1, e1, s1, s2, s3, s4⟩ := assignPts_ok image F (normal rng F.length w).1 (hnormal rng _ w)
  obtain ⟨f, hfm⟩ := hinterp G (G.map fun p => a1.px p.1 p.2)
  obtain ⟨out, o1, o2, o3, o4⟩ := assign_filled a1 bm2 f
  refine ⟨out, F, G, ?_, lnd, l2, fun q => by rw [G2.2]; simp only [hbad2, hgood2], by rw [o2, s1],
    by rw [o3, s2], ?_, ?_, f, ?_, ?_⟩
  · unfold interpolateImageAtMask
    simp only
    rw [if_pos ⟨hpos, hf, hlt⟩, getNearby_ok]
    simp only [ok_bind, unravel_bad, g1, if_true]
    rw [l1]
    simp only [if_pos hne, ← hbm2]
    rw [getNearby_ok bm2]
    simp only [ok_bind, hB1, hG1, e1]
    change (interp G _ >>= _) = _
    rw [hfm, ok_bind, o1]
    rfl
  · intro p hp
    have hnF : p ∉ F := by
      intro h
      have h1 := ((l2 p).1 h).1.2
      rw [hp.2] at h1
      cases h1
    rw [(o4 p).2 ((hgood2 p).2 (Or.inl hp)), s3 _ _ hnF]
  · intro p hp
    rw [(o4 p).2 ((hgood2 p).2 (Or.inr hp))]
    exact s4 _ _ ((l2 p).2 hp)
  · rw [← hfm]
    congr 1
    apply List.map_congr_left
    intro q hq
    exact (o4 q).2 ((G2.2 q).1 hq).1
  · intro p hp hni; exact (o4 p).1 ((hbad2 p).2 ⟨hp, hni⟩)

/-- `C24_at_mask_fill` on a 3 x 3 bad block inside 5 x 5 pixels. -/
example := C24_at_mask_fill exSumInterp (fun _ _ => ⟨_, rfl⟩) exOnes
  (fun _ _ _ => List.length_replicate) ⟨5, 5, fun r c => r + c⟩ exBlockBad 2 7 (1/2) 4 1
  ⟨_, exBlock_isolated.1⟩ ⟨(0, 0), ⟨by decide, by decide⟩, by decide⟩ exBlock_fraction
  ⟨_, exBlock_isolated⟩

/-- C24: without isolated pixels, noise filling changes nothing in `interpolate_image_at_mask` (unlike
in `interpolate_image_and_noise`). -/
theorem C24_at_mask_no_isolated {V σ : Type}
    (interp : List (Nat × Nat) → List V → Except Err (Nat × Nat → V))
    (normal : σ → Nat → ℚ → List V × σ) (image : Img V) (m : Img Bool) (w : ℚ) (rng : σ)
    (maxfrac : ℚ) (buff isoBuff : ℤ) (hiso : ∀ p, ¬ Isolated m isoBuff p) :
    interpolateImageAtMask interp normal image m maxfrac buff true (some w) (some rng) isoBuff =
      interpolateImageAtMask interp normal image m maxfrac buff false (some w) (some rng) isoBuff := by
  obtain ⟨G0, g1, _⟩ := good_list m buff
  obtain ⟨F, l1, lnd, l2⟩ := isoPixels_spec m isoBuff
  have hnil : F = [] := by
    rw [List.eq_nil_iff_forall_not_mem]
    intro p hp
    exact hiso p ((l2 p).1 hp)
  rw [hnil] at l1
  unfold interpolateImageAtMask
  simp only
  split
  · rw [getNearby_ok]
    simp only [ok_bind, unravel_bad, g1, if_true]
    rw [l1]
    rfl
  · rfl

/-- `C24_at_mask_no_isolated` on the 3 x 3 image with a bad centre. -/
example := C24_at_mask_no_isolated exSumInterp exOnes ⟨3, 3, fun r c => r + c⟩ exDotBad 2 7 (1/2) 4 1
  exDot_no_isolated

/-- C24: noise filling in `interpolate_image_at_mask` needs a generator and a weight. -/
theorem C24_at_mask_missing {V σ : Type}
    (interp : List (Nat × Nat) → List V → Except Err (Nat × Nat → V))
    (normal : σ → Nat → ℚ → List V × σ) (image : Img V) (m : Img Bool) (w : Option ℚ) (rng : Option σ)
    (maxfrac : ℚ) (buff isoBuff : ℤ) (hg : ∃ p, GoodAt m p)
    (hf : (numTrue m : ℚ) / (m.nrow * m.ncol : Nat) ≤ maxfrac) (hmiss : rng = none ∨ w = none) :
    interpolateImageAtMask interp normal image m maxfrac buff true w rng isoBuff = .error .runtimeError := by
  have hpos : m.nrow * m.ncol ≠ 0 := by
    obtain ⟨p, ⟨h1, h2⟩, _⟩ := hg
    exact Nat.mul_ne_zero (by omega) (by omega)
  have hle : numTrue m ≤ m.nrow * m.ncol := by
    have : (Finset.range m.nrow ×ˢ Finset.range m.ncol).card = m.nrow * m.ncol := by simp
    rw [← this]
    exact Finset.card_filter_le _ _
  have hlt : maskSum m < m.nrow * m.ncol := by
    rw [← numTrue_eq]; have := numTrue_lt.2 hg; omega
  obtain ⟨G0, g1, _⟩ := good_list m buff
  unfold interpolateImageAtMask
  simp only
  rw [if_pos ⟨hpos, hf, hlt⟩, getNearby_ok]
  simp only [ok_bind, unravel_bad, g1, if_true]
  rcases hmiss with rfl | rfl
  · rfl
  · cases rng <;> rfl

/-- `C24_at_mask_missing` on the same image, with a weight but no generator. -/
example := C24_at_mask_missing exSumInterp exOnes ⟨3, 3, fun r c => r + c⟩ exDotBad (some 2) none (1/2)
  4 1 exDot_good exDot_fraction (Or.inl rfl)

/-- Both cases occur: the centre of a 3 x 3 bad block in a 5 x 5 image is isolated; a single
bad pixel is not. -/
example : Isolated ⟨5, 5, fun r c => decide (1 ≤ r ∧ r ≤ 3 ∧ 1 ≤ c ∧ c ≤ 3)⟩ 1 (2, 2) := by
  refine ⟨⟨⟨by decide, by decide⟩, by decide⟩, ?_⟩
  rintro ⟨a, b⟩ ⟨_, h⟩ ⟨h1, h2⟩
  simp only [abs_le] at h1 h2
  have : 1 ≤ a ∧ a ≤ 3 ∧ 1 ≤ b ∧ b ≤ 3 := by push_cast at h1 h2; omega
  simp [this] at h

/-- The defect occurs for a concrete input: one bad pixel in the centre of a 3 x 3 image. -/
theorem C24_witness_fails :
    interpolateImageAndNoise (fun _ _ => .ok fun _ => (0 : ℚ)) (fun (s : Unit) n _ => (List.replicate n 0, s))
      ⟨3, 3, fun _ _ => 5⟩ [] ⟨3, 3, fun r c => if r = 1 ∧ c = 1 then 0 else 1⟩
      ⟨3, 3, fun _ _ => 0⟩ 1 (some ()) (9 / 10) 4 true 1 = .error .unboundLocal := by
  apply C24_no_isolated_fails (m := ⟨3, 3, fun r c => decide (r = 1 ∧ c = 1)⟩)
  · refine ⟨rfl, rfl, fun p _ => ?_⟩
    simp only [Unusable, Carries, decide_eq_true_eq]
    by_cases h : p.1 = 1 ∧ p.2 = 1 <;> simp [h]
  · exact ⟨(1, 1), ⟨by decide, by decide⟩, by decide⟩
  · exact ⟨(0, 0), ⟨by decide, by decide⟩, by decide⟩
  · have : numTrue ⟨3, 3, fun r c => decide (r = 1 ∧ c = 1)⟩ = 1 := by decide
    rw [this]; norm_num
  · rintro ⟨a, b⟩ ⟨⟨_, hb⟩, h⟩
    simp only [decide_eq_true_eq] at hb
    obtain ⟨rfl, rfl⟩ := hb
    exact h (0, 0) ⟨⟨by decide, by decide⟩, by decide⟩ ⟨by decide, by decide⟩

/-! ### C25 -/

/-- On edge `e`, the pixel adjacent to `(r, c)` one line further in. -/
def Edge.Inner (e : Edge) (nrow ncol r c : Nat) : Nat × Nat :=
  match e with
  | .top => (1, c)
  | .bottom => (nrow - 2, c)
  | .left => (r, 1)
  | .right => (r, ncol - 2)

/-- Every pixel of the edge is unusable. -/
def EdgeBad (weight : Img ℚ) (bmask : Img (BitVec 32)) (flags : BitVec 32) (e : Edge) : Prop :=
  ∀ r c, e.On weight.nrow weight.ncol r c → Unusable weight bmask flags (r, c)

/-- The pixel `(r, c)` gets repaired through edge `e`: the edge is fully unusable and the
adjacent pixel is usable. -/
def Repaired (weight : Img ℚ) (bmask : Img (BitVec 32)) (flags : BitVec 32) (e : Edge)
    (r c : Nat) : Prop :=
  e.On weight.nrow weight.ncol r c ∧ EdgeBad weight bmask flags e ∧
  ¬ Unusable weight bmask flags (e.Inner weight.nrow weight.ncol r c)

/-- `b` is `a` with repaired pixels replaced by their inner neighbours. -/
def RepairOf {α : Type} (weight : Img ℚ) (bmask : Img (BitVec 32)) (flags : BitVec 32)
    (a b : Img α) : Prop :=
  b.nrow = a.nrow ∧ b.ncol = a.ncol ∧ ∀ r < weight.nrow, ∀ c < weight.ncol,
    (∀ e, Repaired weight bmask flags e r c →
      b.px r c = a.px (e.Inner weight.nrow weight.ncol r c).1 (e.Inner weight.nrow weight.ncol r c).2) ∧
    ((∀ e, ¬ Repaired weight bmask flags e r c) → b.px r c = a.px r c)

/-- The four array updates applied to a single array. -/
def edge4 {α : Type} (weight : Img ℚ) (bmask : Img (BitVec 32)) (flags : BitVec 32) (a : Img α) :
    Img α :=
  let bad := badPix weight bmask flags
  let n := weight.nrow
  let m := weight.ncol
  let row := fun (i ii : Nat) (a : Img α) =>
    if (allLt m fun c => bad i c) && !(allLt m fun c => bad ii c) then
      a.copyRow i ii (fun c => !bad ii c) else a
  let col := fun (i ii : Nat) (a : Img α) =>
    if (allLt n fun r => bad r i) && !(allLt n fun r => bad r ii) then
      a.copyCol i ii (fun r => !bad r ii) else a
  col (m - 1) (m - 2) (row (n - 1) (n - 2) (col 0 1 (row 0 1 a)))

theorem copyMaskedEdges_eq {V : Type} (image : Img V) (noises : List (Img V)) (weight : Img ℚ)
    (bmask : Img (BitVec 32)) (flags : BitVec 32) (hn : 2 ≤ weight.nrow) (hm : 2 ≤ weight.ncol) :
    copyMaskedEdges image noises weight bmask flags = .ok
      ⟨edge4 weight bmask flags image, noises.map (edge4 weight bmask flags),
        edge4 weight bmask flags bmask, edge4 weight bmask flags weight⟩ := by
  unfold copyMaskedEdges
  simp only
  rw [if_neg (by omega)]
  unfold edge4 edgeRowStep edgeColStep
  simp only
  split <;> split <;> split <;> split <;> simp [Function.comp_def]

theorem inner_inRange (weight : Img ℚ) (hn : 2 ≤ weight.nrow) (hm : 2 ≤ weight.ncol) (e : Edge)
    (r c : Nat) (h : e.On weight.nrow weight.ncol r c) :
    (e.Inner weight.nrow weight.ncol r c).1 < weight.nrow ∧
    (e.Inner weight.nrow weight.ncol r c).2 < weight.ncol := by
  obtain ⟨h1, h2, _⟩ := h
  cases e <;> simp only [Edge.Inner] <;> omega

/-- A pixel is repaired through at most one edge. -/
theorem repaired_unique {weight : Img ℚ} {bmask : Img (BitVec 32)} {flags : BitVec 32}
    (hn : 2 ≤ weight.nrow) (hm : 2 ≤ weight.ncol) {e e' : Edge} {r c : Nat}
    (h : Repaired weight bmask flags e r c) (h' : Repaired weight bmask flags e' r c) : e = e' := by
  obtain ⟨⟨h1, h2, h3⟩, h4, h5⟩ := h
  obtain ⟨⟨_, _, k3⟩, k4, k5⟩ := h'
  cases e <;> cases e' <;> first | rfl | exfalso
  all_goals simp only [Edge.Inner] at h3 k3 h5 k5
  all_goals first
    | omega
    | exact h5 (k4 _ _ ⟨by omega, by omega, by simp only; omega⟩)

/-- A pixel repaired is unusable. -/
theorem repaired_unusable {weight : Img ℚ} {bmask : Img (BitVec 32)} {flags : BitVec 32}
    {e : Edge} {r c : Nat} (h : Repaired weight bmask flags e r c) :
    Unusable weight bmask flags (r, c) := h.2.1 r c h.1

/-- One of the four updates, abstractly. -/
def StepOf {α : Type} (weight : Img ℚ) (bmask : Img (BitVec 32)) (flags : BitVec 32) (e : Edge)
    (a b : Img α) : Prop :=
  b.nrow = a.nrow ∧ b.ncol = a.ncol ∧ ∀ r < weight.nrow, ∀ c < weight.ncol,
    (Repaired weight bmask flags e r c →
      b.px r c = a.px (e.Inner weight.nrow weight.ncol r c).1 (e.Inner weight.nrow weight.ncol r c).2) ∧
    (¬ Repaired weight bmask flags e r c → b.px r c = a.px r c)

theorem rowStep_stepOf {α : Type} (weight : Img ℚ) (bmask : Img (BitVec 32)) (flags : BitVec 32)
    (e : Edge) (i ii : Nat) (a : Img α)
    (hOn : ∀ r c, e.On weight.nrow weight.ncol r c ↔ r = i ∧ c < weight.ncol)
    (hIn : ∀ r c, e.Inner weight.nrow weight.ncol r c = (ii, c)) :
    StepOf weight bmask flags e a
      (if (allLt weight.ncol fun c => badPix weight bmask flags i c) &&
          !(allLt weight.ncol fun c => badPix weight bmask flags ii c) then
        a.copyRow i ii (fun c => !badPix weight bmask flags ii c) else a) := by
  have hrep : ∀ r c, Repaired weight bmask flags e r c ↔ (r = i ∧ c < weight.ncol) ∧
      (allLt weight.ncol fun c => badPix weight bmask flags i c) = true ∧
      badPix weight bmask flags ii c = false := by
    intro r c
    unfold Repaired EdgeBad
    simp only [hOn, hIn, ← badPix_iff, allLt_iff, Bool.not_eq_true]
    refine and_congr Iff.rfl (and_congr ?_ Iff.rfl)
    exact ⟨fun h c hc => h i c ⟨rfl, hc⟩, fun h r c hc => by rw [hc.1]; exact h c hc.2⟩
  have hany : ∀ c < weight.ncol, badPix weight bmask flags ii c = false →
      (allLt weight.ncol fun c => badPix weight bmask flags ii c) = false := by
    intro c hc h
    rw [← Bool.not_eq_true, allLt_iff]
    intro hall
    rw [hall c hc] at h
    cases h
  split
  · rename_i hc
    rw [Bool.and_eq_true] at hc
    refine ⟨rfl, rfl, fun r hr c hcc => ⟨?_, ?_⟩⟩
    · intro h
      rw [hrep] at h
      simp only [Img.copyRow, hIn, h.1.1, h.2.2, Bool.not_false, and_self, if_true]
    · intro h
      rw [hrep] at h
      simp only [Img.copyRow]
      rw [if_neg]
      rintro ⟨h1, h2⟩
      exact h ⟨⟨h1, hcc⟩, hc.1, by simpa using h2⟩
  · rename_i hc
    refine ⟨rfl, rfl, fun r hr c hcc => ⟨?_, fun _ => rfl⟩⟩
    intro h
    rw [hrep] at h
    exfalso
    apply hc
    rw [h.2.1, hany c hcc h.2.2]
    rfl

theorem colStep_stepOf {α : Type} (weight : Img ℚ) (bmask : Img (BitVec 32)) (flags : BitVec 32)
    (e : Edge) (i ii : Nat) (a : Img α)
    (hOn : ∀ r c, e.On weight.nrow weight.ncol r c ↔ c = i ∧ r < weight.nrow)
    (hIn : ∀ r c, e.Inner weight.nrow weight.ncol r c = (r, ii)) :
    StepOf weight bmask flags e a
      (if (allLt weight.nrow fun r => badPix weight bmask flags r i) &&
          !(allLt weight.nrow fun r => badPix weight bmask flags r ii) then
        a.copyCol i ii (fun r => !badPix weight bmask flags r ii) else a) := by
  have hrep : ∀ r c, Repaired weight bmask flags e r c ↔ (c = i ∧ r < weight.nrow) ∧
      (allLt weight.nrow fun r => badPix weight bmask flags r i) = true ∧
      badPix weight bmask flags r ii = false := by
    intro r c
    unfold Repaired EdgeBad
    simp only [hOn, hIn, ← badPix_iff, allLt_iff, Bool.not_eq_true]
    refine and_congr Iff.rfl (and_congr ?_ Iff.rfl)
    exact ⟨fun h r hr => h r i ⟨rfl, hr⟩, fun h r c hc => by rw [hc.1]; exact h r hc.2⟩
  have hany : ∀ r < weight.nrow, badPix weight bmask flags r ii = false →
      (allLt weight.nrow fun r => badPix weight bmask flags r ii) = false := by
    intro c hc h
    rw [← Bool.not_eq_true, allLt_iff]
    intro hall
    rw [hall c hc] at h
    cases h
  split
  · rename_i hc
    rw [Bool.and_eq_true] at hc
    refine ⟨rfl, rfl, fun r hr c hcc => ⟨?_, ?_⟩⟩
    · intro h
      rw [hrep] at h
      simp only [Img.copyCol, hIn, h.1.1, h.2.2, Bool.not_false, and_self, if_true]
    · intro h
      rw [hrep] at h
      simp only [Img.copyCol]
      rw [if_neg]
      rintro ⟨h1, h2⟩
      exact h ⟨⟨h1, hr⟩, hc.1, by simpa using h2⟩
  · rename_i hc
    refine ⟨rfl, rfl, fun r hr c hcc => ⟨?_, fun _ => rfl⟩⟩
    intro h
    rw [hrep] at h
    exfalso
    apply hc
    rw [h.2.1, hany r hr h.2.2]
    rfl

/-- Repairs restricted to a set of edges. -/
def RepairSet {α : Type} (weight : Img ℚ) (bmask : Img (BitVec 32)) (flags : BitVec 32)
    (S : Edge → Prop) (a b : Img α) : Prop :=
  b.nrow = a.nrow ∧ b.ncol = a.ncol ∧ ∀ r < weight.nrow, ∀ c < weight.ncol,
    (∀ e, S e → Repaired weight bmask flags e r c →
      b.px r c = a.px (e.Inner weight.nrow weight.ncol r c).1 (e.Inner weight.nrow weight.ncol r c).2) ∧
    ((∀ e, S e → ¬ Repaired weight bmask flags e r c) → b.px r c = a.px r c)

theorem repairSet_step {α : Type} {weight : Img ℚ} {bmask : Img (BitVec 32)} {flags : BitVec 32}
    (hn : 2 ≤ weight.nrow) (hm : 2 ≤ weight.ncol) {S : Edge → Prop} {e0 : Edge} (he : ¬ S e0)
    {a b b' : Img α} (h : RepairSet weight bmask flags S a b)
    (hs : StepOf weight bmask flags e0 b b') :
    RepairSet weight bmask flags (fun e => S e ∨ e = e0) a b' := by
  refine ⟨by rw [hs.1, h.1], by rw [hs.2.1, h.2.1], fun r hr c hc => ⟨?_, ?_⟩⟩
  · rintro e (hS | rfl) hrep
    · have hne : ¬ Repaired weight bmask flags e0 r c := by
        intro h0
        have := repaired_unique hn hm hrep h0
        subst this
        exact he hS
      rw [(hs.2.2 r hr c hc).2 hne, (h.2.2 r hr c hc).1 e hS hrep]
    · rw [(hs.2.2 r hr c hc).1 hrep]
      obtain ⟨i1, i2⟩ := inner_inRange weight hn hm e r c hrep.1
      refine (h.2.2 _ i1 _ i2).2 ?_
      intro e' _ hrep'
      exact hrep.2.2 (repaired_unusable hrep')
  · intro hno
    rw [(hs.2.2 r hr c hc).2 (hno e0 (Or.inr rfl)),
      (h.2.2 r hr c hc).2 (fun e hS => hno e (Or.inl hS))]

theorem edge4_repair {α : Type} (weight : Img ℚ) (bmask : Img (BitVec 32)) (flags : BitVec 32)
    (hn : 2 ≤ weight.nrow) (hm : 2 ≤ weight.ncol) (a : Img α) :
    RepairOf weight bmask flags a (edge4 weight bmask flags a) := by
  have h0 : RepairSet weight bmask flags (fun _ => False) a a :=
    ⟨rfl, rfl, fun r _ c _ => ⟨fun e h => h.elim, fun _ => rfl⟩⟩
  have h1 := repairSet_step hn hm (e0 := .top) (by simp) h0
    (rowStep_stepOf weight bmask flags .top 0 1 a
      (by intro r c; simp only [Edge.On]; omega) (by intro r c; rfl))
  have h2 := repairSet_step hn hm (e0 := .left) (by simp) h1
    (colStep_stepOf weight bmask flags .left 0 1 _
      (by intro r c; simp only [Edge.On]; omega) (by intro r c; rfl))
  have h3 := repairSet_step hn hm (e0 := .bottom) (by simp) h2
    (rowStep_stepOf weight bmask flags .bottom (weight.nrow - 1) (weight.nrow - 2) _
      (by intro r c; simp only [Edge.On]; omega) (by intro r c; rfl))
  have h4 := repairSet_step hn hm (e0 := .right) (by simp) h3
    (colStep_stepOf weight bmask flags .right (weight.ncol - 1) (weight.ncol - 2) _
      (by intro r c; simp only [Edge.On]; omega) (by intro r c; rfl))
  have hS : ∀ e : Edge, ((((False ∨ e = .top) ∨ e = .left) ∨ e = .bottom) ∨ e = .right) := by
    intro e; cases e <;> simp
  refine ⟨h4.1, h4.2.1, fun r hr c hc => ⟨fun e hrep => ?_, fun hno => ?_⟩⟩
  · exact (h4.2.2 r hr c hc).1 e (hS e) hrep
  · exact (h4.2.2 r hr c hc).2 (fun e _ => hno e)

/-- C25: for images of at least 2 x 2 pixels the edge copying succeeds; image, mask, weight and
every noise field change exactly at the repaired pixels, which receive the original values of
their one usable inner neighbour; afterwards an edge with such a pixel is no longer fully
unusable. -/
theorem C25_copy_edges {V : Type} (image : Img V) (noises : List (Img V)) (weight : Img ℚ)
    (bmask : Img (BitVec 32)) (flags : BitVec 32) (hn : 2 ≤ weight.nrow) (hm : 2 ≤ weight.ncol) :
    ∃ st, copyMaskedEdges image noises weight bmask flags = .ok st ∧
      RepairOf weight bmask flags image st.image ∧
      List.Forall₂ (RepairOf weight bmask flags) noises st.noises ∧
      RepairOf weight bmask flags bmask st.bmask ∧
      RepairOf weight bmask flags weight st.weight ∧
      (∀ e r c e', Repaired weight bmask flags e r c → Repaired weight bmask flags e' r c → e = e') ∧
      (∀ e r c, Repaired weight bmask flags e r c → Unusable weight bmask flags (r, c) ∧
        ¬ Unusable st.weight st.bmask flags (r, c) ∧ ¬ EdgeBad st.weight st.bmask flags e) := by
  refine ⟨_, copyMaskedEdges_eq image noises weight bmask flags hn hm,
    edge4_repair weight bmask flags hn hm image, ?_, edge4_repair weight bmask flags hn hm bmask,
    edge4_repair weight bmask flags hn hm weight, fun e r c e' => repaired_unique hn hm, ?_⟩
  · simp only
    rw [List.forall₂_map_right_iff, List.forall₂_same]
    intro a _
    exact edge4_repair weight bmask flags hn hm a
  · intro e r c hrep
    have hw := edge4_repair weight bmask flags hn hm weight
    have hb := edge4_repair weight bmask flags hn hm bmask
    have hfix : ¬ Unusable (edge4 weight bmask flags weight) (edge4 weight bmask flags bmask)
        flags (r, c) := by
      unfold Unusable
      simp only
      rw [((hw.2.2 r hrep.1.1 c hrep.1.2.1).1 e hrep), ((hb.2.2 r hrep.1.1 c hrep.1.2.1).1 e hrep)]
      exact hrep.2.2
    refine ⟨repaired_unusable hrep, hfix, fun hbad => hfix (hbad r c ?_)⟩
    rw [hw.1, hw.2.1]
    exact hrep.1

/-- `C25_copy_edges` on a 3 x 4 image whose top row has no weight. -/
example := C25_copy_edges (⟨3, 4, fun r c => r + c⟩ : Img ℚ) [⟨3, 4, fun _ _ => 2⟩]
  ⟨3, 4, fun r _ => if r = 0 then 0 else 1⟩ ⟨3, 4, fun _ _ => 0⟩ 1 (by decide) (by decide)

/-- C25: images with fewer than two rows or columns raise. -/
theorem C25_too_small {V : Type} (image : Img V) (noises : List (Img V)) (weight : Img ℚ)
    (bmask : Img (BitVec 32)) (flags : BitVec 32) (h : weight.nrow < 2 ∨ weight.ncol < 2) :
    copyMaskedEdges image noises weight bmask flags = .error .indexError := by
  unfold copyMaskedEdges
  simp only
  rw [if_pos h]

/-- `C25_too_small` on a single row. -/
example := C25_too_small (⟨1, 4, fun r c => r + c⟩ : Img ℚ) [] ⟨1, 4, fun _ _ => 1⟩
  ⟨1, 4, fun _ _ => 0⟩ 1 (Or.inl (by decide))

/-- A 3 x 4 image with a fully masked top row: the top pixels are repaired. -/
example : Repaired ⟨3, 4, fun r _ => if r = 0 then 0 else 1⟩ ⟨3, 4, fun _ _ => 0⟩ 1 .top 0 2 := by
  refine ⟨⟨by decide, by decide, rfl⟩, ?_, ?_⟩
  · rintro r c ⟨_, _, rfl⟩
    exact Or.inl (by simp)
  · simp [Unusable, Edge.Inner, Carries]

end Pizza
