import Verif.Spec.Gaia
import Mathlib.Tactic.Ring
import Mathlib.Tactic.Linarith
import Mathlib.Tactic.NormNum

/-!
C87: the stars that are masked.
-/

namespace Pizza

theorem polySum_cons (c : ℚ) (l : List ℚ) (x : ℚ) : polySum (c :: l) x = c * x ^ l.length + polySum l x := by
  unfold polySum
  rw [List.length_cons, Finset.sum_range_succ']
  simp only [List.getElem?_cons_succ, List.getElem?_cons_zero, Option.getD_some, Nat.sub_zero,
    Nat.add_sub_cancel]
  rw [add_comm]
  congr 1
  refine Finset.sum_congr rfl fun i hi => ?_
  rw [show l.length - (i + 1) = l.length - 1 - i by omega]

theorem horner (l : List ℚ) (x : ℚ) : ∀ a, l.foldl (fun y c => y * x + c) a = a * x ^ l.length + polySum l x := by
  induction l with
  | nil => simp [polySum]
  | cons c l ih =>
    intro a
    rw [List.foldl_cons, ih, polySum_cons, List.length_cons, pow_succ]
    ring

theorem polySum_drop (l : List ℚ) (x : ℚ) : polySum (l.dropWhile (· = 0)) x = polySum l x := by
  induction l with
  | nil => rfl
  | cons c l ih =>
    by_cases h : c = 0
    · rw [List.dropWhile_cons_of_pos (by simp [h]), ih, polySum_cons, h]
      ring
    · rw [List.dropWhile_cons_of_neg (by simp [h])]

theorem polyval_poly1d (coeffs : List ℚ) (x : ℚ) : polyval (poly1d coeffs) x = polySum coeffs x := by
  unfold polyval
  rw [horner, zero_mul, zero_add, ← polySum_drop coeffs]
  unfold poly1d
  cases coeffs.dropWhile (· = 0) with
  | nil => simp [polySum]
  | cons c l => rfl

/-- **C87** The mask is drawn from exactly the stars that are bright enough, at their places in the
slice, with the radius for their magnitude; a pixel is masked if any bit is set. -/
theorem C87_stars {S : Type} (draw : List Circle → Nat → S → Img (BitVec 32)) (pow10 f4 : ℚ → ℚ)
    (sky2image : ℚ → ℚ → ℚ × ℚ) (offset maxMag : ℚ) (coeffs : List ℚ) (startCol startRow : ℤ) (box : Nat)
    (sym : S) (cat : List CatStar) :
    ∃ bright, Bright maxMag cat bright ∧
      ∀ mask, mask = buildGaiaStarMask draw pow10 f4 (readGaiaStars sky2image offset cat) maxMag coeffs startCol
          startRow box sym →
        ∀ m, m = draw (bright.map fun b =>
            circleFor sky2image offset pow10 f4 coeffs startCol startRow b.1 b.2) box sym →
        mask.nrow = m.nrow ∧ mask.ncol = m.ncol ∧
        ∀ r c, mask.px r c = true ↔ ∃ k < 32, (m.px r c).getLsbD k = true := by
  have key : ∃ bright, Bright maxMag cat bright ∧
      (addGaiaRadius pow10 f4 (readGaiaStars sky2image offset cat) maxMag coeffs).map
        (fun s => (⟨s.1.x - startCol, s.1.y - startRow, s.2⟩ : Circle)) =
      bright.map fun b => circleFor sky2image offset pow10 f4 coeffs startCol startRow b.1 b.2 := by
    unfold addGaiaRadius readGaiaStars
    induction cat with
    | nil => exact ⟨[], .nil, rfl⟩
    | cons s l ih =>
      obtain ⟨b, hb, e⟩ := ih
      rcases hm : s.mag with _ | m
      · refine ⟨b, .nan s l b hm hb, ?_⟩
        rw [List.map_cons, List.filterMap_cons_none (by simp [hm]), e]
      · rcases le_or_gt m maxMag with h | h
        · refine ⟨(s, m) :: b, .use s m l b hm h hb, ?_⟩
          rw [List.map_cons, List.filterMap_cons_some (by simp [hm, h]; rfl), List.map_cons, e, List.map_cons]
          unfold circleFor
          rw [polyval_poly1d]
        · refine ⟨b, .faint s m l b hm h hb, ?_⟩
          rw [List.map_cons, List.filterMap_cons_none (by simp [hm, not_le.2 h]), e]
  obtain ⟨b, hb, e⟩ := key
  refine ⟨b, hb, ?_⟩
  rintro mask rfl m rfl
  unfold buildGaiaStarMask
  dsimp only
  rw [e]
  refine ⟨rfl, rfl, fun r c => ?_⟩
  rw [decide_eq_true_eq]
  constructor
  · intro h
    by_contra hn
    push Not at hn
    apply h
    ext k hk
    have := hn k hk
    rw [BitVec.getElem_eq_testBit_toNat] at *
    simpa [BitVec.getLsbD] using this
  · rintro ⟨k, hk, h⟩ e
    rw [e] at h
    simp at h

/-- **C87** The stars used are determined by the catalog and the limit. -/
theorem C87_unique {maxMag : ℚ} {cat : List CatStar} {b b' : List (CatStar × ℚ)} (h : Bright maxMag cat b)
    (h' : Bright maxMag cat b') : b = b' := by
  induction h generalizing b' with
  | nil =>
    cases h'
    rfl
  | use s m l l' h1 h2 _ ih =>
    cases h'
    case use m' l'' g2 g1 g3 =>
      rw [h1] at g1
      cases g1
      rw [ih g3]
    case faint m' g2 g1 g3 =>
      rw [h1] at g1
      cases g1
      exact absurd h2 (not_le.2 g2)
    case nan g1 g2 =>
      rw [h1] at g1
      cases g1
  | faint s m l l' h1 h2 _ ih =>
    cases h'
    case use m' l'' g2 g1 g3 =>
      rw [h1] at g1
      cases g1
      exact absurd g2 (not_le.2 h2)
    case faint m' g2 g1 g3 => exact ih g3
    case nan g1 g2 => exact ih g2
  | nan s l l' h1 _ ih =>
    cases h'
    case use m' l'' g2 g1 g3 =>
      rw [h1] at g1
      cases g1
    case faint m' g2 g1 g3 => exact ih g3
    case nan g1 g2 => exact ih g2

/-- **C87** A star at the centre of pixel `(row, col)` of the slice is masked around that pixel. -/
theorem C87_local (sky2image : ℚ → ℚ → ℚ × ℚ) (offset : ℚ) (pow10 f4 : ℚ → ℚ) (coeffs : List ℚ)
    (startCol startRow : ℤ) (s : CatStar) (m : ℚ) (row col : ℚ)
    (h : sky2image s.ra s.dec = (startCol + col + offset, startRow + row + offset)) :
    (circleFor sky2image offset pow10 f4 coeffs startCol startRow s m).x = col ∧
    (circleFor sky2image offset pow10 f4 coeffs startCol startRow s m).y = row := by
  unfold circleFor
  rw [h]
  constructor <;> ring

/-- A star of each kind. -/
def exCat : List CatStar := [⟨1, 2, some 15⟩, ⟨3, 4, some 19⟩, ⟨5, 6, none⟩, ⟨7, 8, some 18⟩]

example : Bright 18 exCat [(⟨1, 2, some 15⟩, 15), (⟨7, 8, some 18⟩, 18)] :=
  .use _ _ _ _ rfl (by norm_num) (.faint _ 19 _ _ rfl (by norm_num) (.nan _ _ _ rfl
    (.use _ _ _ _ rfl (by norm_num) .nil)))

example : (addGaiaRadius id id (readGaiaStars (fun a b => (10 * a, 10 * b)) 1 exCat) 18 [0, 2, 1]).map
    (fun s => (s.1.x, s.1.y, s.2)) = [(9, 19, 31), (69, 79, 37)] := by decide +kernel

/-- `C87_unique`: two selections of the example catalogue. -/
example (b : List (CatStar × ℚ)) (h : Bright 18 exCat b) : b = [(⟨1, 2, some 15⟩, 15), (⟨7, 8, some 18⟩, 18)] :=
  C87_unique h (.use _ _ _ _ rfl (by norm_num) (.faint _ 19 _ _ rfl (by norm_num) (.nan _ _ _ rfl
    (.use _ _ _ _ rfl (by norm_num) .nil))))

/-- `C87_local`: a star at row 5/2 and column 3 of a slice that starts at row 20 and column 10. -/
example := C87_local (fun a b => (a, b)) 1 id id [0, 2, 1] 10 20 ⟨14, 47 / 2, some 15⟩ 15 (5 / 2) 3
  (by norm_num)

end Pizza
