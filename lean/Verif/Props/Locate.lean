import Verif.Model.Locate
import Verif.Lemmas.Basic

/-!
Properties C11 (slices tile the coadd exactly) and C12 (object data geometry).
-/

namespace Pizza

/-- Integer pixel `p` lies in the central region of width `central` that starts `buffer`
pixels after `start` (specification). -/
def InCentral (start : ℚ) (central buffer : ℤ) (p : ℤ) : Prop :=
  start + buffer ≤ p ∧ (p : ℚ) < start + buffer + central

theorem locs_of_ok {c b w : ℤ} {l : List SliceLoc} (hc : 0 < c)
    (h : buildSliceLocations c b w = .ok l) :
    ∃ n : Nat, (w - 2 * b = c * n ∨ (w - 2 * b < 0 ∧ n = 0)) ∧
      l = (List.range (n * n)).map fun k =>
        (⟨((k / n : Nat) : ℚ) * c + b + ((c : ℚ) - 1) / 2, ((k % n : Nat) : ℚ) * c + b + ((c : ℚ) - 1) / 2,
          ((k / n : Nat) : ℚ) * c, ((k % n : Nat) : ℚ) * c⟩ : SliceLoc) := by
  unfold buildSliceLocations at h
  rw [if_neg hc.ne'] at h
  simp only at h
  split at h
  · cases h
  · rename_i hn
    rw [not_not, truncQ_eq_iff] at hn
    obtain ⟨z, hz⟩ := hn
    have hcq : (c : ℚ) ≠ 0 := by exact_mod_cast hc.ne'
    have hwz : w - 2 * b = c * z := by
      rw [div_eq_iff hcq] at hz
      have : ((w - 2 * b : ℤ) : ℚ) = ((c * z : ℤ) : ℚ) := by rw [hz]; push_cast; ring
      exact_mod_cast this
    rw [hz, truncQ_int] at h
    simp only [Except.ok.injEq] at h
    refine ⟨z.toNat, ?_, ?_⟩
    · rcases le_or_gt 0 z with hz0 | hz0
      · left; rw [hwz]; congr 1; omega
      · right; constructor
        · rw [hwz]; exact mul_neg_of_pos_of_neg hc hz0
        · omega
    · rw [← h, List.flatMap_map]
      simp only [List.map_map]
      rw [show (fun a : Nat => List.map
          ((fun d => SliceLoc.mk ((a : ℚ) * c + b + ((c : ℚ) - 1) / 2) d
            ((a : ℚ) * c + b + ((c : ℚ) - 1) / 2 - b - ((c : ℚ) - 1) / 2) (d - b - ((c : ℚ) - 1) / 2)) ∘
            fun i : Nat => (i : ℚ) * c + b + ((c : ℚ) - 1) / 2) (List.range z.toNat)) =
        fun a : Nat => (List.range z.toNat).map (fun i : Nat =>
          SliceLoc.mk ((a : ℚ) * c + b + ((c : ℚ) - 1) / 2) ((i : ℚ) * c + b + ((c : ℚ) - 1) / 2)
            ((a : ℚ) * c) ((i : ℚ) * c)) from ?_]
      · exact flatMap_range_eq z.toNat z.toNat _
      · funext a
        apply List.map_congr_left
        intro i _
        simp only [Function.comp, SliceLoc.mk.injEq]
        refine ⟨trivial, trivial, ?_, ?_⟩ <;> ring

/-- C11, success condition: for a positive central size the call succeeds iff the interior
width is a multiple of the central size and raises ValueError otherwise. -/
theorem C11_success_iff (c b w : ℤ) (hc : 0 < c) :
    ((∃ l, buildSliceLocations c b w = .ok l) ↔ c ∣ (w - 2 * b)) ∧
    (buildSliceLocations c b w = .error .valueError ↔ ¬ c ∣ (w - 2 * b)) := by
  have hcq : (c : ℚ) ≠ 0 := by exact_mod_cast hc.ne'
  have key : (((truncQ (((w - 2 * b : ℤ) : ℚ) / (c : ℚ)) : ℤ) : ℚ) = ((w - 2 * b : ℤ) : ℚ) / (c : ℚ)) ↔
      c ∣ (w - 2 * b) := by
    rw [truncQ_eq_iff]
    constructor
    · rintro ⟨z, hz⟩
      rw [div_eq_iff hcq] at hz
      refine ⟨z, ?_⟩
      have : ((w - 2 * b : ℤ) : ℚ) = ((c * z : ℤ) : ℚ) := by rw [hz]; push_cast; ring
      exact_mod_cast this
    · rintro ⟨z, hz⟩
      refine ⟨z, ?_⟩
      rw [hz, div_eq_iff hcq]; push_cast; ring
  unfold buildSliceLocations
  rw [if_neg hc.ne']
  simp only [ne_eq, key]
  by_cases h : c ∣ (w - 2 * b) <;> simp [h]

/-- C11, numbering and positions: slices are numbered row by row, slice `i*n+j` is centred in
row `buffer + i*central + (central-1)/2` and its box starts at row `i*central`. -/
theorem C11_layout (c b w : ℤ) (n : Nat) (hc : 0 < c) (hn : w - 2 * b = c * n) :
    ∃ l, buildSliceLocations c b w = .ok l ∧ l.length = n * n ∧
      ∀ i < n, ∀ j < n, l[i * n + j]? = some
        ⟨b + i * c + ((c : ℚ) - 1) / 2, b + j * c + ((c : ℚ) - 1) / 2, i * c, j * c⟩ := by
  obtain ⟨l, hl⟩ := (C11_success_iff c b w hc).1.2 ⟨n, hn⟩
  obtain ⟨m, hm, rfl⟩ := locs_of_ok hc hl
  have hmn : m = n := by
    rcases hm with h | ⟨h, _⟩
    · have : (m : ℤ) = n := by
        have h2 : c * (m : ℤ) = c * n := by rw [← h, ← hn]
        exact mul_left_cancel₀ hc.ne' h2
      exact_mod_cast this
    · exfalso
      have : (0 : ℤ) ≤ c * n := by positivity
      omega
  subst hmn
  refine ⟨_, hl, by simp, fun i hi j hj => ?_⟩
  have hlt : i * m + j < m * m := by nlinarith
  have hm0 : 0 < m := by omega
  rw [List.getElem?_map, List.getElem?_range hlt]
  simp only [Option.map_some, Option.some.injEq, SliceLoc.mk.injEq]
  have e1 : (i * m + j) / m = i := by
    rw [Nat.mul_comm, Nat.mul_add_div hm0, Nat.div_eq_of_lt hj, Nat.add_zero]
  have e2 : (i * m + j) % m = j := by
    rw [Nat.mul_comm, Nat.mul_add_mod, Nat.mod_eq_of_lt hj]
  rw [e1, e2]
  refine ⟨?_, ?_, rfl, rfl⟩ <;> ring

/-- C11, tiling: every pixel of the buffered interior is in the central region of exactly one
slice, and every slice box (central region plus buffer on both sides) lies in the image. -/
theorem C11_tiling (c b w : ℤ) (l : List SliceLoc) (hc : 0 < c)
    (h : buildSliceLocations c b w = .ok l) :
    (∀ r k : ℤ, b ≤ r → r < w - b → b ≤ k → k < w - b →
      ∃! i : Nat, ∃ s, l[i]? = some s ∧ InCentral s.startRow c b r ∧ InCentral s.startCol c b k) ∧
    (∀ s ∈ l, 0 ≤ s.startRow ∧ s.startRow + (c + 2 * b) ≤ w ∧
      0 ≤ s.startCol ∧ s.startCol + (c + 2 * b) ≤ w ∧
      s.row = s.startRow + ((c + 2 * b : ℚ) - 1) / 2 ∧ s.col = s.startCol + ((c + 2 * b : ℚ) - 1) / 2) ∧
    (∀ s ∈ l, ∀ r k : ℤ, InCentral s.startRow c b r → InCentral s.startCol c b k →
      b ≤ r ∧ r < w - b ∧ b ≤ k ∧ k < w - b) := by
  obtain ⟨n, hn, rfl⟩ := locs_of_ok hc h
  have hcq : (0 : ℚ) < c := by exact_mod_cast hc
  -- characterisation of InCentral at multiples of c
  have key : ∀ (i : Nat) (p : ℤ), InCentral ((i : ℚ) * c) c b p ↔ (p - b) / c = i := by
    intro i p
    have e : InCentral ((i : ℚ) * c) c b p ↔ (i * c + b ≤ p ∧ p < i * c + b + c) := by
      unfold InCentral
      constructor
      · rintro ⟨h1, h2⟩
        constructor
        · have : (((i : ℤ) * c + b : ℤ) : ℚ) ≤ p := by push_cast; linarith
          exact_mod_cast this
        · have : (p : ℚ) < (((i : ℤ) * c + b + c : ℤ) : ℚ) := by push_cast; linarith
          exact_mod_cast this
      · rintro ⟨h1, h2⟩
        have h1' : (((i : ℤ) * c + b : ℤ) : ℚ) ≤ p := by exact_mod_cast h1
        have h2' : (p : ℚ) < (((i : ℤ) * c + b + c : ℤ) : ℚ) := by exact_mod_cast h2
        push_cast at h1' h2'
        constructor <;> linarith
    rw [e, Int.ediv_eq_iff_of_pos hc]
    constructor <;> rintro ⟨h1, h2⟩ <;> constructor <;> nlinarith
  refine ⟨?_, ?_, ?_⟩
  · intro r k hr1 hr2 hk1 hk2
    rcases hn with hn | ⟨hn, _⟩
    swap
    · omega
    have hidx : ∀ p : ℤ, b ≤ p → p < w - b → ∃ i : Nat, i < n ∧ (p - b) / c = i := by
      intro p h1 h2
      refine ⟨((p - b) / c).toNat, ?_, ?_⟩
      · have : (p - b) / c < n := by
          apply Int.ediv_lt_of_lt_mul hc
          rw [mul_comm]; omega
        have : 0 ≤ (p - b) / c := Int.ediv_nonneg (by omega) hc.le
        omega
      · have : 0 ≤ (p - b) / c := Int.ediv_nonneg (by omega) hc.le
        omega
    obtain ⟨i, hi, hi'⟩ := hidx r hr1 hr2
    obtain ⟨j, hj, hj'⟩ := hidx k hk1 hk2
    have hn0 : 0 < n := by omega
    have hlt : i * n + j < n * n := by nlinarith
    have e1 : (i * n + j) / n = i := by
      rw [Nat.mul_comm, Nat.mul_add_div hn0, Nat.div_eq_of_lt hj, Nat.add_zero]
    have e2 : (i * n + j) % n = j := by
      rw [Nat.mul_comm, Nat.mul_add_mod, Nat.mod_eq_of_lt hj]
    refine ⟨i * n + j, ⟨_, by rw [List.getElem?_map, List.getElem?_range hlt]; rfl, ?_, ?_⟩, ?_⟩
    · simp only [e1]; exact (key i r).2 hi'
    · simp only [e2]; exact (key j k).2 hj'
    · rintro m ⟨s, hs, h1, h2⟩
      rw [List.getElem?_map] at hs
      have hm : m < n * n := by
        by_contra hge
        rw [List.getElem?_eq_none (by simpa using hge)] at hs
        simp at hs
      rw [List.getElem?_range hm] at hs
      simp only [Option.map_some, Option.some.injEq] at hs
      subst hs
      have a1 := (key (m / n) r).1 h1
      have a2 := (key (m % n) k).1 h2
      have b1 : m / n = i := by rw [hi'] at a1; exact_mod_cast a1.symm
      have b2 : m % n = j := by rw [hj'] at a2; exact_mod_cast a2.symm
      rw [← b1, ← b2]
      exact (Nat.div_add_mod' m n).symm
  · intro s hs
    obtain ⟨m, hm, rfl⟩ := List.mem_map.1 hs
    have hm := List.mem_range.1 hm
    have hn0 : 0 < n := by
      rcases Nat.eq_zero_or_pos n with h | h
      · subst h; omega
      · exact h
    rcases hn with hn | ⟨_, hn⟩
    swap
    · omega
    have d1 : m / n < n := Nat.div_lt_of_lt_mul hm
    have d2 : m % n < n := Nat.mod_lt _ hn0
    have hw : (w : ℚ) = c * n + 2 * b := by
      have : w = c * n + 2 * b := by omega
      exact_mod_cast this
    have bound : ∀ i : Nat, i < n → (i : ℚ) * c + (c + 2 * b) ≤ w := by
      intro i hi
      have : ((i : ℚ) + 1) ≤ n := by exact_mod_cast hi
      rw [hw]; nlinarith
    refine ⟨by positivity, bound _ d1, by positivity, bound _ d2, ?_, ?_⟩ <;> simp only <;> ring
  · intro s hs r k h1 h2
    obtain ⟨m, hm, rfl⟩ := List.mem_map.1 hs
    have hm := List.mem_range.1 hm
    have hn0 : 0 < n := by
      rcases Nat.eq_zero_or_pos n with h | h
      · subst h; omega
      · exact h
    rcases hn with hn | ⟨_, hn⟩
    swap
    · omega
    have d1 : m / n < n := Nat.div_lt_of_lt_mul hm
    have d2 : m % n < n := Nat.mod_lt _ hn0
    have fin : ∀ (i : Nat) (p : ℤ), i < n → InCentral ((i : ℚ) * c) c b p → b ≤ p ∧ p < w - b := by
      intro i p hi hp
      have := (key i p).1 hp
      rw [Int.ediv_eq_iff_of_pos hc] at this
      obtain ⟨t1, t2⟩ := this
      have hi' : (i : ℤ) + 1 ≤ n := by exact_mod_cast hi
      have hi0 : (0 : ℤ) ≤ i := by positivity
      constructor
      · nlinarith
      · have : w - b = c * n + b := by omega
        nlinarith
    exact ⟨(fin _ r d1 h1).1, (fin _ r d1 h1).2, (fin _ k d2 h2).1, (fin _ k d2 h2).2⟩

/-- Non-vacuity: the DES configuration of the tests (100, 50, 10000) tiles, giving 99^2
slices. -/
example : ∃ l, buildSliceLocations 100 50 10000 = .ok l ∧ l.length = 99 * 99 := by
  obtain ⟨l, h, h2, _⟩ := C11_layout 100 50 10000 99 (by norm_num) (by norm_num)
  exact ⟨l, h, h2⟩

example : buildSliceLocations 100 50 10001 = .error .valueError :=
  (C11_success_iff 100 50 10001 (by norm_num)).2.2 (by norm_num)

/-- C12: every object row is consistent with its slice location, the WCS and the
configuration. -/
theorem C12_object_data (c b w p : ℤ) (image2sky : ℚ → ℚ → ℚ × ℚ)
    (jac : ℚ → ℚ → ℚ × ℚ × ℚ × ℚ) (offset : ℚ) :
    (∀ e, buildSliceLocations c b w = .error e →
      buildObjectData c b w p image2sky jac offset = .error e) ∧
    (∀ locs, buildSliceLocations c b w = .ok locs →
      ∃ rows, buildObjectData c b w p image2sky jac offset = .ok rows ∧
        rows.length = locs.length ∧
        ∀ i (o : ObjRow), rows[i]? = some o → ∃ s, locs[i]? = some s ∧
          o.id = i ∧ o.boxSize = c + 2 * b ∧ o.psfBoxSize = p ∧ o.fileId = -1 ∧
          o.psfCutoutRow = ((p : ℚ) - 1) / 2 ∧ o.psfCutoutCol = ((p : ℚ) - 1) / 2 ∧
          o.origRow = s.row ∧ o.origCol = s.col ∧
          o.origStartRow = s.startRow ∧ o.origStartCol = s.startCol ∧
          o.origStartRow + o.cutoutRow = o.origRow ∧ o.origStartCol + o.cutoutCol = o.origCol ∧
          o.cutoutRow = ((o.boxSize : ℚ) - 1) / 2 ∧ o.cutoutCol = ((o.boxSize : ℚ) - 1) / 2 ∧
          (o.ra, o.dec) = image2sky (o.origCol + offset) (o.origRow + offset) ∧
          (o.dudcol, o.dudrow, o.dvdcol, o.dvdrow) = jac (o.origCol + offset) (o.origRow + offset)) := by
  constructor
  · intro e he
    simp only [buildObjectData, he]; rfl
  · intro locs hl
    refine ⟨_, by simp only [buildObjectData, hl]; rfl, by simp, ?_⟩
    intro i o ho
    rw [List.getElem?_mapIdx] at ho
    cases hs : locs[i]? with
    | none => rw [hs] at ho; simp at ho
    | some s =>
      rw [hs] at ho
      simp only [Option.map_some, Option.some.injEq] at ho
      have hmem := List.mem_of_getElem? hs
      -- start = centre - buffer - cen_offset for every produced location
      have hst : s.startRow = s.row - b - ((c : ℚ) - 1) / 2 ∧
          s.startCol = s.col - b - ((c : ℚ) - 1) / 2 := by
        unfold buildSliceLocations at hl
        split at hl
        · cases hl
        · simp only at hl
          split at hl
          · cases hl
          · simp only [Except.ok.injEq] at hl
            rw [← hl] at hmem
            simp only [List.mem_flatMap, List.mem_map] at hmem
            obtain ⟨_, _, _, _, rfl⟩ := hmem
            exact ⟨rfl, rfl⟩
      refine ⟨s, rfl, ?_⟩
      subst ho
      obtain ⟨h1, h2⟩ := hst
      refine ⟨rfl, rfl, rfl, rfl, rfl, rfl, rfl, rfl, rfl, rfl, ?_, ?_, ?_, ?_, rfl, rfl⟩
      · simp only [h1]; ring
      · simp only [h2]; ring
      · push_cast; ring
      · push_cast; ring

example : ∃ rows, buildObjectData 100 50 300 21 (fun x y => (x, y)) (fun _ _ => (1, 0, 0, 1)) 1 =
    .ok rows ∧ rows.length = 4 := by
  obtain ⟨l, h, h2, _⟩ := C11_layout 100 50 300 2 (by norm_num) (by norm_num)
  obtain ⟨rows, hr, hlen, _⟩ := (C12_object_data 100 50 300 21 (fun x y => (x, y))
    (fun _ _ => (1, 0, 0, 1)) 1).2 l h
  exact ⟨rows, hr, by rw [hlen, h2]⟩

/-- `C11_tiling` for the DES configuration. -/
example (l : List SliceLoc) (h : buildSliceLocations 100 50 10000 = .ok l) :=
  C11_tiling 100 50 10000 l (by norm_num) h

end Pizza
