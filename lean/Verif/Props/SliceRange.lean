import Mathlib.Data.List.TakeWhile
import Verif.Model.SliceRange
import Verif.Spec.SliceRange
import Verif.Lemmas.Basic
import Mathlib.Tactic.Linarith
import Mathlib.Data.Nat.Digits.Lemmas

/-!
C57: slice ranges.
-/

namespace Pizza

/-- The elements of a range are those of the specification. -/
theorem mem_pyRange3 (start stop step i : ℤ) : i ∈ pyRange3 start stop step ↔ InPyRange start stop step i := by
  unfold pyRange3 InPyRange
  simp only [List.mem_map, List.mem_range]
  constructor
  · rintro ⟨k, hk, rfl⟩
    refine ⟨k, rfl, ?_⟩
    split at hk
    · rename_i hs
      left
      refine ⟨hs, ?_⟩
      have h1 : ((k : ℤ) + 1) ≤ (stop - start + step - 1) / step := by omega
      have h2 := (Int.le_ediv_iff_mul_le hs).1 h1
      nlinarith
    · split at hk
      · rename_i hs
        right
        refine ⟨hs, ?_⟩
        have h1 : ((k : ℤ) + 1) ≤ (start - stop - step - 1) / (-step) := by omega
        have h2 := (Int.le_ediv_iff_mul_le (by omega : (0 : ℤ) < -step)).1 h1
        nlinarith
      · simp at hk
  · rintro ⟨k, rfl, ⟨hs, h⟩ | ⟨hs, h⟩⟩
    · refine ⟨k, ?_, rfl⟩
      rw [if_pos hs]
      have : ((k : ℤ) + 1) ≤ (stop - start + step - 1) / step := by
        rw [Int.le_ediv_iff_mul_le hs]; nlinarith
      omega
    · refine ⟨k, ?_, rfl⟩
      rw [if_neg (by omega), if_pos hs]
      have : ((k : ℤ) + 1) ≤ (start - stop - step - 1) / (-step) := by
        rw [Int.le_ediv_iff_mul_le (by omega)]; nlinarith
      omega

theorem pyRange3_one (a b : ℤ) : pyRange3 a b 1 = pyRange a b := by
  unfold pyRange3 pyRange
  rw [if_pos (by norm_num)]
  simp

/-- C57: no range selects every slice, in order. -/
theorem C57_none (num : Nat) : extractSliceRange .none num = .ok (pyRange 0 num) := by
  simp [extractSliceRange, pyRange3_one]

/-- C57: a range object with step 1 that is not empty is accepted iff all its elements are slice
numbers, and is then processed as it is.  What is missing: other steps (see the counterexamples). -/
theorem C57_range_partial (num : Nat) (start stop : ℤ) (hne : start < stop) :
    ((∀ i, InPyRange start stop 1 i → 0 ≤ i ∧ i < num) →
      extractSliceRange (.range start stop 1) num = .ok (pyRange start stop)) ∧
    ((¬ ∀ i, InPyRange start stop 1 i → 0 ≤ i ∧ i < num) →
      extractSliceRange (.range start stop 1) num = .error .valueError) := by
  have h1 : InPyRange start stop 1 start := ⟨0, by simp, .inl ⟨by norm_num, hne⟩⟩
  have h2 : InPyRange start stop 1 (stop - 1) :=
    ⟨(stop - 1 - start).toNat, by omega, .inl ⟨by norm_num, by omega⟩⟩
  simp only [extractSliceRange, checkRange]
  constructor
  · intro h
    rw [if_neg, pyRange3_one]
    have := h _ h1; have := h _ h2; omega
  · intro h
    rw [if_pos]
    by_contra hc
    apply h
    rintro i ⟨k, rfl, ⟨_, hi⟩ | ⟨hs, _⟩⟩
    · constructor <;> omega
    · norm_num at hs

/-- `C57_range_partial` for the slices 2 to 6 of 9. -/
example := C57_range_partial 9 2 7 (by norm_num)

/-- C57: with a positive step, whatever is accepted contains slice numbers only. -/
theorem C57_positive_step_sound (num : Nat) (start stop step : ℤ) (hs : 0 < step) (l : List ℤ)
    (h : extractSliceRange (.range start stop step) num = .ok l) :
    ∀ i ∈ l, 0 ≤ i ∧ i < num := by
  simp only [extractSliceRange, checkRange] at h
  split at h
  · cases h
  · rename_i hc
    cases h
    intro i hi
    obtain ⟨k, rfl, ⟨_, hi⟩ | ⟨h', _⟩⟩ := (mem_pyRange3 _ _ _ _).1 hi
    · refine ⟨?_, by omega⟩
      have : 0 ≤ (k : ℤ) * step := by positivity
      omega
    · omega

/-- `C57_positive_step_sound` for every third of nine slices. -/
example := C57_positive_step_sound 9 0 9 3 (by norm_num) [0, 3, 6] (by decide)

/-- C57: a `range` counting down is accepted although it contains numbers that are no slices. -/
theorem C57_range_fails : ∃ (num : Nat) (spec : RangeSpec) (l : List ℤ),
    extractSliceRange spec num = .ok l ∧ ∃ i ∈ l, ¬ (0 ≤ i ∧ i < (num : ℤ)) :=
  ⟨5, .range 10 2 (-1), _, rfl, 10, by decide, by decide⟩

/-- C57: a `range` with a larger step is refused although all its elements are slice numbers. -/
theorem C57_valid_range_fails : ∃ (num : Nat) (start stop step : ℤ),
    (∀ i ∈ pyRange3 start stop step, 0 ≤ i ∧ i < (num : ℤ)) ∧
    extractSliceRange (.range start stop step) num = .error .valueError :=
  ⟨11, 0, 12, 5, by decide, rfl⟩

/-- C57: lists are refused with an AttributeError, whatever they contain, although the
documentation asks for an iterable. -/
theorem C57_lists_fails (num : Nat) (l : List ℤ) :
    extractSliceRange (.sized l) num = .error .attributeError := rfl

/-! ### strings -/

theorem splitColon_none {s : List Char} (h : ':' ∉ s) : splitColon s = [s] := by
  induction s with
  | nil => rfl
  | cons c l ih =>
    simp only [List.mem_cons, not_or] at h
    have hc : ¬ c = ':' := fun e => h.1 e.symm
    simp [splitColon, hc, ih h.2]

theorem splitColon_append {s t : List Char} (h : ':' ∉ s) :
    splitColon (s ++ ':' :: t) = s :: splitColon t := by
  induction s with
  | nil => simp [splitColon]
  | cons c l ih =>
    simp only [List.mem_cons, not_or] at h
    have hc : ¬ c = ':' := fun e => h.1 e.symm
    simp [splitColon, hc, ih h.2]

theorem splitColon_length (s : List Char) : (splitColon s).length = s.count ':' + 1 := by
  induction s with
  | nil => rfl
  | cons c l ih =>
    unfold splitColon
    split
    · rename_i hc; subst hc; simp [ih]
    · rename_i hc
      rw [List.count_cons_of_ne (by simpa using hc), ← ih]
      split <;> rename_i h <;> rw [h] at ih ⊢ <;> simp at ih ⊢

theorem digit_props {d : Nat} (hd : d < 10) :
    (Char.ofNat (48 + d)).toNat = 48 + d ∧ '0' ≤ Char.ofNat (48 + d) ∧ Char.ofNat (48 + d) ≤ '9' ∧
    isPySpace (Char.ofNat (48 + d)) = false ∧ Char.ofNat (48 + d) ≠ ':' ∧
    Char.ofNat (48 + d) ≠ '-' ∧ Char.ofNat (48 + d) ≠ '+' := by
  interval_cases d <;> decide

theorem pyDigits_ofDigits (l : List Nat) (hl : ∀ d ∈ l, d < 10) (acc : Nat) (hne : l ≠ []) (b : Bool) :
    pyDigits (l.map fun d => Char.ofNat (48 + d)) acc b =
      some (acc * 10 ^ l.length + Nat.ofDigits 10 l.reverse) := by
  induction l generalizing acc b with
  | nil => exact absurd rfl hne
  | cons d l ih =>
    obtain ⟨p1, p2, p3, _⟩ := digit_props (hl d (by simp))
    rw [List.map_cons]
    simp only [pyDigits]
    rw [if_pos ⟨p2, p3⟩, p1]
    have hz : '0'.toNat = 48 := rfl
    rw [hz]
    by_cases hn : l = []
    · subst hn
      simp [pyDigits]; ring
    · rw [ih (fun x hx => hl x (by simp [hx])) _ hn]
      rw [List.reverse_cons, Nat.ofDigits_append]
      simp only [List.length_cons, List.length_reverse, Nat.ofDigits_singleton]
      rw [Nat.add_sub_cancel_left]
      ring_nf

/-- The numeral of a natural number has digits only and is read back. -/
theorem decimal_spec (n : Nat) : decimal n ≠ [] ∧ (∀ c ∈ decimal n, ∃ d < 10, c = Char.ofNat (48 + d)) ∧
    ∀ b, pyDigits (decimal n) 0 b = some n := by
  unfold decimal
  split
  · rename_i h; subst h
    exact ⟨by simp, fun c hc => ⟨0, by omega, by simpa using hc⟩, fun b => by cases b <;> rfl⟩
  · rename_i h
    have hlt : ∀ d ∈ (Nat.digits 10 n).reverse, d < 10 := by
      intro d hd
      exact Nat.digits_lt_base (by norm_num) (List.mem_reverse.1 hd)
    refine ⟨by simpa [Nat.digits_eq_nil_iff_eq_zero] using h, ?_, ?_⟩
    · intro c hc
      obtain ⟨d, hd, rfl⟩ := List.mem_map.1 hc
      exact ⟨d, hlt d hd, rfl⟩
    · intro b
      rw [pyDigits_ofDigits _ hlt 0 (by simpa [Nat.digits_eq_nil_iff_eq_zero] using h), List.reverse_reverse, Nat.ofDigits_digits]
      simp

theorem pyStrip_decimal (n : Nat) : pyStrip (decimal n) = decimal n := by
  obtain ⟨hne, hd, _⟩ := decimal_spec n
  have key : ∀ l : List Char, (∀ c ∈ l, isPySpace c = false) → l.dropWhile isPySpace = l := by
    intro l hl
    cases l with
    | nil => rfl
    | cons c l => rw [List.dropWhile_cons, if_neg]; simp [hl c (by simp)]
  have hs : ∀ c ∈ decimal n, isPySpace c = false := by
    intro c hc
    obtain ⟨d, hd', rfl⟩ := hd c hc
    exact (digit_props hd').2.2.2.1
  unfold pyStrip
  rw [key _ hs, key _ (fun c hc => hs c (List.mem_reverse.1 hc)), List.reverse_reverse]

theorem pyInt_decimal (n : Nat) : pyInt (decimal n) = .ok (n : ℤ) := by
  obtain ⟨hne, hd, hp⟩ := decimal_spec n
  unfold pyInt
  rw [pyStrip_decimal]
  cases hl : decimal n with
  | nil => exact absurd hl hne
  | cons c l =>
    obtain ⟨d, hd', hc⟩ := hd c (by rw [hl]; simp)
    obtain ⟨_, _, _, _, _, h1, h2⟩ := digit_props hd'
    rw [← hc] at h1 h2
    have := hp false
    rw [hl] at this
    have hs : pySigned (c :: l) = some (n : ℤ) := by
      unfold pySigned
      split
      · rename_i heq; cases heq; exact absurd rfl h1
      · rename_i heq; cases heq; exact absurd rfl h2
      · rw [this]; rfl
    rw [hs]

theorem colon_notin_decimal (n : Nat) : ':' ∉ decimal n := by
  intro h
  obtain ⟨d, hd, hc⟩ := (decimal_spec n).2.1 _ h
  exact (digit_props hd).2.2.2.2.1 hc.symm

/-- C57: the string "start:end" selects start..end-1 if these are slice numbers (nothing if
end <= start), and is refused iff end is beyond the number of slices. -/
theorem C57_string (num start stop : Nat) :
    extractSliceRange (.str (decimal start ++ ':' :: decimal stop)) num =
      if stop ≤ num then .ok (pyRange start stop) else .error .valueError := by
  unfold extractSliceRange
  simp only
  rw [splitColon_append (colon_notin_decimal start), splitColon_none (colon_notin_decimal stop)]
  simp only [pyInt_decimal, ok_bind, checkRange, pyRange3_one]
  by_cases h : stop ≤ num
  · rw [if_neg (by omega), if_pos h]
  · rw [if_pos (by omega), if_neg h]

/-- C57: a string without exactly one colon is refused. -/
theorem C57_bad_string (num : Nat) (s : List Char) (h : s.count ':' ≠ 1) :
    extractSliceRange (.str s) num = .error .assertionError := by
  have hl := splitColon_length s
  unfold extractSliceRange
  simp only
  split
  · rename_i a b heq
    rw [heq] at hl
    simp at hl
    omega
  · rfl

/-- `C57_bad_string` for three numbers. -/
example := C57_bad_string 9 "1:2:3".toList (by decide)

/-- Cases: "2:7" of 9 slices, "5:12" of 9 slices, a range object, "1:2:3". -/
example : decimal 12 = ['1', '2'] ∧
    extractSliceRange (.str (decimal 2 ++ ':' :: decimal 7)) 9 = .ok [2, 3, 4, 5, 6] ∧
    extractSliceRange (.str (decimal 5 ++ ':' :: decimal 12)) 9 = .error .valueError ∧
    (∀ i, InPyRange 2 5 1 i → 0 ≤ i ∧ i < 5) ∧ "1:2:3".toList.count ':' ≠ 1 := by
  refine ⟨by simp [decimal], ?_, ?_, ?_, by decide⟩
  · rw [C57_string, if_pos (by norm_num)]; rfl
  · rw [C57_string, if_neg (by norm_num)]
  · rintro i ⟨k, rfl, h⟩; constructor <;> omega

/-! ### texts that are numbers -/

theorem isDigit_iff (c : Char) (d : Nat) : IsDigit c d ↔ ('0' ≤ c ∧ c ≤ '9') ∧ d = c.toNat - '0'.toNat := by
  constructor
  · rintro ⟨hd, rfl⟩
    obtain ⟨p1, p2, p3, _⟩ := digit_props hd
    refine ⟨⟨p2, p3⟩, ?_⟩
    rw [p1]
    have hz : '0'.toNat = 48 := rfl
    omega
  · rintro ⟨⟨h1, h2⟩, rfl⟩
    have a1 : 48 ≤ c.toNat := by
      exact UInt32.le_iff_toNat_le.mp (Char.le_def.mp h1)
    have a2 : c.toNat ≤ 57 := by
      exact UInt32.le_iff_toNat_le.mp (Char.le_def.mp h2)
    have hz : '0'.toNat = 48 := rfl
    refine ⟨by omega, ?_⟩
    rw [hz, show 48 + (c.toNat - 48) = c.toNat by omega, Char.ofNat_toNat]

theorem digit_not_underscore {c : Char} {d : Nat} (h : IsDigit c d) : c ≠ '_' := by
  obtain ⟨hd, rfl⟩ := h
  interval_cases d <;> decide

theorem pyDigits_iff (l : List Char) : ∀ (acc n : Nat),
    (pyDigits l acc true = some n ↔ DigitsAfter acc l n) ∧
    (pyDigits l acc false = some n ↔ ∃ c d t, l = c :: t ∧ IsDigit c d ∧ DigitsAfter (10 * acc + d) t n) := by
  induction l with
  | nil =>
    intro acc n
    constructor
    · simp only [pyDigits, if_true, Option.some.injEq]
      constructor
      · rintro rfl; exact .nil _
      · intro h; cases h; rfl
    · simp [pyDigits]
  | cons c l ih =>
    intro acc n
    by_cases hd : '0' ≤ c ∧ c ≤ '9'
    · have hdig := (isDigit_iff c _).mpr ⟨hd, rfl⟩
      have hi := (ih (10 * acc + (c.toNat - '0'.toNat)) n).1
      constructor
      · simp only [pyDigits]
        rw [if_pos hd, hi]
        constructor
        · intro h; exact .digit _ _ _ _ _ hdig h
        · intro h
          cases h with
          | digit _ _ d _ _ h1 h2 => rw [isDigit_iff] at h1; rw [h1.2] at h2; exact h2
          | underscore _ c' d _ _ h1 h2 => exact absurd rfl (digit_not_underscore hdig)
      · simp only [pyDigits]
        rw [if_pos hd, hi]
        constructor
        · intro h; exact ⟨c, _, l, rfl, hdig, h⟩
        · rintro ⟨c', d, t, h, h1, h2⟩
          cases h
          rw [isDigit_iff] at h1; rw [h1.2] at h2; exact h2
    · have hnd : ∀ d, ¬ IsDigit c d := fun d h => hd ((isDigit_iff c d).mp h).1
      constructor
      · simp only [pyDigits]
        rw [if_neg hd]
        by_cases hu : c = '_'
        · subst hu
          rw [if_pos ⟨rfl, trivial⟩, (ih acc n).2]
          constructor
          · rintro ⟨c', d, t, rfl, h1, h2⟩; exact .underscore _ _ _ _ _ h1 h2
          · intro h
            cases h with
            | digit _ _ d _ _ h1 _ => exact absurd h1 (hnd d)
            | underscore _ c' d t _ h1 h2 => exact ⟨c', d, t, rfl, h1, h2⟩
        · rw [if_neg (fun h => hu h.1)]
          constructor
          · intro h; cases h
          · intro h
            cases h with
            | digit _ _ d _ _ h1 _ => exact absurd h1 (hnd d)
            | underscore => exact absurd rfl hu
      · simp only [pyDigits]
        rw [if_neg hd, if_neg (by simp)]
        constructor
        · intro h; cases h
        · rintro ⟨c', d, t, h, h1, -⟩
          cases h
          exact absurd h1 (hnd d)

theorem isNumeral_iff (l : List Char) (n : Nat) : pyDigits l 0 false = some n ↔ IsNumeral l n := by
  rw [(pyDigits_iff l 0 n).2]
  simp [IsNumeral]

theorem numeral_no_sign {l : List Char} {n : Nat} (h : IsNumeral l n) : ∃ c t, l = c :: t ∧ c ≠ '-' ∧ c ≠ '+' := by
  obtain ⟨c, d, t, rfl, ⟨hd, rfl⟩, -⟩ := h
  obtain ⟨_, _, _, _, _, h1, h2⟩ := digit_props hd
  exact ⟨_, t, rfl, h1, h2⟩

theorem pySigned_iff (l : List Char) (n : ℤ) : pySigned l = some n ↔ IsSigned l n := by
  have hmap : ∀ (t : List Char) (f : Nat → ℤ), (pyDigits t 0 false).map f = some n ↔ ∃ k, IsNumeral t k ∧ f k = n := by
    intro t f
    rw [Option.map_eq_some_iff]
    simp only [isNumeral_iff]
  unfold pySigned
  split
  · rename_i t
    rw [hmap]
    constructor
    · rintro ⟨k, h, rfl⟩; exact .minus _ _ h
    · intro h
      cases h with
      | bare _ k h => obtain ⟨c, t', he, h1, -⟩ := numeral_no_sign h; cases he; exact absurd rfl h1
      | minus _ k h => exact ⟨k, h, rfl⟩
  · rename_i t
    rw [hmap]
    constructor
    · rintro ⟨k, h, rfl⟩; exact .plus _ _ h
    · intro h
      cases h with
      | bare _ k h => obtain ⟨c, t', he, -, h1⟩ := numeral_no_sign h; cases he; exact absurd rfl h1
      | plus _ k h => exact ⟨k, h, rfl⟩
  · rename_i hm hp
    rw [hmap]
    constructor
    · rintro ⟨k, h, rfl⟩; exact .bare _ _ h
    · intro h
      cases h with
      | bare _ k h => exact ⟨k, h, rfl⟩
      | plus t k h => exact absurd rfl (hp t)
      | minus t k h => exact absurd rfl (hm t)

theorem isPySpace_iff (c : Char) : isPySpace c = true ↔ c ∈ asciiSpace := by
  have key : ∀ n : Nat, n < 128 → (isPySpace (Char.ofNat n) = true ↔ Char.ofNat n ∈ asciiSpace) := by decide +kernel
  by_cases h : c.toNat < 128
  · have := key c.toNat h
    rwa [Char.ofNat_toNat] at this
  · have hle : ∀ d : Char, d.toNat < 128 → ¬ c ≤ d := by
      intro d hd hcd
      have := UInt32.le_iff_toNat_le.mp (Char.le_def.mp hcd)
      simp only [Char.toNat] at h hd
      omega
    constructor
    · intro hs
      simp only [isPySpace, Bool.or_eq_true, Bool.and_eq_true, decide_eq_true_eq] at hs
      rcases hs with (rfl | hs) | hs
      · exact absurd (by decide) h
      · exact absurd hs.2 (hle _ (by decide))
      · exact absurd hs.2 (hle _ (by decide))
    · intro hm
      exfalso
      have : ∀ d ∈ asciiSpace, d.toNat < 128 := by decide
      exact h (this c hm)

theorem dropWhile_all {p : Char → Bool} {a l : List Char} (ha : ∀ c ∈ a, p c = true) (hl : ∀ c t, l = c :: t → p c = false) :
    (a ++ l).dropWhile p = l := by
  induction a with
  | nil =>
    cases l with
    | nil => rfl
    | cons c t => rw [List.nil_append, List.dropWhile_cons, if_neg]; simp [hl c t rfl]
  | cons x a ih =>
    rw [List.cons_append, List.dropWhile_cons, if_pos (ha x (by simp))]
    exact ih fun c hc => ha c (by simp [hc])

/-- Every text is white space, a core without it at the ends, and white space. -/
theorem pyStrip_split (s : List Char) : ∃ a b, s = a ++ pyStrip s ++ b ∧ (∀ c ∈ a, isPySpace c = true) ∧
    ∀ c ∈ b, isPySpace c = true := by
  refine ⟨s.takeWhile isPySpace, (((s.dropWhile isPySpace).reverse).takeWhile isPySpace).reverse, ?_, ?_, ?_⟩
  · unfold pyStrip
    rw [List.append_assoc, ← List.reverse_append, List.takeWhile_append_dropWhile, List.reverse_reverse,
      List.takeWhile_append_dropWhile]
  · intro c hc; exact List.mem_takeWhile_imp hc
  · intro c hc; rw [List.mem_reverse] at hc; exact List.mem_takeWhile_imp hc

theorem pyStrip_core {a m b : List Char} (ha : ∀ c ∈ a, isPySpace c = true) (hb : ∀ c ∈ b, isPySpace c = true)
    (h1 : ∀ c t, m = c :: t → isPySpace c = false) (h2 : ∀ c t, m = t ++ [c] → isPySpace c = false) (hm : m ≠ []) :
    pyStrip (a ++ m ++ b) = m := by
  unfold pyStrip
  rw [List.append_assoc, dropWhile_all ha, List.reverse_append, dropWhile_all, List.reverse_reverse]
  · intro c hc; exact hb c (List.mem_reverse.mp hc)
  · intro c t he
    exact h2 c t.reverse (by rw [← List.reverse_reverse m, he, List.reverse_cons])
  · intro c t he
    cases m with
    | nil => exact absurd rfl hm
    | cons x m => cases he; exact h1 _ _ rfl

theorem digitsAfter_last {acc n : Nat} {l : List Char} (h : DigitsAfter acc l n) :
    ∀ c t, l = t ++ [c] → isPySpace c = false := by
  induction h with
  | nil => intro c t h; simp at h
  | digit acc c d l n hd _ ih =>
    intro c' t he
    rcases List.eq_nil_or_concat' l with rfl | ⟨t', x, rfl⟩
    · have : c = c' := by
        cases t with
        | nil => simpa using he
        | cons y t => simp at he
      subst this
      obtain ⟨hd, rfl⟩ := hd
      exact (digit_props hd).2.2.2.1
    · rw [← List.cons_append] at he
      have := (List.append_inj' he rfl).2
      simp only [List.cons.injEq, and_true] at this
      subst this
      exact ih x t' rfl
  | underscore acc c d l n hd _ ih =>
    intro c' t he
    rcases List.eq_nil_or_concat' l with rfl | ⟨t', x, rfl⟩
    · have hc := (List.append_inj' (s₁ := ['_']) (t₁ := [c]) he rfl).2
      simp only [List.cons.injEq, and_true] at hc
      subst hc
      obtain ⟨hd, rfl⟩ := hd
      exact (digit_props hd).2.2.2.1
    · rw [← List.cons_append, ← List.cons_append] at he
      have := (List.append_inj' he rfl).2
      simp only [List.cons.injEq, and_true] at this
      subst this
      exact ih x t' rfl

theorem numeral_ends {s : List Char} {n : Nat} (h : IsNumeral s n) :
    s ≠ [] ∧ (∀ c t, s = c :: t → isPySpace c = false) ∧ ∀ c t, s = t ++ [c] → isPySpace c = false := by
  obtain ⟨c, d, l, rfl, hd, hl⟩ := h
  have hc : isPySpace c = false := by obtain ⟨hd, rfl⟩ := hd; exact (digit_props hd).2.2.2.1
  refine ⟨by simp, fun c' t he => by cases he; exact hc, fun c' t he => ?_⟩
  exact digitsAfter_last (.digit 0 c d l n hd (by rwa [Nat.mul_zero, Nat.zero_add])) c' t he

theorem signed_ends {s : List Char} {n : ℤ} (h : IsSigned s n) :
    s ≠ [] ∧ (∀ c t, s = c :: t → isPySpace c = false) ∧ ∀ c t, s = t ++ [c] → isPySpace c = false := by
  have cons : ∀ (x : Char) (s : List Char) (n : Nat), isPySpace x = false → IsNumeral s n →
      x :: s ≠ [] ∧ (∀ c t, x :: s = c :: t → isPySpace c = false) ∧ ∀ c t, x :: s = t ++ [c] → isPySpace c = false := by
    intro x s n hx h
    obtain ⟨h0, h1, h2⟩ := numeral_ends h
    refine ⟨by simp, fun c t he => by cases he; exact hx, fun c t he => ?_⟩
    cases t with
    | nil => simp at he; exact absurd he.2 h0
    | cons y t => rw [List.cons_append, List.cons.injEq] at he; exact h2 c t he.2
  cases h with
  | bare _ k h => exact numeral_ends h
  | plus _ k h => exact cons _ _ k (by decide) h
  | minus _ k h => exact cons _ _ k (by decide) h

/-- `int` of a text: the number it is, or a ValueError. -/
theorem pyInt_iff (s : List Char) : (∀ n, pyInt s = .ok n ↔ IsIntLiteral s n) ∧
    ((∀ n, ¬ IsIntLiteral s n) → pyInt s = .error .valueError) := by
  have key : ∀ n, pySigned (pyStrip s) = some n ↔ IsIntLiteral s n := by
    intro n
    rw [pySigned_iff]
    constructor
    · intro h
      obtain ⟨a, b, hs, ha, hb⟩ := pyStrip_split s
      exact ⟨a, _, b, hs, fun c hc => (isPySpace_iff c).mp (ha c hc), fun c hc => (isPySpace_iff c).mp (hb c hc), h⟩
    · rintro ⟨a, m, b, rfl, ha, hb, hm⟩
      obtain ⟨h0, h1, h2⟩ := signed_ends hm
      rwa [pyStrip_core (fun c hc => (isPySpace_iff c).mpr (ha c hc)) (fun c hc => (isPySpace_iff c).mpr (hb c hc))
        h1 h2 h0]
  constructor
  · intro n
    rw [← key]
    unfold pyInt
    cases pySigned (pyStrip s) <;> simp
  · intro h
    unfold pyInt
    cases hp : pySigned (pyStrip s) with
    | none => rfl
    | some n => exact absurd ((key n).mp hp) (h n)

/-- C57: a text with one colon selects the slices from the number before to the number after it; it is refused with a
ValueError if one of the two is not a number or if one of the slices does not exist. -/
theorem C57_text (num : Nat) (a b : List Char) (ha : ':' ∉ a) (hb : ':' ∉ b) :
    (∀ x y, IsIntLiteral a x → IsIntLiteral b y →
      extractSliceRange (.str (a ++ ':' :: b)) num = extractSliceRange (.range x y 1) num) ∧
    ((∀ x y, ¬ (IsIntLiteral a x ∧ IsIntLiteral b y)) →
      extractSliceRange (.str (a ++ ':' :: b)) num = .error .valueError) := by
  have hs : splitColon (a ++ ':' :: b) = [a, b] := by rw [splitColon_append ha, splitColon_none hb]
  constructor
  · intro x y hx hy
    simp only [extractSliceRange, hs]
    rw [((pyInt_iff a).1 x).mpr hx, ok_bind, ((pyInt_iff b).1 y).mpr hy, ok_bind]
  · intro h
    simp only [extractSliceRange, hs]
    by_cases hx : ∃ x, IsIntLiteral a x
    · obtain ⟨x, hx⟩ := hx
      rw [((pyInt_iff a).1 x).mpr hx, ok_bind, (pyInt_iff b).2 fun y hy => h x y ⟨hx, hy⟩]
      rfl
    · rw [(pyInt_iff a).2 fun x hx' => hx ⟨x, hx'⟩]
      rfl

/-- `C57_text` for " 1_0:12". -/
example := C57_text 20 " 1_0".toList "12".toList (by decide) (by decide)

/-- " 1_0" is 10, "-3" is -3, "1__0" is no number. -/
example : IsIntLiteral " 1_0".toList 10 ∧ IsIntLiteral "-3\n".toList (-3) ∧ ∀ n, ¬ IsIntLiteral "1__0".toList n := by
  refine ⟨((pyInt_iff _).1 _).mp rfl, ((pyInt_iff _).1 _).mp rfl, fun n h => ?_⟩
  have := ((pyInt_iff _).1 n).mpr h
  cases this

end Pizza
