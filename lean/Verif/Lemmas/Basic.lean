import Verif.Model.SEGeom
import Mathlib.Algebra.Order.Floor.Ring

namespace Pizza

theorem flatMap_range_eq {β : Type} (m n : Nat) (f : Nat → Nat → β) :
    ((List.range m).flatMap fun i => (List.range n).map (f i)) =
      (List.range (m * n)).map fun k => f (k / n) (k % n) := by
  induction m with
  | zero => simp
  | succ m ih =>
    rw [List.range_succ, List.flatMap_append, ih, Nat.succ_mul, List.range_add, List.map_append,
      List.map_map]
    congr 1
    simp only [List.flatMap_cons, List.flatMap_nil, List.append_nil]
    apply List.map_congr_left
    intro j hj
    have hj : j < n := List.mem_range.1 hj
    have hn : 0 < n := by omega
    simp only [Function.comp]
    rw [Nat.mul_comm m n, Nat.mul_add_div hn, Nat.mul_add_mod, Nat.div_eq_of_lt hj,
      Nat.mod_eq_of_lt hj, Nat.add_zero]

theorem truncQ_int (z : ℤ) : truncQ (z : ℚ) = z := by
  unfold truncQ; split <;> simp

theorem truncQ_eq_iff (q : ℚ) : ((truncQ q : ℤ) : ℚ) = q ↔ ∃ z : ℤ, q = z := by
  constructor
  · intro h; exact ⟨_, h.symm⟩
  · rintro ⟨z, rfl⟩; rw [truncQ_int]

theorem half_int_iff (d : ℤ) (z : ℤ) :
    (∃ k : ℤ, (z : ℚ) - ((d : ℚ) - 1) / 2 = k) ↔ d % 2 = 1 := by
  constructor
  · rintro ⟨k, hk⟩
    have : (2 * z - d + 1 : ℤ) = 2 * k := by
      have : ((2 * z - d + 1 : ℤ) : ℚ) = ((2 * k : ℤ) : ℚ) := by
        push_cast; linarith
      exact_mod_cast this
    omega
  · intro h
    refine ⟨z - (d - 1) / 2, ?_⟩
    have : (2 * ((d - 1) / 2) : ℤ) = d - 1 := by omega
    have h2 : (2 * (((d - 1) / 2 : ℤ) : ℚ)) = d - 1 := by exact_mod_cast this
    push_cast
    linarith

theorem foldl_min_le (l : List ℚ) (a : ℚ) :
    (l.foldl min a ≤ a) ∧ (∀ x ∈ l, l.foldl min a ≤ x) ∧ (l.foldl min a = a ∨ l.foldl min a ∈ l) := by
  induction l generalizing a with
  | nil => simp
  | cons b t ih =>
    obtain ⟨h1, h2, h3⟩ := ih (min a b)
    simp only [List.foldl_cons]
    refine ⟨h1.trans (min_le_left _ _), ?_, ?_⟩
    · intro x hx
      rcases List.mem_cons.1 hx with h | h
      · subst h; exact h1.trans (min_le_right _ _)
      · exact h2 x h
    · rcases h3 with h | h
      · rcases min_choice a b with h' | h'
        · left; rw [h, h']
        · right; rw [h, h']; simp
      · right; simp [h]

theorem le_foldl_max (l : List ℚ) (a : ℚ) :
    (a ≤ l.foldl max a) ∧ (∀ x ∈ l, x ≤ l.foldl max a) ∧ (l.foldl max a = a ∨ l.foldl max a ∈ l) := by
  induction l generalizing a with
  | nil => simp
  | cons b t ih =>
    obtain ⟨h1, h2, h3⟩ := ih (max a b)
    simp only [List.foldl_cons]
    refine ⟨(le_max_left _ _).trans h1, ?_, ?_⟩
    · intro x hx
      rcases List.mem_cons.1 hx with h | h
      · subst h; exact (le_max_right _ _).trans h1
      · exact h2 x h
    · rcases h3 with h | h
      · rcases max_choice a b with h' | h'
        · left; rw [h, h']
        · right; rw [h, h']; simp
      · right; simp [h]

theorem qmin?_spec {l : List ℚ} (h : l ≠ []) :
    ∃ m, qmin? l = .ok m ∧ m ∈ l ∧ ∀ x ∈ l, m ≤ x := by
  cases l with
  | nil => exact absurd rfl h
  | cons a t =>
    obtain ⟨h1, h2, h3⟩ := foldl_min_le t a
    refine ⟨_, rfl, ?_, ?_⟩
    · rcases h3 with h | h <;> simp [h]
    · intro x hx
      rcases List.mem_cons.1 hx with h | h
      · subst h; exact h1
      · exact h2 x h

theorem qmax?_spec {l : List ℚ} (h : l ≠ []) :
    ∃ m, qmax? l = .ok m ∧ m ∈ l ∧ ∀ x ∈ l, x ≤ m := by
  cases l with
  | nil => exact absurd rfl h
  | cons a t =>
    obtain ⟨h1, h2, h3⟩ := le_foldl_max t a
    refine ⟨_, rfl, ?_, ?_⟩
    · rcases h3 with h | h <;> simp [h]
    · intro x hx
      rcases List.mem_cons.1 hx with h | h
      · subst h; exact h1
      · exact h2 x h

theorem ok_bind {α β : Type} (x : α) (f : α → Except Err β) : (Except.ok x >>= f) = f x := rfl

theorem foldlM_nested {α β γ : Type} (l : List α) (k : List γ)
    (f : β → α → γ → Except Err β) (init : β) :
    l.foldlM (fun s a => k.foldlM (fun s c => f s a c) s) init =
      (l.flatMap fun a => k.map fun c => (a, c)).foldlM (fun s p => f s p.1 p.2) init := by
  induction l generalizing init with
  | nil => rfl
  | cons a t ih =>
    simp only [List.foldlM_cons, List.flatMap_cons, List.foldlM_append, List.foldlM_map]
    congr 1
    funext s
    exact ih s

theorem mem_pyRange {a b x : ℤ} : x ∈ pyRange a b ↔ a ≤ x ∧ x < b := by
  unfold pyRange
  simp only [List.mem_map, List.mem_range]
  constructor
  · rintro ⟨i, hi, rfl⟩; omega
  · intro h; exact ⟨(x - a).toNat, by omega, by omega⟩

theorem length_pyRange (a b : ℤ) : (pyRange a b).length = (b - a).toNat := by
  simp [pyRange]

end Pizza
