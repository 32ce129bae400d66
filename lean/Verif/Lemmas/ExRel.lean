import Verif.Lemmas.Basic

/-! Two computations with the same errors and related results. -/

namespace Pizza

/-- Both fail with the same error, or both succeed with related results. -/
inductive ExR {α β : Type} (R : α → β → Prop) : Except Err α → Except Err β → Prop
  | ok {x y} : R x y → ExR R (.ok x) (.ok y)
  | error (e) : ExR R (.error e) (.error e)

namespace ExR

variable {α β γ δ : Type} {R : α → β → Prop} {S : γ → δ → Prop}

theorem bind {a : Except Err α} {b : Except Err β} {f : α → Except Err γ} {g : β → Except Err δ}
    (h : ExR R a b) (hf : ∀ x y, R x y → ExR S (f x) (g y)) : ExR S (a >>= f) (b >>= g) := by
  cases h with
  | ok h => exact hf _ _ h
  | error e => exact .error e

theorem same {a : Except Err α} {f : α → Except Err γ} {g : α → Except Err δ}
    (hf : ∀ x, a = .ok x → ExR S (f x) (g x)) : ExR S (a >>= f) (a >>= g) := by
  cases a with
  | ok x => exact hf x rfl
  | error e => exact .error e

theorem mono {R' : α → β → Prop} {a : Except Err α} {b : Except Err β} (h : ExR R a b)
    (hi : ∀ x y, R x y → R' x y) : ExR R' a b := by
  cases h with
  | ok h => exact .ok (hi _ _ h)
  | error e => exact .error e

theorem eq {a b : Except Err α} (h : ExR (· = ·) a b) : a = b := by
  cases h with
  | ok h => rw [h]
  | error e => rfl

theorem refl {R : α → α → Prop} (a : Except Err α) (h : ∀ x, a = .ok x → R x x) : ExR R a a := by
  cases a with
  | ok x => exact .ok (h x rfl)
  | error e => exact .error e

theorem of_ok {x : α} {y : β} (h : ExR R (.ok x) (.ok y)) : R x y := by
  cases h with
  | ok h => exact h

theorem ok_inv {x : α} {b : Except Err β} (h : ExR R (.ok x) b) : ∃ y, b = .ok y ∧ R x y := by
  cases h with
  | ok h => exact ⟨_, rfl, h⟩

end ExR
end Pizza
