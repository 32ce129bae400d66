import Verif.Model.DoubleLanczos
import Verif.Props.DoubleCoadd
import Mathlib.Algebra.Order.BigOperators.Group.List
import Mathlib.Algebra.Order.BigOperators.Ring.List
import Mathlib.Tactic.Positivity

/-! Rounding errors of sums of products, in whatever order. -/

namespace Pizza

/-- `s` comes from `t` by `e` roundings, relative to `T`. -/
def Near (u : ℚ) (e : ℕ) (s t T : ℚ) : Prop := |s - t| ≤ ((1 + u) ^ e - 1) * T ∧ |t| ≤ T

namespace Near
variable {u s t T s' t' T' : ℚ} {e e' : ℕ}

theorem pow_ge (hu : 0 ≤ u) (e : ℕ) : 1 ≤ (1 + u) ^ e := one_le_pow₀ (by linarith)

theorem refl (u t : ℚ) : Near u 0 t t |t| := ⟨by simp, le_rfl⟩

theorem nonneg (h : Near u e s t T) : 0 ≤ T := (abs_nonneg t).trans h.2

theorem mono (hu : 0 ≤ u) (h : Near u e s t T) (he : e ≤ e') : Near u e' s t T := by
  refine ⟨h.1.trans (mul_le_mul_of_nonneg_right ?_ h.nonneg), h.2⟩
  have := pow_le_pow_right₀ (show (1 : ℚ) ≤ 1 + u by linarith) he
  linarith

theorem abs_le (h : Near u e s t T) : |s| ≤ (1 + u) ^ e * T := by
  have h1 := h.1
  have h2 := h.2
  have := abs_add_le (s - t) t
  rw [sub_add_cancel] at this
  linarith

theorem add (h : Near u e s t T) (h' : Near u e s' t' T') : Near u e (s + s') (t + t') (T + T') := by
  constructor
  · have := abs_add_le (s - t) (s' - t')
    rw [show s + s' - (t + t') = s - t + (s' - t') by ring]
    have h1 := h.1
    have h2 := h'.1
    linarith
  · have := abs_add_le t t'
    linarith [h.2, h'.2]

theorem mul (hu : 0 ≤ u) (h : Near u e s t T) (h' : Near u e' s' t' T') :
    Near u (e + e') (s * s') (t * t') (T * T') := by
  have g1 := pow_ge hu e
  have g2 := pow_ge hu e'
  constructor
  · rw [show s * s' - t * t' = (s - t) * s' + t * (s' - t') by ring]
    refine (abs_add_le _ _).trans ?_
    rw [abs_mul, abs_mul]
    calc |s - t| * |s'| + |t| * |s' - t'|
        ≤ ((1 + u) ^ e - 1) * T * ((1 + u) ^ e' * T') + T * (((1 + u) ^ e' - 1) * T') := by
          refine add_le_add ?_ ?_
          · exact mul_le_mul h.1 h'.abs_le (abs_nonneg _) (mul_nonneg (by linarith) h.nonneg)
          · exact mul_le_mul h.2 h'.1 (abs_nonneg _) h.nonneg
      _ = _ := by rw [pow_add]; ring
  · rw [abs_mul]
    exact mul_le_mul h.2 h'.2 (abs_nonneg _) h.nonneg

theorem round {p : ℕ} {rnd : ℚ → ℚ} (hr : Rounds p rnd) (hp : 1 ≤ p) (h : Near (unitOf p) e s t T) :
    Near (unitOf p) (e + 1) (rnd s) t T := by
  have h1 := hr.err hp s
  have hu := unitOf_pos p
  refine ⟨?_, h.2⟩
  have h2 := abs_add_le (rnd s - s) (s - t)
  rw [sub_add_sub_cancel] at h2
  have h3 := mul_le_mul_of_nonneg_left h.abs_le hu.le
  have h4 := h.1
  rw [pow_succ]
  linarith

theorem round' {p : ℕ} {rnd : ℚ → ℚ} (hr : Rounds p rnd) (hp : 1 ≤ p) (t : ℚ) :
    Near (unitOf p) 1 (rnd t) t |t| := (refl (unitOf p) t).round hr hp

theorem zero (hu : 0 ≤ u) (hT : 0 ≤ T) : Near u e 0 0 T := by
  refine ⟨?_, by simpa using hT⟩
  rw [sub_zero, abs_zero]
  exact mul_nonneg (by linarith [pow_ge hu e]) hT

theorem eq_zero (h : Near u e s t 0) : s = 0 ∧ t = 0 := by
  have h2 : t = 0 := abs_eq_zero.1 (le_antisymm h.2 (abs_nonneg _))
  have h1 := h.1
  rw [h2, mul_zero, sub_zero] at h1
  exact ⟨abs_eq_zero.1 (le_antisymm h1 (abs_nonneg _)), h2⟩

end Near

section
variable {p : ℕ} {rnd : ℚ → ℚ}

theorem prodRuns_length {l : List ℚ} {t : ℚ} (h : ProdRuns rnd l t) : 1 ≤ l.length := by
  induction h with
  | one x => simp
  | mul hp _ _ iha _ => rw [hp.length_eq, List.length_append]; omega

theorem prodRuns_float (hr : Rounds p rnd) {l : List ℚ} {t : ℚ} (h : ProdRuns rnd l t) (hl : ∀ x ∈ l, IsFloat p x) :
    IsFloat p t := by
  cases h with
  | one x => exact hl t (by simp)
  | mul _ _ _ => exact hr.float _

theorem prodRuns_near (hr : Rounds p rnd) (hp : 1 ≤ p) {l : List ℚ} {t : ℚ} (h : ProdRuns rnd l t) :
    Near (unitOf p) (l.length - 1) t l.prod |l.prod| := by
  induction h with
  | one x => simpa using Near.refl (unitOf p) x
  | @mul l a b s t hperm ha hb iha ihb =>
    have h1 := prodRuns_length ha
    have h2 := prodRuns_length hb
    have := ((iha.mul (unitOf_pos p).le ihb).round hr hp)
    rw [hperm.prod_eq, List.prod_append, abs_mul, hperm.length_eq, List.length_append]
    exact this.mono (unitOf_pos p).le (by omega)

/-- The sum of the products. -/
def dotOf (l : List (List ℚ)) : ℚ := (l.map List.prod).sum

/-- The sum of the absolute values of the products. -/
def dotAbs (l : List (List ℚ)) : ℚ := (l.map fun f => |f.prod|).sum

theorem dotAbs_nonneg (l : List (List ℚ)) : 0 ≤ dotAbs l :=
  List.sum_nonneg fun x hx => by
    obtain ⟨f, _, rfl⟩ := List.mem_map.1 hx
    exact abs_nonneg _

theorem dotOf_abs (l : List (List ℚ)) : |dotOf l| ≤ dotAbs l := by
  induction l with
  | nil => simp [dotOf, dotAbs]
  | cons f l ih =>
    simp only [dotOf, dotAbs, List.map_cons, List.sum_cons] at ih ⊢
    exact (abs_add_le _ _).trans (by linarith)

theorem dotRuns_float (hr : Rounds p rnd) {l : List (List ℚ)} {s : ℚ} (h : DotRuns rnd l s)
    (hl : ∀ f ∈ l, ∀ x ∈ f, IsFloat p x) : IsFloat p s := by
  cases h with
  | nil => exact isFloat_zero p
  | term ht => exact prodRuns_float hr ht (hl _ (by simp))
  | add _ _ _ => exact hr.float _
  | fma _ _ _ _ _ => exact hr.float _
  | factor _ _ _ => exact hr.float _

theorem factor_sums {f : List ℚ} {l a : List (List ℚ)} (h : List.Forall₂ (fun x y => x.Perm (f ++ y)) l a) :
    dotOf l = dotOf a * f.prod ∧ dotAbs l = dotAbs a * |f.prod| := by
  induction h with
  | nil => simp [dotOf, dotAbs]
  | cons h1 _ ih =>
    simp only [dotOf, dotAbs, List.map_cons, List.sum_cons] at ih ⊢
    rw [ih.1, ih.2, h1.prod_eq, List.prod_append, abs_mul]
    exact ⟨by ring, by ring⟩

theorem factor_zero {f : List ℚ} {l a : List (List ℚ)} (h : List.Forall₂ (fun x y => x.Perm (f ++ y)) l a) :
    ∀ y ∈ a, ∃ x ∈ l, x.Perm (f ++ y) := by
  induction h with
  | nil => simp
  | cons h1 _ ih =>
    intro y hy
    rcases List.mem_cons.1 hy with rfl | hy
    · exact ⟨_, List.mem_cons_self, h1⟩
    · obtain ⟨x, hx, hp⟩ := ih y hy
      exact ⟨x, List.mem_cons_of_mem _ hx, hp⟩

/-- The error of a sum of products, relative to the sum of their absolute values. -/
theorem dotRuns_near (hr : Rounds p rnd) (hp : 1 ≤ p) {l : List (List ℚ)} {s : ℚ} (h : DotRuns rnd l s)
    (hl : ∀ f ∈ l, ∀ x ∈ f, IsFloat p x) (k : ℕ) (hk : ∀ f ∈ l, f.length ≤ k) :
    Near (unitOf p) (l.length + k) s (dotOf l) (dotAbs l) := by
  have hu := (unitOf_pos p).le
  induction h generalizing k with
  | nil => simpa [dotOf, dotAbs] using Near.zero hu le_rfl
  | @term f t ht =>
    have := prodRuns_near hr hp ht
    have hk' := hk f (by simp)
    simp only [dotOf, dotAbs, List.map_cons, List.map_nil, List.sum_cons, List.sum_nil, add_zero]
    exact this.mono hu (by simp; omega)
  | @add l a b s t hperm ha hb iha ihb =>
    have hla : ∀ f ∈ a, f ∈ l := fun f hf => hperm.mem_iff.2 (by simp [hf])
    have hlb : ∀ f ∈ b, f ∈ l := fun f hf => hperm.mem_iff.2 (by simp [hf])
    have na := iha (fun f hf => hl f (hla f hf)) k (fun f hf => hk f (hla f hf))
    have nb := ihb (fun f hf => hl f (hlb f hf)) k (fun f hf => hk f (hlb f hf))
    have fa := dotRuns_float hr ha (fun f hf => hl f (hla f hf))
    have fb := dotRuns_float hr hb (fun f hf => hl f (hlb f hf))
    have e1 : dotOf l = dotOf a + dotOf b := by
      unfold dotOf; rw [(hperm.map _).sum_eq, List.map_append, List.sum_append]
    have e2 : dotAbs l = dotAbs a + dotAbs b := by
      unfold dotAbs; rw [(hperm.map _).sum_eq, List.map_append, List.sum_append]
    have e3 : l.length = a.length + b.length := by rw [hperm.length_eq, List.length_append]
    rw [e1, e2, e3]
    rcases Nat.eq_zero_or_pos a.length with h0 | hapos
    · obtain rfl := List.length_eq_zero_iff.1 h0
      have z : dotAbs [] = 0 := rfl
      rw [z] at na ⊢
      obtain ⟨rfl, z2⟩ := na.eq_zero
      rw [zero_add, hr.exact fb, z2, zero_add, zero_add]
      simpa using nb
    rcases Nat.eq_zero_or_pos b.length with h0 | hbpos
    · obtain rfl := List.length_eq_zero_iff.1 h0
      have z : dotAbs [] = 0 := rfl
      rw [z] at nb ⊢
      obtain ⟨rfl, z2⟩ := nb.eq_zero
      rw [add_zero, hr.exact fa, z2, add_zero, add_zero]
      simpa using na
    have := ((na.mono hu (show a.length + k ≤ a.length + b.length + k - 1 by omega)).add
      (nb.mono hu (show b.length + k ≤ a.length + b.length + k - 1 by omega))).round hr hp
    exact this.mono hu (by omega)
  | @fma l a f g h s t u hperm hf ha hg hh iha =>
    have hla : ∀ f ∈ a, f ∈ l := fun f hf => hperm.mem_iff.2 (by simp [hf])
    have na := iha (fun f hf => hl f (hla f hf)) k (fun f hf => hk f (hla f hf))
    have hkf := hk f (hperm.mem_iff.2 (by simp))
    have n1 := prodRuns_length hg
    have n2 := prodRuns_length hh
    have e1 : dotOf l = dotOf a + f.prod := by
      unfold dotOf; rw [(hperm.map _).sum_eq, List.map_cons, List.sum_cons, add_comm]
    have e2 : dotAbs l = dotAbs a + |f.prod| := by
      unfold dotAbs; rw [(hperm.map _).sum_eq, List.map_cons, List.sum_cons, add_comm]
    have e3 : l.length = a.length + 1 := by rw [hperm.length_eq, List.length_cons]
    have e4 : f.length = g.length + h.length := by rw [hf.length_eq, List.length_append]
    have nf := (prodRuns_near hr hp hg).mul hu (prodRuns_near hr hp hh)
    rw [← abs_mul, ← List.prod_append, ← hf.prod_eq] at nf
    rw [e1, e2, e3]
    have := (na.add (nf.mono hu (show _ ≤ a.length + k by omega))).round hr hp
    exact this.mono hu (by omega)
  | @factor l a f s t hf ha ht iha =>
    have hmem := factor_zero hf
    have n1 := prodRuns_length ht
    have na := iha (fun y hy x hx => by
        obtain ⟨z, hz, hzp⟩ := hmem y hy
        exact hl z hz x (hzp.mem_iff.2 (by simp [hx]))) (k - f.length) (fun y hy => by
        obtain ⟨z, hz, hzp⟩ := hmem y hy
        have := hk z hz
        rw [hzp.length_eq, List.length_append] at this
        omega)
    obtain ⟨e1, e2⟩ := factor_sums hf
    rw [e1, e2, hf.length_eq]
    have nm := (na.mul hu (prodRuns_near hr hp ht)).round hr hp
    rcases a with _ | ⟨y, a⟩
    · have z : dotAbs [] = 0 := rfl
      rw [z] at na
      obtain ⟨rfl, z2⟩ := na.eq_zero
      rw [z, z2, zero_mul, zero_mul, zero_mul, hr.zero]
      exact Near.zero hu le_rfl
    · obtain ⟨z, hz, hzp⟩ := hmem y (by simp)
      have := hk z hz
      rw [hzp.length_eq, List.length_append] at this
      exact nm.mono hu (by omega)

/-- A polynomial with given coefficients. -/
def polyAt (x : ℚ) (l : List ℚ) : ℚ := l.foldr (fun a s => a + x * s) 0

/-- The polynomial with the absolute values. -/
def polyAbs (x : ℚ) (l : List ℚ) : ℚ := l.foldr (fun a s => |a| + |x| * s) 0

theorem hornerRuns_near (hr : Rounds p rnd) (hp : 1 ≤ p) {x : ℚ} {l : List ℚ} {s : ℚ} (h : HornerRuns rnd x l s) :
    Near (unitOf p) (2 * l.length) s (polyAt x l) (polyAbs x l) := by
  have hu := (unitOf_pos p).le
  induction h with
  | last a => simpa [polyAt, polyAbs] using (Near.round' hr hp a).mono hu (by norm_num)
  | @step a l s _ ih =>
    have h1 := (Near.round' hr hp a).mono hu (show 1 ≤ 2 * l.length + 1 by omega)
    have h2 := ((Near.refl (unitOf p) x).mul hu ih).round hr hp
    rw [zero_add] at h2
    simpa [polyAt, polyAbs, Nat.mul_add] using (h1.add h2).round hr hp
  | @fma a l s _ ih =>
    have h1 := (Near.round' hr hp a).mono hu (show 1 ≤ 2 * l.length + 1 by omega)
    have h2 := ((Near.refl (unitOf p) x).mul hu ih).mono hu (show 0 + 2 * l.length ≤ 2 * l.length + 1 by omega)
    simpa [polyAt, polyAbs, Nat.mul_add] using (h1.add h2).round hr hp

end

end Pizza
