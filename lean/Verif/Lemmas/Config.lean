import Verif.Spec.Config
import Verif.Lemmas.Basic
import Verif.Lemmas.SEObject

namespace Pizza

theorem At.nil {v u : Yaml} : At v [] u ↔ u = v :=
  ⟨fun h => by cases h; rfl, fun h => h ▸ .here v⟩

theorem At.unique {y : Yaml} {p : List String} {u v : Yaml} (h : At y p u) (h' : At y p v) : u = v := by
  induction h with
  | here v => exact (At.nil.mp h').symm
  | step l k w p u hl _ ih =>
    cases h' with
    | step _ _ w' _ _ hl' h' =>
      rw [hl] at hl'; cases hl'
      exact ih h'

theorem item_ok {y v : Yaml} {k : String} : y.item k = .ok v ↔ At y [k] v := by
  constructor
  · intro h
    cases y <;> simp only [Yaml.item, reduceCtorEq] at h
    rename_i l
    cases hl : l.lookup k with
    | none => rw [hl] at h; cases h
    | some w => rw [hl] at h; cases h; exact .step _ _ _ _ _ hl (.here _)
  · intro h
    cases h with
    | step l _ w _ _ hl h =>
      rw [At.nil] at h; subst h
      simp only [Yaml.item, hl]

theorem At.append {y v u : Yaml} {p q : List String} (h : At y p v) (h' : At v q u) : At y (p ++ q) u := by
  induction h with
  | here v => exact h'
  | step l k w p u hl _ ih => exact .step _ _ _ _ _ hl (ih h')

theorem At.cons_iff {y u : Yaml} {k : String} {p : List String} :
    At y (k :: p) u ↔ ∃ v, At y [k] v ∧ At v p u := by
  constructor
  · intro h
    cases h with
    | step l _ w _ _ hl h => exact ⟨w, .step _ _ _ _ _ hl (.here _), h⟩
  · rintro ⟨v, h, h'⟩
    exact h.append h'

/-- Below an entry. -/
theorem At.under {y v u : Yaml} {k : String} {p : List String} (h : At y [k] v) : At y (k :: p) u ↔ At v p u := by
  rw [At.cons_iff]
  exact ⟨fun ⟨w, h1, h2⟩ => by rwa [h.unique h1], fun h' => ⟨v, h, h'⟩⟩

theorem has_ok {y : Yaml} {k : String} {b : Bool} : y.has k = .ok b ↔ (∃ l, y = .dict l) ∧ (b = true ↔ ∃ v, At y [k] v) := by
  constructor
  · intro h
    cases y <;> simp only [Yaml.has, reduceCtorEq] at h
    rename_i l
    cases h
    refine ⟨⟨l, rfl⟩, ?_⟩
    rw [Option.isSome_iff_exists]
    constructor
    · rintro ⟨v, hv⟩; exact ⟨v, .step _ _ _ _ _ hv (.here _)⟩
    · rintro ⟨v, hv⟩
      cases hv with
      | step _ _ w _ _ hl _ => exact ⟨w, hl⟩
  · rintro ⟨⟨l, rfl⟩, h⟩
    simp only [Yaml.has, Except.ok.injEq]
    rw [Bool.eq_iff_iff, h, Option.isSome_iff_exists]
    constructor
    · rintro ⟨v, hv⟩; exact ⟨v, .step _ _ _ _ _ hv (.here _)⟩
    · rintro ⟨v, hv⟩
      cases hv with
      | step _ _ w _ _ hl _ => exact ⟨w, hl⟩

theorem asNum_ok {y : Yaml} {q : ℚ} : y.asNum = .ok q ↔ IsNumber y q := by
  constructor
  · intro h
    cases y <;> simp only [Yaml.asNum, reduceCtorEq, Except.ok.injEq] at h <;> subst h
    · exact .int _
    · exact .num _
  · intro h; cases h <;> rfl

theorem asInt_ok {y : Yaml} {n : ℤ} : y.asInt = .ok n ↔ y = .int n := by
  cases y <;> simp [Yaml.asInt]

theorem asNat_ok {y : Yaml} {n : Nat} : y.asNat = .ok n ↔ y = .int (n : ℤ) := by
  cases y with
  | int m => cases m <;> simp [Yaml.asNat]
  | _ => simp [Yaml.asNat]

theorem asStr_ok {y : Yaml} {s : String} : y.asStr = .ok s ↔ y = .str s := by
  cases y <;> simp [Yaml.asStr]

theorem mapM_rel {α β : Type} {f : α → Except Err β} {R : α → β → Prop} (h : ∀ a b, f a = .ok b ↔ R a b)
    {l : List α} {l' : List β} : l.mapM f = .ok l' ↔ List.Forall₂ R l l' := by
  induction l generalizing l' with
  | nil => simp [pure, Except.pure, eq_comm]
  | cons a l ih =>
    rw [List.mapM_cons]
    cases ha : f a with
    | error e =>
      constructor
      · intro hh; cases hh
      · intro hh; cases hh with | cons h1 _ => rw [← h, ha] at h1; cases h1
    | ok b =>
      rw [ok_bind]
      cases hl : l.mapM f with
      | error e =>
        constructor
        · intro hh; cases hh
        · intro hh; cases hh with | cons _ h2 => rw [← ih, hl] at h2; cases h2
      | ok t =>
        rw [ok_bind]
        constructor
        · intro hh; cases hh; exact .cons ((h _ _).mp ha) (ih.mp hl)
        · intro hh
          cases hh with
          | cons h1 h2 =>
            rw [← h, ha] at h1; cases h1
            rw [← ih, hl] at h2; cases h2
            rfl

theorem asList_ok {α : Type} {f : Yaml → Except Err α} {R : Yaml → α → Prop} (h : ∀ a b, f a = .ok b ↔ R a b)
    {y : Yaml} {l' : List α} : y.asList f = .ok l' ↔ ∃ l, y = .list l ∧ List.Forall₂ R l l' := by
  cases y <;> simp [Yaml.asList, mapM_rel h]

theorem forall₂_int {l : List Yaml} {m : List ℤ} : List.Forall₂ (fun y n => y = Yaml.int n) l m ↔ l = m.map .int := by
  constructor
  · intro h; induction h with
    | nil => rfl
    | cons h _ ih => rw [h, ih]; rfl
  · rintro rfl; induction m with
    | nil => exact .nil
    | cons a m ih => exact .cons rfl ih

theorem forall₂_nat {l : List Yaml} {m : List Nat} (h : List.Forall₂ (fun y n => y = Yaml.int ((n : Nat) : ℤ)) l m) :
    l = m.map fun n => .int ((n : Nat) : ℤ) := by
  induction h with
  | nil => rfl
  | cons h _ ih => rw [h, ih]; rfl

theorem asOpt_ok {α : Type} {f : Yaml → Except Err α} {R : Yaml → α → Prop} (h : ∀ a b, f a = .ok b ↔ R a b)
    {y : Yaml} {o : Option α} : y.asOpt f = .ok o ↔ IsOptional R y o := by
  by_cases hy : y = .null
  · subst hy
    constructor
    · intro hh; cases hh; exact .null
    · intro hh
      cases hh with
      | null => rfl
      | some _ _ h1 _ => exact absurd rfl h1
  · have he : y.asOpt f = (f y).map some := by cases y <;> first | rfl | exact absurd rfl hy
    rw [he]
    constructor
    · intro hh
      cases hf : f y with
      | error e => rw [hf] at hh; cases hh
      | ok a => rw [hf] at hh; cases hh; exact .some _ _ hy ((h _ _).mp hf)
    · intro hh
      cases hh with
      | null => exact absurd rfl hy
      | some _ a _ h2 => rw [(h _ _).mpr h2]; rfl

theorem foldl_add_sum (l : List ℤ) (a : ℤ) : l.foldl (· + ·) a = a + l.sum := by
  induction l generalizing a with
  | nil => simp
  | cons b l ih => rw [List.foldl_cons, ih, List.sum_cons, add_assoc]

theorem sum_ok {y : Yaml} {n : ℤ} : y.sum = .ok n ↔ IsFlags y n := by
  unfold Yaml.sum IsFlags
  constructor
  · intro h
    obtain ⟨l, hl, h⟩ := bind_eq_ok.mp h
    obtain ⟨m, hm, hf⟩ := (asList_ok (fun a b => asInt_ok)).mp hl
    rw [forall₂_int] at hf
    cases h
    exact ⟨l, by rw [hm, hf], by rw [foldl_add_sum, zero_add]⟩
  · rintro ⟨l, rfl, rfl⟩
    rw [(asList_ok (fun a b => asInt_ok)).mpr ⟨_, rfl, forall₂_int.mpr rfl⟩, ok_bind]
    rw [foldl_add_sum, zero_add]; rfl

theorem truthy_false {y : Yaml} : y.truthy = false ↔ Falsy y := by
  unfold Falsy
  cases y <;> simp [Yaml.truthy]

theorem isSwitch_iff {y : Yaml} {b : Bool} : IsSwitch y b ↔ b = y.truthy := by
  unfold IsSwitch
  rw [← truthy_false]
  cases b <;> cases y.truthy <;> simp

theorem asSym_ok {y : Yaml} {c : SymCfg ℚ} : y.asSym = .ok c ↔ IsSym y c := by
  unfold Yaml.asSym
  by_cases ht : y.truthy = true
  · have hf : ¬ Falsy y := by rw [← truthy_false, ht]; simp
    rw [if_pos ht]
    by_cases hl : ∃ l, y = .list l
    · obtain ⟨l, rfl⟩ := hl
      have hm : ∀ l', l.mapM (Yaml.asOpt Yaml.asNum) = .ok l' ↔ List.Forall₂ (IsOptional IsNumber) l l' := fun l' =>
        mapM_rel (fun a b => asOpt_ok (fun a b => asNum_ok))
      constructor
      · intro h
        cases he : l.mapM (Yaml.asOpt Yaml.asNum) with
        | error e => simp only [he] at h; cases h
        | ok a =>
          simp only [he] at h; cases h
          refine .angles l a ?_ ((hm _).mp he)
          rintro rfl; simp [Yaml.truthy] at ht
      · intro h
        cases h with
        | off _ h => exact absurd h hf
        | plain _ _ h => exact absurd rfl (h l)
        | angles _ a _ h => simp only [(hm _).mpr h]; rfl
    · refine Iff.trans (b := (.ok .plain : Except Err (SymCfg ℚ)) = .ok c) ?_ ?_
      · cases y <;> first | rfl | exact absurd ⟨_, rfl⟩ hl
      constructor
      · intro h; cases h; exact .plain _ hf (fun l h => hl ⟨l, h⟩)
      · intro h
        cases h with
        | off _ h => exact absurd h hf
        | plain => rfl
        | angles l => exact absurd ⟨l, rfl⟩ hl
  · have hf : Falsy y := by rw [← truthy_false]; simpa using ht
    rw [if_neg ht]
    constructor
    · intro h; cases h; exact .off _ hf
    · intro h
      cases h with
      | off => rfl
      | plain _ h => exact absurd hf h
      | angles l a h => exact absurd hf (by simp [Falsy, h])

theorem asWeight_iff {y : Yaml} {c : CoaddWeight} : c = y.asWeight ↔ IsWeight y c := by
  constructor
  · rintro rfl
    cases y with
    | str s =>
      simp only [Yaml.asWeight]
      by_cases h1 : s = "noise"
      · subst h1; rw [if_pos rfl]; exact .noise
      · by_cases h2 : s = "noise-fwhm"
        · subst h2; rw [if_neg h1, if_pos rfl]; exact .noiseFwhm
        · rw [if_neg h1, if_neg h2]; exact .unknown _ (by simp [h1]) (by simp [h2])
    | _ => exact .unknown _ (by simp) (by simp)
  · intro h
    cases h with
    | noise => rfl
    | noiseFwhm => rfl
    | unknown _ h1 h2 =>
      cases y with
      | str s =>
        simp only [Yaml.asWeight]
        rw [if_neg (by rintro rfl; exact h1 rfl), if_neg (by rintro rfl; exact h2 rfl)]
      | _ => rfl

theorem pure_ok_iff {α : Type} {a b : α} : (pure a : Except Err α) = .ok b ↔ b = a := by
  constructor
  · intro h; cases h; rfl
  · rintro rfl; rfl

theorem asPiffCheck_ok {y : Yaml} {o : Option (Nat × ℚ)} : y.asPiffCheck = .ok o ↔ IsPiffCheck y o := by
  by_cases hy : y = .null
  · subst hy
    constructor
    · intro h; cases h; exact .null
    · intro h
      cases h with
      | null => rfl
      | some _ _ _ _ h => cases h
  · have he : y.asPiffCheck = (do
        let t ← y.item "max_abs_T_diff"
        let g ← y.item "grid_size"
        let t ← t.asNum
        let g ← g.asNat
        pure (some (g, t))) := by cases y <;> first | rfl | exact absurd rfl hy
    rw [he]
    simp only [bind_eq_ok, pure_ok_iff, item_ok, asNum_ok, asNat_ok]
    constructor
    · rintro ⟨t, ht, g, hg, q, hq, n, rfl, rfl⟩
      exact .some _ _ _ _ hg ht hq
    · intro h
      cases h with
      | null => exact absurd rfl hy
      | some _ g t v hg hv ht => exact ⟨v, hv, _, hg, t, ht, g, rfl, rfl⟩

end Pizza
