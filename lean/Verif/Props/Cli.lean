import Verif.Model.Cli
import Verif.Props.SliceRange
import Verif.Props.LoadInfo

/-!
C85, C86: the name of the output file and the log level.
-/

namespace Pizza

/-! ### splitting at a separator -/

theorem split_first {x : Char} {a a' b b' : PyStr} (h : a ++ x :: b = a' ++ x :: b') (ha : x ∉ a)
    (ha' : x ∉ a') : a = a' ∧ b = b' := by
  induction a generalizing a' with
  | nil =>
    cases a' with
    | nil => simpa using h
    | cons c a' =>
      rw [List.nil_append, List.cons_append, List.cons.injEq] at h
      exact absurd (by rw [h.1]; simp) ha'
  | cons c a ih =>
    cases a' with
    | nil =>
      rw [List.nil_append, List.cons_append, List.cons.injEq] at h
      exact absurd (by rw [← h.1]; simp) ha
    | cons c' a' =>
      rw [List.cons_append, List.cons_append, List.cons.injEq] at h
      obtain ⟨h1, h2⟩ := ih h.2 (fun hm => ha (by simp [hm])) (fun hm => ha' (by simp [hm]))
      exact ⟨by rw [h.1, h1], h2⟩

theorem split_last {x : Char} {a a' b b' : PyStr} (h : a ++ x :: b = a' ++ x :: b') (hb : x ∉ b)
    (hb' : x ∉ b') : a = a' ∧ b = b' := by
  have h' := congrArg List.reverse h
  simp only [List.reverse_append, List.reverse_cons, List.append_assoc, List.singleton_append] at h'
  obtain ⟨h1, h2⟩ := split_first h' (fun hm => hb (List.mem_reverse.1 hm)) (fun hm => hb' (List.mem_reverse.1 hm))
  exact ⟨List.reverse_injective h2, List.reverse_injective h1⟩

/-! ### padded numbers -/

theorem pyDigits_zeros (k : Nat) (l : PyStr) (n : Nat) (h : ∀ b, pyDigits l 0 b = some n) :
    ∀ b, pyDigits (List.replicate k '0' ++ l) 0 b = some n := by
  induction k with
  | zero => simpa using h
  | succ k ih =>
    intro b
    rw [List.replicate_succ, List.cons_append]
    simp only [pyDigits]
    rw [if_pos (by decide)]
    exact ih true

theorem decimalPad_spec (w n : Nat) : decimalPad w n ≠ [] ∧
    (∀ c ∈ decimalPad w n, ∃ d < 10, c = Char.ofNat (48 + d)) ∧
    ∀ b, pyDigits (decimalPad w n) 0 b = some n := by
  obtain ⟨h1, h2, h3⟩ := decimal_spec n
  unfold decimalPad
  refine ⟨by simp [h1], fun c hc => ?_, pyDigits_zeros _ _ n h3⟩
  rcases List.mem_append.1 hc with hc | hc
  · exact ⟨0, by norm_num, List.eq_of_mem_replicate hc⟩
  · exact h2 c hc

theorem dash_notin_pad (w n : Nat) : '-' ∉ decimalPad w n := by
  intro h
  obtain ⟨d, hd, hc⟩ := (decimalPad_spec w n).2.1 _ h
  exact (digit_props hd).2.2.2.2.2.1 hc.symm

theorem under_notin_pad (w n : Nat) : '_' ∉ decimalPad w n := by
  intro h
  obtain ⟨d, hd, hc⟩ := (decimalPad_spec w n).2.1 _ h
  interval_cases d <;> revert hc <;> decide

theorem under_notin_pad4 (z : ℤ) : '_' ∉ pad4 z := by
  unfold pad4
  split
  · rw [List.mem_cons]
    rintro (h | h)
    · revert h
      decide
    · exact under_notin_pad _ _ h
  · exact under_notin_pad _ _

theorem decimalPad_inj {w w' n n' : Nat} (h : decimalPad w n = decimalPad w' n') : n = n' := by
  have h1 := (decimalPad_spec w n).2.2 true
  rw [h, (decimalPad_spec w' n').2.2 true] at h1
  exact (Option.some.inj h1).symm

theorem pad4_inj {a b : ℤ} (h : pad4 a = pad4 b) : a = b := by
  unfold pad4 at h
  by_cases ha : a < 0 <;> by_cases hb : b < 0
  · rw [if_pos ha, if_pos hb, List.cons.injEq] at h
    have := decimalPad_inj h.2
    omega
  · rw [if_pos ha, if_neg hb] at h
    exact absurd (by rw [← h]; simp) (dash_notin_pad 4 b.natAbs)
  · rw [if_neg ha, if_pos hb] at h
    exact absurd (by rw [h]; simp) (dash_notin_pad 4 a.natAbs)
  · rw [if_neg ha, if_neg hb] at h
    have := decimalPad_inj h
    omega

/-- A pair of numbers with a dash between them is read in only one way. -/
theorem pads_inj {a b a' b' : ℤ} (h : pad4 a ++ '-' :: pad4 b = pad4 a' ++ '-' :: pad4 b') :
    a = a' ∧ b = b' := by
  unfold pad4 at h
  have fin : ∀ {w w' : Nat}, decimalPad w a.natAbs ++ '-' :: pad4 b = decimalPad w' a'.natAbs ++ '-' :: pad4 b' →
      a.natAbs = a'.natAbs ∧ b = b' := fun h => by
    obtain ⟨h1, h2⟩ := split_first h (dash_notin_pad _ _) (dash_notin_pad _ _)
    exact ⟨decimalPad_inj h1, pad4_inj h2⟩
  have head : ∀ (w n : Nat) (l m : PyStr), decimalPad w n ++ l ≠ '-' :: m := by
    intro w n l m e
    cases hd : decimalPad w n with
    | nil => exact (decimalPad_spec w n).1 hd
    | cons c t =>
      rw [hd, List.cons_append, List.cons.injEq] at e
      exact dash_notin_pad w n (by rw [hd, e.1]; simp)
  by_cases ha : a < 0 <;> by_cases ha' : a' < 0
  · rw [if_pos ha, if_pos ha', List.cons_append, List.cons_append, List.cons.injEq] at h
    obtain ⟨h1, h2⟩ := fin h.2
    exact ⟨by omega, h2⟩
  · rw [if_pos ha, if_neg ha', List.cons_append] at h
    exact absurd h.symm (head _ _ _ _)
  · rw [if_neg ha, if_pos ha', List.cons_append] at h
    exact absurd h (head _ _ _ _)
  · rw [if_neg ha, if_neg ha'] at h
    obtain ⟨h1, h2⟩ := fin h
    exact ⟨by omega, h2⟩

/-! ### the name of the configuration -/

/-- The configuration file `d/s.yaml` has the name `s`. -/
def ConfigName (config s : PyStr) : Prop :=
  '/' ∉ s ∧ ¬ ".yaml".toList <:+: s ∧ ∃ d, (d = [] ∨ ∃ e, d = e ++ ['/']) ∧ config = d ++ s ++ ".yaml".toList

theorem removeYaml_stem (s : PyStr) (h : ¬ ".yaml".toList <:+: s) : removeYaml (s ++ ".yaml".toList) = s := by
  induction s with
  | nil => rfl
  | cons c s ih =>
    have hs : ¬ ".yaml".toList <:+: s := fun hi => h (hi.trans (List.suffix_cons c s).isInfix)
    have hc : ∀ l, c :: (s ++ ".yaml".toList) ≠ '.' :: 'y' :: 'a' :: 'm' :: 'l' :: l := by
      rintro l e
      apply h
      rcases s with _ | ⟨c1, _ | ⟨c2, _ | ⟨c3, _ | ⟨c4, s⟩⟩⟩⟩
      · simp at e
      · simp at e
      · simp at e
      · simp at e
      · simp only [List.cons_append, List.cons.injEq] at e
        obtain ⟨rfl, rfl, rfl, rfl, rfl, -⟩ := e
        exact ⟨[], s, rfl⟩
    rw [List.cons_append]
    conv_lhs => unfold removeYaml
    split
    · rename_i l e
      exact absurd e (hc _)
    · rename_i c' l' _ e
      cases e
      rw [ih hs]
    · rename_i e
      cases e

theorem pyBasename_dir (d s : PyStr) (hd : d = [] ∨ ∃ e, d = e ++ ['/']) (hs : '/' ∉ s) :
    pyBasename (d ++ s) = s := by
  unfold pyBasename
  have key : ∀ l m : PyStr, '/' ∉ l → (l ++ '/' :: m).takeWhile (· ≠ '/') = l := by
    intro l m hl
    rw [List.takeWhile_append_of_pos (fun c hc => by
      simp only [ne_eq, decide_eq_true_eq]
      exact fun e => hl (e ▸ hc))]
    simp
  rcases hd with rfl | ⟨e, rfl⟩
  · rw [List.nil_append]
    have : s.reverse.takeWhile (· ≠ '/') = s.reverse := by
      have := List.takeWhile_append_of_pos (p := (· ≠ '/')) (l₁ := s.reverse) (l₂ := []) (fun c hc => by
        simp only [ne_eq, decide_eq_true_eq]
        exact fun e => hs (e ▸ List.mem_reverse.1 hc))
      simpa using this
    rw [this, List.reverse_reverse]
  · have : (e ++ ['/'] ++ s).reverse = s.reverse ++ '/' :: e.reverse := by simp
    rw [this, key _ _ (fun hm => hs (List.mem_reverse.1 hm)), List.reverse_reverse]

theorem stem_of_configName {config s : PyStr} (h : ConfigName config s) :
    removeYaml (pyBasename config) = s := by
  obtain ⟨h1, h2, d, hd, rfl⟩ := h
  rw [List.append_assoc, pyBasename_dir d _ hd, removeYaml_stem s h2]
  rw [List.mem_append]
  rintro (h | h)
  · exact h1 h
  · revert h
    decide

/-- The value of the range option. -/
def RangeValue (r : Option PyStr) (v : Option (ℤ × ℤ)) : Prop :=
  (r = none ∧ v = none) ∨
  ∃ a b x y, r = some (a ++ ':' :: b) ∧ ':' ∉ a ∧ ':' ∉ b ∧ IsIntLiteral a x ∧ IsIntLiteral b y ∧ v = some (x, y)

/-- The end of the name for a range. -/
def endFor : Option (ℤ × ℤ) → PyStr
  | none => []
  | some (x, y) => "-range".toList ++ pad4 x ++ '-' :: pad4 y

theorem splitColon_two {s a b : PyStr} (h : splitColon s = [a, b]) :
    s = a ++ ':' :: b ∧ ':' ∉ a ∧ ':' ∉ b := by
  induction s generalizing a b with
  | nil => cases h
  | cons c s ih =>
    unfold splitColon at h
    by_cases hc : c = ':'
    · rw [if_pos hc, List.cons.injEq] at h
      obtain ⟨rfl, h⟩ := h
      have hb : ':' ∉ s ∧ s = b := by
        clear ih
        induction s generalizing b with
        | nil =>
          cases h
          simp
        | cons e s ih' =>
          unfold splitColon at h
          by_cases he : e = ':'
          · rw [if_pos he, List.cons.injEq] at h
            cases s with
            | nil => exact absurd h.2 (by simp [splitColon])
            | cons _ _ =>
              have := h.2
              unfold splitColon at this
              split at this
              · cases this
              · split at this <;> cases this
          · rw [if_neg he] at h
            cases hs : splitColon s with
            | nil =>
              cases s with
              | nil => cases hs
              | cons _ _ =>
                unfold splitColon at hs
                split at hs
                · cases hs
                · split at hs <;> cases hs
            | cons p ps =>
              rw [hs] at h
              simp only [List.cons.injEq] at h
              obtain ⟨rfl, rfl⟩ := h
              obtain ⟨h1, h2⟩ := ih' hs
              exact ⟨by simp [h1, Ne.symm he], by rw [h2]⟩
      rw [hb.2, hc]
      rw [hb.2] at hb
      exact ⟨rfl, by simp, hb.1⟩
    · rw [if_neg hc] at h
      cases hs : splitColon s with
      | nil =>
        rw [hs] at h
        cases h
      | cons p ps =>
        rw [hs] at h
        simp only [List.cons.injEq] at h
        obtain ⟨rfl, rfl⟩ := h
        obtain ⟨h1, h2, h3⟩ := ih hs
        exact ⟨by rw [h1]; rfl, by simp [h2, Ne.symm hc], h3⟩

theorem rangeEnd_ok {r : Option PyStr} {e : PyStr} :
    rangeEnd r = .ok e ↔ ∃ v, RangeValue r v ∧ e = endFor v := by
  unfold rangeEnd RangeValue
  cases r with
  | none =>
    constructor
    · intro h
      cases h
      exact ⟨none, .inl ⟨rfl, rfl⟩, rfl⟩
    · rintro ⟨v, ⟨-, rfl⟩ | ⟨a, b, x, y, h, -⟩, rfl⟩
      · rfl
      · cases h
  | some s =>
    constructor
    · intro h
      dsimp only at h
      split at h
      · rename_i a b hs
        simp only [bind_ok_iff] at h
        obtain ⟨x, hx, y, hy, h⟩ := h
        cases h
        obtain ⟨h1, h2, h3⟩ := splitColon_two hs
        exact ⟨some (x, y), .inr ⟨a, b, x, y, by rw [h1], h2, h3,
          ((pyInt_iff a).1 x).mp hx, ((pyInt_iff b).1 y).mp hy, rfl⟩, rfl⟩
      · cases h
    · rintro ⟨v, ⟨h, -⟩ | ⟨a, b, x, y, h, ha, hb, hx, hy, rfl⟩, rfl⟩
      · cases h
      · cases h
        dsimp only
        rw [splitColon_append ha, splitColon_none hb]
        simp only [((pyInt_iff a).1 x).mpr hx, ((pyInt_iff b).1 y).mpr hy, ok_bind]
        rfl

theorem under_notin_end (v : Option (ℤ × ℤ)) : '_' ∉ endFor v := by
  rcases v with _ | ⟨x, y⟩
  · simp [endFor]
  · unfold endFor
    simp only [List.mem_append, List.mem_cons]
    rintro ((h | h) | h | h)
    · revert h
      decide
    · exact under_notin_pad4 _ h
    · revert h
      decide
    · exact under_notin_pad4 _ h

theorem endFor_inj {v v' : Option (ℤ × ℤ)} (h : endFor v = endFor v') : v = v' := by
  rcases v with _ | ⟨x, y⟩ <;> rcases v' with _ | ⟨x', y'⟩
  · rfl
  · simp [endFor] at h
  · simp [endFor] at h
  · unfold endFor at h
    dsimp only at h
    rw [List.append_assoc, List.append_assoc, List.append_cancel_left_eq] at h
    obtain ⟨rfl, rfl⟩ := pads_inj h
    rfl

theorem pyJoin_inj {a b b' : PyStr} (hb : b.head? ≠ some '/') (hb' : b'.head? ≠ some '/')
    (h : pyJoin a b = pyJoin a b') : b = b' := by
  have key : ∀ {b : PyStr}, b.head? ≠ some '/' → pyStartsWith b ['/'] = false := by
    intro b hb
    cases b with
    | nil => rfl
    | cons c l =>
      have : c ≠ '/' := fun e => hb (by rw [e]; rfl)
      simp [pyStartsWith, List.isPrefixOf, Ne.symm this]
  unfold pyJoin at h
  rw [key hb, key hb'] at h
  simp only [Bool.false_eq_true, if_false] at h
  split at h
  · exact List.append_cancel_left h
  · exact (List.cons.inj (List.append_cancel_left h)).2

theorem head_noslash {l m : PyStr} (h : '/' ∉ l) (x : Char) (hx : x ≠ '/') :
    (l ++ x :: m).head? ≠ some '/' := by
  cases l with
  | nil => simpa using hx
  | cons c l =>
    simp only [List.cons_append, List.head?_cons, ne_eq, Option.some.injEq]
    rintro rfl
    exact h (by simp)

/-- **C85** With the same output directory, the same file name means the same tile, band, configuration
name, tag and range of slices, for tiles and bands without underscore or slash and configuration names
without dash. -/
theorem C85_injective (a a' : NameArgs) (s s' : PyStr) (v v' : Option (ℤ × ℤ)) (p : PyStr)
    (ho : a.output = a'.output) (hf : ¬ ".fits".toList <:+ a.output) (hz : ¬ ".fits.fz".toList <:+ a.output)
    (ht : '_' ∉ a.tilename ∧ '/' ∉ a.tilename) (ht' : '_' ∉ a'.tilename ∧ '/' ∉ a'.tilename)
    (hb : '_' ∉ a.band) (hb' : '_' ∉ a'.band)
    (hs : ConfigName a.config s) (hs' : ConfigName a'.config s') (hd : '-' ∉ s) (hd' : '-' ∉ s')
    (hv : RangeValue a.sliceRange v) (hv' : RangeValue a'.sliceRange v')
    (h : medsPath a = .ok p) (h' : medsPath a' = .ok p) :
    a.tilename = a'.tilename ∧ a.band = a'.band ∧ s = s' ∧ a.tag = a'.tag ∧ v = v' := by
  have e1 : pyEndsWith a.output ".fits".toList = false := by
    rw [Bool.eq_false_iff]
    exact fun h => hf (List.isSuffixOf_iff_suffix.1 h)
  have e2 : pyEndsWith a.output ".fits.fz".toList = false := by
    rw [Bool.eq_false_iff]
    exact fun h => hz (List.isSuffixOf_iff_suffix.1 h)
  unfold medsPath at h h'
  rw [← ho] at h'
  rw [e1, e2, if_neg (by decide), if_neg (by decide), rangeEnd_ok.2 ⟨v, hv, rfl⟩, ok_bind] at h
  rw [e1, e2, if_neg (by decide), if_neg (by decide), rangeEnd_ok.2 ⟨v', hv', rfl⟩, ok_bind] at h'
  have h0 := pyJoin_inj (by
    rw [List.append_assoc, List.append_assoc, List.append_assoc, List.append_assoc]
    exact head_noslash ht.2 '_' (by decide)) (by
    rw [List.append_assoc, List.append_assoc, List.append_assoc, List.append_assoc]
    exact head_noslash ht'.2 '_' (by decide)) ((Except.ok.inj h).trans (Except.ok.inj h').symm)
  have h1 := List.append_cancel_right h0
  simp only [List.append_assoc, List.cons_append] at h1
  obtain ⟨g1, h2⟩ := split_first h1 ht.1 ht'.1
  obtain ⟨g2, h3⟩ := split_first h2 hb hb'
  have h4 : shortName a.config a.tag ++ '_' :: ("meds-pizza-slices".toList ++ endFor v) =
      shortName a'.config a'.tag ++ '_' :: ("meds-pizza-slices".toList ++ endFor v') := h3
  have hnu : ∀ v, '_' ∉ "meds-pizza-slices".toList ++ endFor v := by
    intro v
    rw [List.mem_append]
    rintro (h | h)
    · revert h
      decide
    · exact under_notin_end v h
  obtain ⟨h5, h6⟩ := split_last h4 (hnu v) (hnu v')
  have g5 := endFor_inj (List.append_cancel_left h6)
  unfold shortName at h5
  rw [stem_of_configName hs, stem_of_configName hs'] at h5
  refine ⟨g1, g2, ?_⟩
  cases hta : a.tag with
  | none =>
    cases hta' : a'.tag with
    | none =>
      rw [hta, hta'] at h5
      exact ⟨h5, rfl, g5⟩
    | some t' =>
      rw [hta, hta'] at h5
      dsimp only at h5
      exact absurd (by rw [h5]; simp) hd
  | some t =>
    cases hta' : a'.tag with
    | none =>
      rw [hta, hta'] at h5
      dsimp only at h5
      exact absurd (by rw [← h5]; simp) hd'
    | some t' =>
      rw [hta, hta'] at h5
      obtain ⟨h7, h8⟩ := split_first h5 hd hd'
      exact ⟨h7, by rw [h8], g5⟩

/-- **C85** A path that ends in `.fits` is used as given, so the compressed file is that path and `.fz`;
the compressed file of a path that ends in `.fits.fz` is that path. -/
theorem C85_explicit (a : NameArgs) (p : PyStr) :
    (a.output = p ++ ".fits".toList → medsPath a = .ok a.output) ∧
    (a.output = p ++ ".fits.fz".toList → ∃ q, medsPath a = .ok q ∧ q ++ ".fz".toList = a.output) := by
  unfold medsPath pyEndsWith
  constructor
  · intro h
    rw [if_pos (List.isSuffixOf_iff_suffix.2 ⟨p, h.symm⟩)]
  · intro h
    have hn : ¬ ".fits".toList <:+ a.output := by
      rintro ⟨q, hq⟩
      rw [h] at hq
      have := congrArg (fun l => l.reverse.head?) hq
      simp at this
    rw [if_neg (fun hs => hn (List.isSuffixOf_iff_suffix.1 hs)),
      if_pos (List.isSuffixOf_iff_suffix.2 ⟨p, h.symm⟩)]
    refine ⟨p ++ ".fits".toList, ?_, ?_⟩
    · rw [h]
      have e : (p ++ ".fits.fz".toList) = (p ++ ".fits".toList) ++ ".fz".toList := by simp
      rw [e]
      congr 1
      rw [List.length_append]
      exact List.take_left' (by simp)
    · rw [h]
      simp

/-- **C85** Otherwise the name is in the output directory and ends in `.fits`. -/
theorem C85_directory (a : NameArgs) (p : PyStr) (hf : ¬ ".fits".toList <:+ a.output)
    (hz : ¬ ".fits.fz".toList <:+ a.output) (ht : '/' ∉ a.tilename) (h : medsPath a = .ok p) :
    a.output <+: p ∧ ".fits".toList <:+ p ∧ (a.output = [] ∨ ['/'] <:+ a.output ∨ a.output ++ ['/'] <+: p) := by
  unfold medsPath pyEndsWith at h
  rw [if_neg (fun hs => hf (List.isSuffixOf_iff_suffix.1 hs)),
    if_neg (fun hs => hz (List.isSuffixOf_iff_suffix.1 hs))] at h
  simp only [bind_ok_iff] at h
  obtain ⟨r, hr, h⟩ := h
  replace h := Except.ok.inj h
  subst h
  generalize hn : a.tilename ++ '_' :: a.band ++ '_' :: shortName a.config a.tag ++
      "_meds-pizza-slices".toList ++ r = n
  have hh : pyStartsWith (n ++ ".fits".toList) ['/'] ≠ true := by
    intro hs
    rw [← hn, List.append_assoc, List.append_assoc, List.append_assoc, List.append_assoc] at hs
    obtain ⟨t, ht'⟩ := List.isPrefixOf_iff_prefix.1 hs
    exact head_noslash (m := a.band ++ _) ht '_' (by decide) ((congrArg List.head? ht'.symm).trans rfl)
  unfold pyJoin
  rw [if_neg hh]
  split
  · rename_i h
    refine ⟨List.prefix_append _ _, ⟨a.output ++ n, by rw [List.append_assoc]⟩, ?_⟩
    rcases h with h | h
    · exact .inl h
    · exact .inr (.inl (List.isSuffixOf_iff_suffix.1 h))
  · refine ⟨List.prefix_append _ _, ⟨a.output ++ '/' :: n, by simp⟩, .inr (.inr ?_)⟩
    exact ⟨n ++ ".fits".toList, by simp⟩

/-- Options for the examples. -/
def exArgs (config : String) (tag : Option String) (range : Option String) : NameArgs :=
  ⟨"out".toList, config.toList, tag.map String.toList, range.map String.toList, "DES0-1".toList, ['r']⟩

/-- **C85** The condition on dashes is needed: two configurations, one with a tag, have the same
output. -/
theorem C85_dash_needed : medsPath (exArgs "a-b.yaml" none none) = medsPath (exArgs "a.yaml" (some "b") none) := by
  decide +kernel

example : medsPath (exArgs "/c/a.yaml" (some "b") (some "2:-3")) =
    .ok "out/DES0-1_r_a-b_meds-pizza-slices-range0002--003.fits".toList := by
  simp only [medsPath, exArgs, rangeEnd]
  decide +kernel

example : ConfigName "/c/a.yaml".toList ['a'] ∧ RangeValue (some "2:7".toList) (some (2, 7)) :=
  ⟨⟨by decide, by decide, "/c/".toList, .inr ⟨"/c".toList, rfl⟩, rfl⟩,
    .inr ⟨['2'], ['7'], 2, 7, rfl, by decide, by decide, ((pyInt_iff _).1 _).mp rfl, ((pyInt_iff _).1 _).mp rfl, rfl⟩⟩

/-! ### the log level -/

/-- The names are free. -/
def Free (s : Logging) (levelName m : PyStr) : Prop :=
  s.attrs levelName = none ∧ s.attrs m = none ∧ s.cls m = none

/-- **C86** Either an exception is raised and nothing is changed (exactly if a name is taken), or no
exception is raised. -/
theorem C86_raises (s : Logging) (n : PyStr) (k : ℤ) (m : Option PyStr) :
    (¬ Free s n (methodNameOf n m) ↔ (addLoggingLevel s n k m).2 = some .attributeError) ∧
    (Free s n (methodNameOf n m) ↔ (addLoggingLevel s n k m).2 = none) ∧
    ((addLoggingLevel s n k m).2 ≠ none → (addLoggingLevel s n k m).1 = s) := by
  have key : ∀ o : Option LogAttr, o ≠ none → o.isSome = true := fun o h => Option.isSome_iff_ne_none.2 h
  unfold addLoggingLevel Free
  by_cases h1 : s.attrs n = none
  · by_cases h2 : s.attrs (methodNameOf n m) = none
    · by_cases h3 : s.cls (methodNameOf n m) = none
      · simp [h1, h2, h3]
      · simp [h1, h2, key _ h3, h3]
    · simp [h1, key _ h2, h2]
  · simp [key _ h1, h1]

/-- The name of the method: what is given, else the lower case form of the level's name. -/
theorem methodNameOf_spec (n : PyStr) (m : Option PyStr) :
    (∀ x, m = some x → x ≠ [] → methodNameOf n m = x) ∧
    (m = none ∨ m = some [] → methodNameOf n m = n.map Char.toLower) := by
  rcases m with _ | _ | ⟨c, l⟩ <;> simp [methodNameOf]

/-- **C86** (partial: the constant is defined only if the method has another name) Without an exception,
the level constant, the level's name, and both methods are defined, and nothing else is changed. -/
theorem C86_defines_partial (s : Logging) (n : PyStr) (k : ℤ) (m : Option PyStr)
    (h : (addLoggingLevel s n k m).2 = none) :
    let t := (addLoggingLevel s n k m).1
    let name := methodNameOf n m
    (name ≠ n → t.attrs n = some (.level k)) ∧ t.attrs name = some (.toRoot k) ∧
    t.cls name = some (.forLevel k) ∧ t.levelToName k = some n ∧ t.nameToLevel n = some k ∧
    (∀ x, x ≠ n → x ≠ name → t.attrs x = s.attrs x) ∧ (∀ x, x ≠ name → t.cls x = s.cls x) ∧
    (∀ j, j ≠ k → t.levelToName j = s.levelToName j) ∧ (∀ x, x ≠ n → t.nameToLevel x = s.nameToLevel x) := by
  obtain ⟨h1, h2, h3⟩ := (C86_raises s n k m).2.1.2 h
  intro t name
  have ht : t = ⟨setAt (setAt s.attrs n (.level k)) name (.toRoot k), setAt s.cls name (.forLevel k),
      setAt s.levelToName k n, setAt s.nameToLevel n k⟩ := by
    show (addLoggingLevel s n k m).1 = _
    unfold addLoggingLevel
    simp [h1, h2, h3, name]
  rw [ht]
  refine ⟨fun hne => ?_, by simp [setAt], by simp [setAt], by simp [setAt], by simp [setAt],
    fun x hx hx' => by simp [setAt, hx, hx'], fun x hx => by simp [setAt, hx],
    fun x hx => by simp [setAt, hx], fun x hx => by simp [setAt, hx]⟩
  simp [setAt, Ne.symm hne]

/-- **C86** The same call again raises and changes nothing. -/
theorem C86_again (s : Logging) (n : PyStr) (k k' : ℤ) (m : Option PyStr)
    (h : (addLoggingLevel s n k m).2 = none) :
    addLoggingLevel (addLoggingLevel s n k m).1 n k' m =
      ((addLoggingLevel s n k m).1, some .attributeError) := by
  obtain ⟨-, h2, -⟩ := C86_defines_partial s n k m h
  generalize (addLoggingLevel s n k m).1 = t at h2
  have hnf : ¬ Free t n (methodNameOf n m) := fun hf => by
    rw [hf.2.1] at h2
    cases h2
  have h3 := (C86_raises t n k' m).1.1 hnf
  exact Prod.ext ((C86_raises t n k' m).2.2 (by rw [h3]; simp)) h3

/-- No names are taken. -/
def emptyLogging : Logging := ⟨fun _ => none, fun _ => none, fun _ => none, fun _ => none⟩

/-- **C86** does not hold for a level's name in lower case: the constant is replaced by the function. -/
theorem C86_defines_fails : (addLoggingLevel emptyLogging "trace".toList 5 none).2 = none ∧
    (addLoggingLevel emptyLogging "trace".toList 5 none).1.attrs "trace".toList = some (.toRoot 5) := by
  decide +kernel

example : (addLoggingLevel emptyLogging "DEBUG_PLOT".toList 5 none).2 = none ∧
    (addLoggingLevel emptyLogging "DEBUG_PLOT".toList 5 none).1.attrs "DEBUG_PLOT".toList = some (.level 5) ∧
    methodNameOf "DEBUG_PLOT".toList none = "debug_plot".toList := by
  decide +kernel

/-- `C85_directory`: the output directory `out`. -/
example := C85_directory (exArgs "/c/a.yaml" (some "b") none) "out/DES0-1_r_a-b_meds-pizza-slices.fits".toList
  (by decide +kernel) (by decide +kernel) (by decide +kernel)
  (by simp only [medsPath, exArgs]; decide +kernel)

/-- `C85_injective`: the same configuration reached by two paths. -/
example := C85_injective (exArgs "/c/a.yaml" (some "b") none) (exArgs "d/a.yaml" (some "b") none) ['a'] ['a']
  none none "out/DES0-1_r_a-b_meds-pizza-slices.fits".toList rfl
  (by decide +kernel) (by decide +kernel) (by decide +kernel) (by decide +kernel) (by decide +kernel)
  (by decide +kernel)
  ⟨by decide, by decide, "/c/".toList, .inr ⟨"/c".toList, rfl⟩, rfl⟩
  ⟨by decide, by decide, "d/".toList, .inr ⟨"d".toList, rfl⟩, rfl⟩ (by decide) (by decide)
  (.inl ⟨rfl, rfl⟩) (.inl ⟨rfl, rfl⟩)
  (by simp only [medsPath, exArgs]; decide +kernel) (by simp only [medsPath, exArgs]; decide +kernel)

/-- `C86_defines_partial` and `C86_again`: a new level. -/
example := And.intro
  (C86_defines_partial emptyLogging "DEBUG_PLOT".toList 5 none (by decide +kernel))
  (C86_again emptyLogging "DEBUG_PLOT".toList 5 6 none (by decide +kernel))

end Pizza
