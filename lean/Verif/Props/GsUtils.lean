import Verif.Model.GsUtils
import Verif.Props.LoadInfo

/-!
C141: the galsim WCS made from header entries.
-/

namespace Pizza
variable {V W : Type}

/-- `v` is the value of the last entry of `d` with a key whose upper case form is `K` (specification). -/
def LastUpper (d : List (Option PyStr × V)) (K : PyStr) (v : V) : Prop :=
  ∃ pre j post, d = pre ++ (some j, v) :: post ∧ j.map Char.toUpper = K ∧
    ∀ j' v', (some j', v') ∈ post → j'.map Char.toUpper ≠ K

theorem gsStep_get (d : Dict V) (x : Option PyStr × V) (K : PyStr) (v : V) :
    (gsStep d x).get K = some v ↔
      (∃ j, x = (some j, v) ∧ j.map Char.toUpper = K) ∨
      ((∀ j, x.1 = some j → j.map Char.toUpper ≠ K) ∧ d.get K = some v) := by
  obtain ⟨k, v'⟩ := x
  cases k with
  | none => simp [gsStep]
  | some k =>
    change (d.set (pyUpper k) v').get K = some v ↔ _
    rw [Dict.get_set]
    by_cases hk : pyUpper k = K
    · have hk' : k.map Char.toUpper = K := hk
      simp [hk, hk', Prod.ext_iff, eq_comm]
    · have hk' : k.map Char.toUpper ≠ K := hk
      rw [if_neg hk]
      constructor
      · exact fun h => .inr ⟨fun j hj => by cases hj; exact hk', h⟩
      · rintro (⟨j, hj, hK⟩ | h)
        · cases hj
          exact absurd hK hk'
        · exact h.2

theorem gsHeader_get (d : List (Option PyStr × V)) (K : PyStr) (v : V) :
    (gsHeader d).get K = some v ↔ LastUpper d K v := by
  unfold gsHeader LastUpper
  induction d using List.reverseRecOn with
  | nil => simp [Dict.get]
  | append_singleton l a ih =>
    rw [List.foldl_append, List.foldl_cons, List.foldl_nil, gsStep_get, ih]
    constructor
    · rintro (⟨j, rfl, h⟩ | ⟨h1, pre, j, post, e, h2, h3⟩)
      · exact ⟨l, j, [], rfl, h, by simp⟩
      · refine ⟨pre, j, post ++ [a], by rw [e]; simp, h2, fun j' v' hj' => ?_⟩
        rcases List.mem_append.1 hj' with hj' | hj'
        · exact h3 j' v' hj'
        · exact h1 j' (by rw [← List.mem_singleton.1 hj'])
    · rintro ⟨pre, j, post, e, h2, h3⟩
      rcases List.eq_nil_or_concat post with rfl | ⟨post', b, rfl⟩
      · obtain ⟨e1, e2⟩ := List.append_inj' e rfl
        obtain rfl : a = (some j, v) := by simpa using e2
        exact .inl ⟨j, rfl, h2⟩
      · have e' : l ++ [a] = (pre ++ (some j, v) :: post') ++ [b] := by rw [e]; simp
        obtain ⟨e1, e2⟩ := List.append_inj' e' rfl
        obtain rfl : a = b := by simpa using e2
        refine .inr ⟨fun j' hj' => h3 j' a.2 (by simp [← hj']), pre, j, post', e1, h2, fun j' v' hj' => h3 j' v' (by simp [hj'])⟩

theorem gsHeader_nodup (d : List (Option PyStr × V)) : ((gsHeader d).map Prod.fst).Nodup := by
  unfold gsHeader
  induction d using List.reverseRecOn with
  | nil => simp
  | append_singleton l a ih =>
    rw [List.foldl_append, List.foldl_cons, List.foldl_nil]
    unfold gsStep
    cases a.1 with
    | none => exact ih
    | some k => exact (Dict.set_keys _ _ _ ih).1

/-- **C141** galsim is given every entry that has a key, under its key in upper case and under no other one; of
entries whose keys differ in case only it is given the last; entries without a key are left out. -/
theorem C141_header (fitsWcs : Dict V → Except Err (W × Bool)) (d : List (Option PyStr × V)) :
    ∃ h : Dict V, (∀ K v, h.get K = some v ↔ LastUpper d K v) ∧ (h.map Prod.fst).Nodup ∧
      (∀ w, gsFitsWcs fitsWcs d = .ok w ↔ fitsWcs h = .ok (w, true)) ∧
      ∀ e, gsFitsWcs fitsWcs d = .error e ↔
        fitsWcs h = .error e ∨ (e = .assertionError ∧ ∃ w, fitsWcs h = .ok (w, false)) := by
  refine ⟨gsHeader d, gsHeader_get d, gsHeader_nodup d, fun w => ?_, fun e => ?_⟩ <;>
  · unfold gsFitsWcs
    cases fitsWcs (gsHeader d) with
    | error e' => simp [bind, Except.bind]
    | ok x =>
      obtain ⟨w', b⟩ := x
      cases b <;> simp [bind, Except.bind, pure, Except.pure, throw, throwThe, MonadExceptOf.throw, eq_comm]

theorem toUpper_toLower (c : Char) : c.toLower.toUpper = c.toUpper := by
  by_cases h : c.val ≥ 'A'.val ∧ c.val ≤ 'Z'.val
  · have key : ∀ n < 91, (Char.ofNat n).toLower.toUpper = (Char.ofNat n).toUpper := by decide
    have := key c.toNat (Nat.lt_succ_of_le h.2)
    rwa [Char.ofNat_toNat] at this
  · have : c.toLower = c := by
      unfold Char.toLower
      rw [dif_neg h]
    rw [this]

/-- **C141** A FITS header read by the loader (which turns its keys to lower case) and handed to galsim is the header
itself again, when its keys are in upper case, as FITS has them. -/
theorem C141_roundtrip (fitsWcs : Dict V → Except Err (W × Bool)) (h : Header V)
    (hup : ∀ k ∈ h.keys, k.map Char.toUpper = k) :
    ∃ d : Dict V, (∀ K v, d.get K = some v ↔ K ∈ h.keys ∧ h.value K = .ok v) ∧ (d.map Prod.fst).Nodup ∧
      ∀ w, gsFitsWcs fitsWcs ((mungeHeader h).map fun x => (some x.1, x.2)) = .ok w ↔ fitsWcs d = .ok (w, true) := by
  obtain ⟨d, h1, h2, h3, -⟩ := C141_header fitsWcs ((mungeHeader h).map fun x => (some x.1, x.2))
  refine ⟨d, fun K v => ?_, h2, h3⟩
  rw [h1]
  have hm := (C82_munge h).1
  have hnd := (C82_munge h).2
  have hmem : ∀ {k v}, (k, v) ∈ mungeHeader h ↔ (mungeHeader h).get k = some v := by
    generalize mungeHeader h = d at hnd
    intro k v
    induction d with
    | nil => simp [Dict.get]
    | cons x l ih =>
      obtain ⟨a, b⟩ := x
      rw [List.map_cons, List.nodup_cons] at hnd
      by_cases e : a = k
      · subst e
        simp only [List.mem_cons, Prod.mk.injEq, true_and, Dict.get, List.find?_cons, beq_self_eq_true, Option.map_some,
          Option.some.injEq]
        constructor
        · rintro (rfl | hc)
          · rfl
          · exact absurd (List.mem_map_of_mem (f := Prod.fst) hc) hnd.1
        · exact fun hb => .inl hb.symm
      · have e2 : Dict.get ((a, b) :: l) k = Dict.get l k := by simp [Dict.get, e]
        rw [e2, ← ih hnd.2, List.mem_cons]
        simp [Ne.symm e]
  have hul : ∀ k : PyStr, (k.map Char.toLower).map Char.toUpper = k.map Char.toUpper := fun k => by
    rw [List.map_map]
    exact List.map_congr_left fun c _ => toUpper_toLower c
  constructor
  · rintro ⟨pre, j, post, e, rfl, -⟩
    have hj : (some j, v) ∈ (mungeHeader h).map fun x => ((some x.1 : Option PyStr), x.2) := by rw [e]; simp
    obtain ⟨⟨j', v'⟩, hj', hjj⟩ := List.mem_map.1 hj
    cases hjj
    dsimp only at *
    obtain ⟨p, k, q, ek, hk, hv, -⟩ := (hm j' v').1 (hmem.1 hj')
    have hkm : k ∈ h.keys := by rw [ek]; simp
    rw [← hk, hul, hup k hkm]
    exact ⟨hkm, hv⟩
  · rintro ⟨hK, hv⟩
    have hg : (mungeHeader h).get (K.map Char.toLower) = some v := by
      obtain ⟨v', hv'⟩ := (Dict.mem_keys _ _).1 ((C82_keys h (K.map Char.toLower)).2 ⟨K, hK, rfl, v, hv⟩)
      obtain ⟨p, k, q, ek, hk, hvk, -⟩ := (hm _ v').1 hv'
      have hkm : k ∈ h.keys := by rw [ek]; simp
      have : k = K := by rw [← hup k hkm, ← hul, hk, hul, hup K hK]
      rw [this, hv] at hvk
      cases hvk
      exact hv'
    obtain ⟨pre, post, e⟩ := List.append_of_mem (hmem.2 hg)
    refine ⟨pre.map fun x => (some x.1, x.2), K.map Char.toLower, post.map fun x => (some x.1, x.2), by rw [e]; simp,
      by rw [hul, hup K hK], ?_⟩
    intro j' v' hj' hu
    obtain ⟨⟨j, w⟩, hj, hjj⟩ := List.mem_map.1 hj'
    cases hjj
    dsimp only at hu
    obtain ⟨p, k, q, ek, hk, -, -⟩ := (hm j w).1 (hmem.1 (by rw [e]; simp [hj]))
    have hkm : k ∈ h.keys := by rw [ek]; simp
    have : k = K := by rw [← hup k hkm, ← hul, hk, hu]
    rw [e, List.map_append, List.map_cons, List.nodup_append] at hnd
    have := (List.nodup_cons.1 hnd.2.1).1
    refine this ?_
    change K.map Char.toLower ∈ _
    rw [show K.map Char.toLower = j by rw [← hk, ‹k = K›]]
    exact List.mem_map_of_mem (f := Prod.fst) hj

/-- `C141_header`: two keys that differ in case only, and an entry without a key. -/
example (fitsWcs : Dict ℕ → Except Err (ℕ × Bool)) (hf : ∀ d, fitsWcs d = .ok (d.length, true)) :
    gsFitsWcs fitsWcs [(some "crpix1".toList, 1), (none, 2), (some "CRPIX1".toList, 3), (some "cd1_1".toList, 4)] = .ok 2 := by
  unfold gsFitsWcs
  rw [hf]
  rfl

/-- `C141_roundtrip`: a header of three cards, one of them unreadable. -/
example : ∀ k ∈ (⟨["CRPIX1".toList, "CD1_1".toList, "BAD".toList], fun k => if k = "BAD".toList then .error .valueError
    else .ok k.length⟩ : Header ℕ).keys, k.map Char.toUpper = k := by decide

end Pizza
