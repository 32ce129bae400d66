import Verif.Model.Cache
import Mathlib.Data.List.Nodup
import Mathlib.Data.Finset.Card
import Mathlib.Data.Finset.Dedup
import Mathlib.Tactic.Tauto
import Mathlib.Data.Finset.Image

/-!
Properties C35, C90: the caches.
-/

namespace Pizza

section
variable {κ V A : Type} [DecidableEq κ]

/-- The results that uncached calls would give (specification). -/
def uncached (f : A → Except Err V) : List (CacheOp A) → List (Except Err V)
  | [] => []
  | .clear :: ops => uncached f ops
  | .call a :: ops => f a :: uncached f ops

theorem find?_mem {c : Lru κ V} {k : κ} {v : V} (h : c.find? k = some v) : (k, v) ∈ c.entries := by
  unfold Lru.find? at h
  cases hf : c.entries.find? fun e => decide (e.1 = k) with
  | none => rw [hf] at h; cases h
  | some e =>
    rw [hf] at h
    have h1 := List.mem_of_find?_eq_some hf
    have h2 := List.find?_some hf
    simp only [Option.map_some, Option.some.injEq, decide_eq_true_eq] at h h2
    obtain ⟨e1, e2⟩ := e
    simp only at h h2
    subst h h2
    exact h1

theorem find?_none {c : Lru κ V} {k : κ} (h : c.find? k = none) : ∀ e ∈ c.entries, e.1 ≠ k := by
  unfold Lru.find? at h
  rw [Option.map_eq_none_iff, List.find?_eq_none] at h
  intro e he
  simpa using h e he

/-- Every stored value is what the function returns for some argument in `S` with that key. -/
def Lru.Sound (S : A → Prop) (f : A → Except Err V) (key : A → κ) (c : Lru κ V) : Prop :=
  (∀ e ∈ c.entries, ∃ a, S a ∧ key a = e.1 ∧ f a = .ok e.2) ∧ (c.entries.map Prod.fst).Nodup ∧
    c.entries.length ≤ c.maxsize

theorem sound_call (S : A → Prop) (f : A → Except Err V) (key : A → κ)
    (hkey : ∀ a b, S a → S b → key a = key b → f a = f b) (c : Lru κ V) (hs : c.Sound S f key) (a : A)
    (ha : S a) :
    (lruCall f key c a).1 = f a ∧ (lruCall f key c a).2.1.Sound S f key ∧
      (lruCall f key c a).2.1.maxsize = c.maxsize := by
  obtain ⟨h1, h2, h3⟩ := hs
  unfold lruCall
  cases hf : c.find? (key a) with
  | some v =>
    have hm := find?_mem hf
    obtain ⟨b, hb0, hb1, hb2⟩ := h1 _ hm
    have hv : f a = .ok v := by rw [← hkey b a hb0 ha hb1]; exact hb2
    refine ⟨hv.symm, ⟨?_, ?_, ?_⟩, rfl⟩
    · intro e he
      rw [List.mem_cons] at he
      rcases he with rfl | he
      · exact ⟨a, ha, rfl, hv⟩
      · exact h1 e (List.mem_of_mem_filter he)
    · simp only [List.map_cons, List.nodup_cons]
      refine ⟨?_, ?_⟩
      · intro hin
        obtain ⟨e, he, hk⟩ := List.mem_map.1 hin
        have := (List.mem_filter.1 he).2
        simp [hk] at this
      · exact h2.sublist (List.Sublist.map _ List.filter_sublist)
    · have hlt : (c.entries.filter fun e => decide (e.1 ≠ key a)).length < c.entries.length := by
        rw [List.length_filter_lt_length_iff_exists]
        exact ⟨_, hm, by simp⟩
      simp only [List.length_cons]
      omega
  | none =>
    cases hfa : f a with
    | error e => exact ⟨rfl, ⟨h1, h2, h3⟩, rfl⟩
    | ok v =>
      refine ⟨rfl, ⟨?_, ?_, ?_⟩, rfl⟩
      · intro e he
        have := List.mem_of_mem_take he
        rw [List.mem_cons] at this
        rcases this with rfl | he
        · exact ⟨a, ha, rfl, hfa⟩
        · exact h1 e he
      · rw [List.map_take]
        refine List.Nodup.sublist (List.take_sublist _ _) ?_
        simp only [List.map_cons, List.nodup_cons]
        refine ⟨?_, h2⟩
        intro hin
        obtain ⟨e, he, hk⟩ := List.mem_map.1 hin
        exact find?_none hf e he hk
      · exact List.length_take_le _ _

theorem runCache_sound (S : A → Prop) (f : A → Except Err V) (key : A → κ)
    (hkey : ∀ a b, S a → S b → key a = key b → f a = f b) (ops : List (CacheOp A))
    (hops : ∀ a, .call a ∈ ops → S a) (c : Lru κ V) (hs : c.Sound S f key) :
    (runCache f key c ops).1 = uncached f ops ∧ (runCache f key c ops).2.1.Sound S f key ∧
      (runCache f key c ops).2.1.maxsize = c.maxsize := by
  induction ops generalizing c with
  | nil => exact ⟨rfl, hs, rfl⟩
  | cons op ops ih =>
    cases op with
    | clear =>
      have := ih (fun a ha => hops a (by simp [ha])) c.clear ⟨by simp [Lru.clear], by simp [Lru.clear], by simp [Lru.clear]⟩
      exact this
    | call a =>
      obtain ⟨h1, h2, h3⟩ := sound_call S f key hkey c hs a (hops a (by simp))
      have := ih (fun a ha => hops a (by simp [ha])) _ h2
      refine ⟨?_, this.2.1, by rw [← h3]; exact this.2.2⟩
      simp only [runCache, uncached]
      rw [h1, this.1]

/-- C35: for every cache size and every history of calls and clears, the results are those of
uncached calls, and at most `maxsize` entries are stored, provided that calls in this history with
equal keys have equal results. -/
theorem C35_transparent (f : A → Except Err V) (key : A → κ) (maxsize : Nat) (ops : List (CacheOp A))
    (hkey : ∀ a b, .call a ∈ ops → .call b ∈ ops → key a = key b → f a = f b) :
    (runCache f key ⟨maxsize, []⟩ ops).1 = uncached f ops ∧
      (runCache f key ⟨maxsize, []⟩ ops).2.1.entries.length ≤ maxsize := by
  have h := runCache_sound (fun a => .call a ∈ ops) f key hkey ops (fun _ h => h) ⟨maxsize, []⟩ ⟨by simp, by simp, by simp⟩
  refine ⟨h.1, ?_⟩
  have h3 := h.2.1.2.2
  rw [h.2.2] at h3
  exact h3

/-- `C35_transparent` for a cache of two entries, calls that fail and a cleared cache. -/
example := C35_transparent (fun n : Nat => if n = 4 then .error .ioError else .ok (n * n)) id 2
  [.call 3, .call 4, .call 3, .clear, .call 5, .call 6, .call 3]
  (fun a b _ _ h => by rw [show a = b from h])

/-- The condition on keys is needed: with a key that forgets an argument the cache returns a
wrong value (`SEImageSlice.__eq__` compares hashes of a representation that omits `psf_kwargs`). -/
theorem C35_key_condition_needed : ∃ (f : Nat → Except Err Nat) (key : Nat → Unit)
    (ops : List (CacheOp Nat)),
    (runCache f key ⟨4, []⟩ ops).1 ≠ uncached f ops :=
  ⟨fun n => .ok n, fun _ => (), [.call 0, .call 1], by simp [runCache, lruCall, uncached, Lru.find?]⟩

/-- The key condition holds for instance when the key is the argument itself. -/
example (f : Nat → Except Err Nat) : ∀ a b, id a = id b → f a = f b := fun _ _ h => by
  cases h; rfl

theorem take_of_fits (S : A → Prop) (f : A → Except Err V) (key : A → κ) (c : Lru κ V) (a : A) (seen : Finset κ)
    (hs : c.Sound S f key) (hsub : ∀ e ∈ c.entries, e.1 ∈ seen) (hn : c.find? (key a) = none)
    (hcard : (insert (key a) seen).card ≤ c.maxsize) (v : V) :
    ((key a, v) :: c.entries).take c.maxsize = (key a, v) :: c.entries := by
  apply List.take_of_length_le
  have h2 : (((key a, v) :: c.entries).map Prod.fst).Nodup := by
    simp only [List.map_cons, List.nodup_cons]
    refine ⟨?_, hs.2.1⟩
    intro hin
    obtain ⟨e, he, hk⟩ := List.mem_map.1 hin
    exact find?_none hn e he hk
  have h3 : (((key a, v) :: c.entries).map Prod.fst).toFinset ⊆ insert (key a) seen := by
    intro k hk
    rw [List.mem_toFinset, List.map_cons, List.mem_cons, List.mem_map] at hk
    rw [Finset.mem_insert]
    rcases hk with rfl | ⟨e, he, rfl⟩
    · exact Or.inl rfl
    · exact Or.inr (hsub e he)
  have h4 := Finset.card_le_card h3
  rw [List.toFinset_card_of_nodup h2] at h4
  simpa using le_trans h4 hcard

/-- With room for all keys nothing is evicted: the function is called exactly for keys not seen
before. -/
theorem runCache_misses (S : A → Prop) (f : A → Except Err V) (key : A → κ)
    (hkey : ∀ a b, S a → S b → key a = key b → f a = f b) (hok : ∀ a, S a → ∃ v, f a = .ok v)
    (args : List A) (hargs : ∀ a ∈ args, S a) (c : Lru κ V) (seen : Finset κ) (hs : c.Sound S f key)
    (hsub : ∀ k, k ∈ seen ↔ k ∈ c.entries.map Prod.fst)
    (hcard : (seen ∪ (args.map key).toFinset).card ≤ c.maxsize) :
    ((runCache f key c (args.map .call)).2.2.map key).Nodup ∧
      ∀ k ∈ (runCache f key c (args.map .call)).2.2.map key, k ∉ seen := by
  induction args generalizing c seen with
  | nil => simp [runCache]
  | cons a args ih =>
    simp only [List.map_cons, runCache]
    have hSa : S a := hargs a (by simp)
    have hrest : ∀ b ∈ args, S b := fun b hb => hargs b (by simp [hb])
    have hsc := sound_call S f key hkey c hs a hSa
    have hcard' : (insert (key a) seen ∪ (args.map key).toFinset).card ≤ c.maxsize := by
      refine le_trans (le_of_eq ?_) hcard
      congr 1
      ext k
      simp only [Finset.mem_union, Finset.mem_insert, List.mem_toFinset, List.map_cons,
        List.mem_cons]
      tauto
    cases hf : c.find? (key a) with
    | some v =>
      have hin : key a ∈ seen := by
        rw [hsub]
        exact List.mem_map.2 ⟨_, find?_mem hf, rfl⟩
      have hstep : (lruCall f key c a).2.1 =
          { c with entries := (key a, v) :: c.entries.filter fun e => decide (e.1 ≠ key a) } := by
        unfold lruCall; rw [hf]
      have hmiss : (lruCall f key c a).2.2 = false := by unfold lruCall; rw [hf]
      rw [hmiss]
      have := ih hrest (lruCall f key c a).2.1 seen hsc.2.1 (by
        intro k
        rw [hsub, hstep]
        simp only [List.map_cons, List.mem_cons, List.mem_map, List.mem_filter,
          decide_eq_true_eq]
        constructor
        · rintro ⟨e, he, rfl⟩
          by_cases h : e.1 = key a
          · exact Or.inl h
          · exact Or.inr ⟨e, ⟨he, h⟩, rfl⟩
        · rintro (rfl | ⟨e, he, rfl⟩)
          · exact ⟨_, find?_mem hf, rfl⟩
          · exact ⟨e, he.1, rfl⟩) (by
        rw [hsc.2.2]
        rw [Finset.insert_eq_of_mem hin] at hcard'
        exact hcard')
      exact this
    | none =>
      obtain ⟨v, hv⟩ := hok a hSa
      have hcard1 : (insert (key a) seen).card ≤ c.maxsize :=
        le_trans (Finset.card_le_card Finset.subset_union_left) hcard'
      have htake := take_of_fits S f key c a seen hs
        (fun e he => (hsub e.1).2 (List.mem_map.2 ⟨e, he, rfl⟩)) hf hcard1 v
      have hstep : (lruCall f key c a).2.1 = { c with entries := (key a, v) :: c.entries } := by
        unfold lruCall; rw [hf, hv]; simp only [htake]
      have hmiss : (lruCall f key c a).2.2 = true := by unfold lruCall; rw [hf, hv]
      rw [hmiss]
      have := ih hrest (lruCall f key c a).2.1 (insert (key a) seen) hsc.2.1 (by
        intro k
        rw [hstep]
        simp only [List.map_cons, List.mem_cons, Finset.mem_insert, hsub]) (by
        rw [hsc.2.2]; exact hcard')
      have hnot : key a ∉ seen := by
        rw [hsub]
        intro hin
        obtain ⟨e, he, hk⟩ := List.mem_map.1 hin
        exact find?_none hf e he hk
      simp only [if_true, List.map_cons, List.nodup_cons]
      refine ⟨⟨fun h => this.2 _ h (Finset.mem_insert_self _ _), this.1⟩, ?_⟩
      intro k hk
      rw [List.mem_cons] at hk
      rcases hk with rfl | hk
      · exact hnot
      · exact fun h => this.2 k hk (Finset.mem_insert_of_mem h)

/-- C90: if a history of calls uses at most `maxsize` different keys, the underlying function is
called at most once for each key (each file is read once). -/
theorem C90_read_once (f : A → Except Err V) (key : A → κ) (maxsize : Nat) (args : List A)
    (hkey : ∀ a ∈ args, ∀ b ∈ args, key a = key b → f a = f b) (hok : ∀ a ∈ args, ∃ v, f a = .ok v)
    (hcard : (args.map key).toFinset.card ≤ maxsize) :
    ((runCache f key ⟨maxsize, []⟩ (args.map .call)).2.2.map key).Nodup :=
  (runCache_misses (· ∈ args) f key (fun a b ha hb => hkey a ha b hb) hok args (fun _ h => h) ⟨maxsize, []⟩ ∅ ⟨by simp, by simp, by simp⟩ (by simp)
    (by simpa using hcard)).1

/-- `C90_read_once` for three calls with two different arguments and a cache of two entries. -/
example := C90_read_once (fun n : Nat => .ok (n * n)) id 2 [3, 4, 3]
  (fun a _ b _ h => by rw [show a = b from h]) (fun _ _ => ⟨_, rfl⟩) (by decide)

/-- Without room for all keys a file can be read again. -/
theorem C90_eviction_rereads :
    ¬ ((runCache (fun n : Nat => .ok n) id ⟨1, []⟩ ([0, 1, 0].map .call)).2.2.map id).Nodup := by
  simp [runCache, lruCall, Lru.find?]

example : (([3, 4, 3] : List Nat).map id).toFinset.card ≤ 2 := by decide

end
end Pizza
