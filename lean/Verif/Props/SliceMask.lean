import Verif.Model.SliceMask
import Verif.Props.Cache
import Mathlib.Tactic.IntervalCases

/-!
Properties C36, C37, C38: tape-bump masking of the cached bit masks.
-/

namespace Pizza

section
variable {κ : Type} [DecidableEq κ]

/-- Pixel `(r, c)` lies in one of the boxes, rows `row1..row2` and columns `col1..col2` counted
from zero (specification). -/
def InBoxes (bumps : List Bump) (r c : Nat) : Prop :=
  ∃ b ∈ bumps, b.row1 ≤ r ∧ r ≤ b.row2 ∧ b.col1 ≤ c ∧ c ≤ b.col2

/-- `out` is `m` with TAPEBUMP (bit 14) set and SUSPECT (bit 11) cleared in the boxes, and
nothing else changed (specification). -/
def TapeMasked (bumps : List Bump) (m out : Img (BitVec 32)) : Prop :=
  out.nrow = m.nrow ∧ out.ncol = m.ncol ∧ ∀ r c k,
    (InBoxes bumps r c → (out.px r c).getLsbD k =
      (if k = 14 then true else if k = 11 then false else (m.px r c).getLsbD k)) ∧
    (¬ InBoxes bumps r c → (out.px r c).getLsbD k = (m.px r c).getLsbD k)

theorem covers_iff (b : Bump) (r c : Nat) :
    b.covers r c = true ↔ b.row1 ≤ r ∧ r ≤ b.row2 ∧ b.col1 ≤ c ∧ c ≤ b.col2 := by
  unfold Bump.covers
  rw [decide_eq_true_eq]
  omega

theorem bit14 (k : Nat) : (BitVec.ofNat 32 16384).getLsbD k = decide (k = 14) := by
  by_cases h : k < 32
  · interval_cases k <;> decide
  · rw [BitVec.getLsbD_of_ge _ _ (by omega)]
    symm; rw [decide_eq_false_iff_not]; omega

theorem bit11 (k : Nat) : (~~~ (2048#32)).getLsbD k = decide (k < 32 ∧ k ≠ 11) := by
  by_cases h : k < 32
  · interval_cases k <;> decide
  · rw [BitVec.getLsbD_of_ge _ _ (by omega)]
    symm; rw [decide_eq_false_iff_not]; omega

theorem bumpStep_bit (m : Img (BitVec 32)) (b : Bump) (hflag : b.flag = 16384) (r c k : Nat) :
    ((bumpStep m b).px r c).getLsbD k = if b.covers r c then
      (if k = 14 then true else if k = 11 then false else (m.px r c).getLsbD k)
      else (m.px r c).getLsbD k := by
  by_cases hc : b.covers r c = true
  · simp only [bumpStep, hc, if_true, BitVec.getLsbD_and, BitVec.getLsbD_or, hflag, bit14, bit11]
    by_cases h14 : k = 14
    · subst h14; simp
    · by_cases h11 : k = 11
      · subst h11; simp
      · simp only [h14, h11, if_false, decide_false, Bool.or_false]
        by_cases hk : k < 32
        · simp [hk, h11]
        · rw [BitVec.getLsbD_of_ge _ _ (by omega)]; simp
  · simp [bumpStep, hc]

theorem setTapeBumps_masked (bumps : List Bump) (hflag : ∀ b ∈ bumps, b.flag = 16384)
    (m : Img (BitVec 32)) : TapeMasked bumps m (setTapeBumps bumps m) := by
  unfold setTapeBumps
  induction bumps generalizing m with
  | nil =>
    refine ⟨rfl, rfl, fun r c k => ⟨?_, fun _ => rfl⟩⟩
    rintro ⟨b, hb, _⟩
    exact absurd hb List.not_mem_nil
  | cons b bumps ih =>
    obtain ⟨h1, h2, h3⟩ := ih (fun b hb => hflag b (List.mem_cons_of_mem _ hb)) (bumpStep m b)
    rw [List.foldl_cons]
    refine ⟨h1.trans rfl, h2.trans rfl, ?_⟩
    intro r c k
    have hb := bumpStep_bit m b (hflag b (by simp)) r c k
    obtain ⟨g1, g2⟩ := h3 r c k
    have hin : InBoxes (b :: bumps) r c ↔ b.covers r c = true ∨ InBoxes bumps r c := by
      rw [covers_iff]
      unfold InBoxes
      simp only [List.mem_cons, exists_eq_or_imp]
    by_cases hi : InBoxes bumps r c
    · refine ⟨fun _ => ?_, fun hn => absurd (hin.2 (Or.inr hi)) hn⟩
      rw [g1 hi, hb]
      split
      · rfl
      · split
        · rfl
        · simp
    · rw [g2 hi, hb]
      refine ⟨fun h => ?_, fun hn => ?_⟩
      · rw [if_pos ((hin.1 h).resolve_right hi)]
      · rw [if_neg fun h => hn (hin.2 (Or.inl h))]

/-- Two arrays with the same shape and pixels. -/
theorem tapeMasked_unique (bumps : List Bump) (m a b : Img (BitVec 32)) (ha : TapeMasked bumps m a)
    (hb : TapeMasked bumps m b) : a = b := by
  obtain ⟨a1, a2, a3⟩ := ha
  obtain ⟨b1, b2, b3⟩ := hb
  obtain ⟨an, ac, ap⟩ := a
  obtain ⟨bn, bc, bp⟩ := b
  simp only at *
  subst a1 a2 b1 b2
  have : ap = bp := by
    funext r c
    apply BitVec.eq_of_getLsbD_eq
    intro k _
    by_cases h : InBoxes bumps r c
    · rw [(a3 r c k).1 h, (b3 r c k).1 h]
    · rw [(a3 r c k).2 h, (b3 r c k).2 h]
  rw [this]

theorem setTapeBumps_idem (bumps : List Bump) (hflag : ∀ b ∈ bumps, b.flag = 16384)
    (m : Img (BitVec 32)) : setTapeBumps bumps (setTapeBumps bumps m) = setTapeBumps bumps m := by
  have h1 := setTapeBumps_masked bumps hflag m
  have h2 := setTapeBumps_masked bumps hflag (setTapeBumps bumps m)
  refine tapeMasked_unique bumps m _ _ ?_ h1
  obtain ⟨a1, a2, a3⟩ := h1
  obtain ⟨b1, b2, b3⟩ := h2
  refine ⟨b1.trans a1, b2.trans a2, fun r c k => ⟨fun h => ?_, fun h => ?_⟩⟩
  · rw [(b3 r c k).1 h, (a3 r c k).1 h]
    split
    · rfl
    · split <;> rfl
  · rw [(b3 r c k).2 h, (a3 r c k).2 h]

/-- The boxes of the CCD of each mask, or none if its CCD is not in the table. -/
def bumpsAt (table : List (Nat × List Bump)) (ccdOf : Loc κ → Nat) (loc : Loc κ) : List Bump :=
  match bumpsOf table (ccdOf loc) with
  | .ok b => b
  | .error _ => []

/-- Each array held is as in its file (or as first given), or with its boxes masked; masked only
if `allowed`. -/
def ReadInv (table : List (Nat × List Bump)) (files : κ → Except Err (Img (BitVec 32)))
    (arrays0 : Nat → Img (BitVec 32)) (ccdOf : Loc κ → Nat) (allowed : Loc κ → Prop)
    (st : ReadState κ) : Prop :=
  (∀ e ∈ st.cache.entries, ∃ m, files e.1 = .ok m ∧
    (e.2 = m ∨ (allowed (.file e.1) ∧ e.2 = setTapeBumps (bumpsAt table ccdOf (.file e.1)) m))) ∧
  (∀ n, st.arrays n = arrays0 n ∨ (allowed (.mem n) ∧
    st.arrays n = setTapeBumps (bumpsAt table ccdOf (.mem n)) (arrays0 n)))

/-- The mask stored in the file, or the array given. -/
def original (files : κ → Except Err (Img (BitVec 32))) (arrays0 : Nat → Img (BitVec 32)) :
    Loc κ → Except Err (Img (BitVec 32))
  | .file k => files k
  | .mem n => .ok (arrays0 n)

theorem readInv_read {table : List (Nat × List Bump)} {files : κ → Except Err (Img (BitVec 32))}
    {arrays0 : Nat → Img (BitVec 32)} {ccdOf : Loc κ → Nat} {allowed : Loc κ → Prop}
    {st : ReadState κ} (h : ReadInv table files arrays0 ccdOf allowed st) (loc : Loc κ) :
    ReadInv table files arrays0 ccdOf allowed (readImage files st loc).2 ∧
    (∀ e, (readImage files st loc).1 = .error e → original files arrays0 loc = .error e) ∧
    (∀ out, (readImage files st loc).1 = .ok out → ∃ m, original files arrays0 loc = .ok m ∧
      (out = m ∨ (allowed loc ∧ out = setTapeBumps (bumpsAt table ccdOf loc) m))) := by
  obtain ⟨h1, h2⟩ := h
  cases loc with
  | mem n =>
    refine ⟨⟨h1, h2⟩, fun e he => (by cases he), fun out he => ?_⟩
    cases he
    exact ⟨_, rfl, h2 n⟩
  | file k =>
    simp only [readImage, lruCall, id]
    cases hf : st.cache.find? k with
    | some v =>
      have hm := find?_mem hf
      refine ⟨⟨?_, h2⟩, fun e he => (by cases he), fun out he => ?_⟩
      · intro e he
        simp only [List.mem_cons] at he
        rcases he with rfl | he
        · exact h1 _ hm
        · exact h1 e (List.mem_of_mem_filter he)
      · cases he
        exact h1 _ hm
    | none =>
      cases hk : files k with
      | error e =>
        refine ⟨⟨h1, h2⟩, fun e' he => ?_, fun out he => (by cases he)⟩
        simp only [original, hk]; exact he
      | ok v =>
        refine ⟨⟨?_, h2⟩, fun e he => (by cases he), fun out he => ?_⟩
        · intro e he
          have := List.mem_of_mem_take he
          rw [List.mem_cons] at this
          rcases this with rfl | he
          · exact ⟨v, hk, Or.inl rfl⟩
          · exact h1 e he
        · cases he
          exact ⟨_, by simp only [original, hk], Or.inl rfl⟩

/-- All boxes of the table carry the TAPEBUMP bit. -/
def FlagsOk (table : List (Nat × List Bump)) : Prop := ∀ e ∈ table, ∀ b ∈ e.2, b.flag = 16384

theorem bumpsOf_flags {table : List (Nat × List Bump)} (ht : FlagsOk table) {ccd : Nat}
    {bumps : List Bump} (h : bumpsOf table ccd = .ok bumps) : ∀ b ∈ bumps, b.flag = 16384 := by
  unfold bumpsOf at h
  cases hf : table.find? fun e => e.1 == ccd with
  | none => rw [hf] at h; cases h
  | some e => rw [hf] at h; cases h; exact ht e (List.mem_of_find?_eq_some hf)

theorem readInv_op {table : List (Nat × List Bump)} (ht : FlagsOk table)
    {files : κ → Except Err (Img (BitVec 32))}
    {arrays0 : Nat → Img (BitVec 32)} {ccdOf : Loc κ → Nat} {allowed : Loc κ → Prop}
    {st : ReadState κ} (h : ReadInv table files arrays0 ccdOf allowed st) (op : ReadOp κ)
    (hop : ∀ src y x n, op = .slice src true y x n → src.ccd = ccdOf src.loc ∧ allowed src.loc) :
    ReadInv table files arrays0 ccdOf allowed (readOp table files st op) := by
  cases op with
  | clear => exact ⟨by simp [readOp, Lru.clear], h.2⟩
  | other loc => exact (readInv_read h loc).1
  | slice src mask y x n =>
    obtain ⟨g1, g2, g3⟩ := readInv_read h src.loc
    simp only [readOp, sliceBmask]
    cases hr : readImage files st src.loc with
    | mk res st' =>
      rw [hr] at g1 g3
      cases res with
      | error e => exact g1
      | ok bmask =>
        cases mask with
        | false => exact g1
        | true =>
          obtain ⟨hccd, hal⟩ := hop src y x n rfl
          simp only [if_true]
          cases hb : bumpsOf table src.ccd with
          | error e => exact g1
          | ok bumps =>
            have hat : bumpsAt table ccdOf src.loc = bumps := by
              unfold bumpsAt; rw [← hccd, hb]
            have hfl := bumpsOf_flags ht hb
            simp only
            cases hloc : src.loc with
            | mem n =>
              refine ⟨g1.1, fun m => ?_⟩
              simp only [mutateAt]
              by_cases hmn : m = n
              · subst hmn
                rw [if_pos rfl]
                refine Or.inr ⟨hloc ▸ hal, ?_⟩
                rw [← hloc, hat]
                rcases g1.2 m with h | ⟨_, h⟩
                · rw [h]
                · rw [h, ← hloc, hat, setTapeBumps_idem _ hfl]
              · rw [if_neg hmn]; exact g1.2 m
            | file k =>
              refine ⟨?_, g1.2⟩
              intro e he
              simp only [mutateAt, Lru.mutate, List.mem_map] at he
              obtain ⟨e0, he0, rfl⟩ := he
              obtain ⟨m, hm1, hm2⟩ := g1.1 e0 he0
              by_cases hek : e0.1 = k
              · rw [if_pos hek]
                refine ⟨m, hm1, Or.inr ⟨by rw [hek, ← hloc]; exact hal, ?_⟩⟩
                have : bumpsAt table ccdOf (.file e0.1) = bumps := by rw [hek, ← hloc]; exact hat
                simp only
                rcases hm2 with h | ⟨_, h⟩
                · rw [h, this]
                · rw [h, this, setTapeBumps_idem _ hfl]
              · rw [if_neg hek]; exact ⟨m, hm1, hm2⟩

theorem readInv_history {table : List (Nat × List Bump)} (ht : FlagsOk table)
    {files : κ → Except Err (Img (BitVec 32))}
    {arrays0 : Nat → Img (BitVec 32)} {ccdOf : Loc κ → Nat} {allowed : Loc κ → Prop}
    (ops : List (ReadOp κ)) {st : ReadState κ} (h : ReadInv table files arrays0 ccdOf allowed st)
    (hops : ∀ src y x n, .slice src true y x n ∈ ops → src.ccd = ccdOf src.loc ∧ allowed src.loc) :
    ReadInv table files arrays0 ccdOf allowed (readHistory table files st ops) := by
  unfold readHistory
  induction ops generalizing st with
  | nil => exact h
  | cons op ops ih =>
    rw [List.foldl_cons]
    apply ih
    · refine readInv_op ht h op ?_
      intro src y x n he
      exact hops src y x n (by rw [he]; simp)
    · intro src y x n hm
      exact hops src y x n (List.mem_cons_of_mem _ hm)

theorem tapeBumps_flags : FlagsOk tapeBumps := by
  have : ∀ e ∈ tapeBumps, ∀ b ∈ e.2, b.flag = 16384 := by decide +kernel
  exact this

/-- Masks belong to one CCD each in a history (specification). -/
def OneCcdEach (ops : List (ReadOp κ)) (ccdOf : Loc κ → Nat) : Prop :=
  ∀ src mask y x n, .slice src mask y x n ∈ ops → src.ccd = ccdOf src.loc

/-- C36: with tape-bump masking on, a slice read of a CCD of the table returns the window of the
file's mask with TAPEBUMP set and SUSPECT cleared exactly in the boxes, after every history of
slice reads (masked or not), other reads, clears and evictions, for every cache size. -/
theorem C36_once_in_effect (files : κ → Except Err (Img (BitVec 32))) (maxsize : Nat)
    (arrays0 : Nat → Img (BitVec 32)) (ops : List (ReadOp κ)) (ccdOf : Loc κ → Nat)
    (hops : OneCcdEach ops ccdOf) (src : MaskSrc κ) (hsrc : src.ccd = ccdOf src.loc)
    (bumps : List Bump) (hccd : (src.ccd, bumps) ∈ tapeBumps) (m : Img (BitVec 32))
    (hm : (match src.loc with | .file k => files k | .mem n => .ok (arrays0 n)) = .ok m)
    (y x n : Nat) :
    ∃ full out, TapeMasked bumps m full ∧
      (sliceBmask tapeBumps files (readHistory tapeBumps files ⟨⟨maxsize, []⟩, arrays0⟩ ops) src
        true y x n).1 = .ok out ∧
      out.nrow = min (y + n) m.nrow - y ∧ out.ncol = min (x + n) m.ncol - x ∧
      ∀ r c, out.px r c = full.px (y + r) (x + c) := by
  have hb : bumpsOf tapeBumps src.ccd = .ok bumps := by
    have key : ∀ e ∈ tapeBumps, bumpsOf tapeBumps e.1 = .ok e.2 := by
      have h1 : ∀ e ∈ tapeBumps, tapeBumps.find? (fun e' => e'.1 == e.1) = some e := by
        decide +kernel
      intro e he
      unfold bumpsOf; rw [h1 e he]
    exact key _ hccd
  have hinv : ReadInv tapeBumps files arrays0 ccdOf (fun _ => True)
      (readHistory tapeBumps files ⟨⟨maxsize, []⟩, arrays0⟩ ops) :=
    readInv_history tapeBumps_flags ops ⟨by simp, fun n => Or.inl rfl⟩
      (fun src y x n h => ⟨hops _ _ _ _ _ h, trivial⟩)
  obtain ⟨g1, g2, g3⟩ := readInv_read hinv src.loc
  have hfl := bumpsOf_flags tapeBumps_flags hb
  have hmask := setTapeBumps_masked bumps hfl m
  have hm' : original files arrays0 src.loc = .ok m := by
    rw [← hm]; cases src.loc <;> rfl
  refine ⟨setTapeBumps bumps m, (setTapeBumps bumps m).window y x n, hmask, ?_, ?_, ?_, ?_⟩
  · unfold sliceBmask
    cases hr : readImage files (readHistory tapeBumps files ⟨⟨maxsize, []⟩, arrays0⟩ ops) src.loc with
    | mk res st' =>
      rw [hr] at g2 g3
      cases res with
      | error e => rw [g2 e rfl] at hm'; cases hm'
      | ok bmask =>
        obtain ⟨m', hm1, hm2⟩ := g3 bmask rfl
        rw [hm'] at hm1
        cases hm1
        simp only [if_true, hb]
        have hat : bumpsAt tapeBumps ccdOf src.loc = bumps := by
          unfold bumpsAt; rw [← hsrc, hb]
        rcases hm2 with h | ⟨_, h⟩
        · rw [h]
        · rw [h, hat, setTapeBumps_idem _ hfl]
  · simp [Img.window, hmask.1]
  · simp [Img.window, hmask.2.1]
  · intro r c; rfl

/-- A history with masked and unmasked reads (example). -/
def exReadOps : List (ReadOp Nat) := [.slice ⟨.file 0, 1⟩ true 0 0 10, .other (.file 3), .clear,
  .slice ⟨.file 1, 2⟩ false 0 0 10]

/-- The CCD of each file (example). -/
def exCcdOf : Loc Nat → Nat := fun l => match l with | .file 0 => 1 | _ => 2

/-- Each file belongs to one CCD (example). -/
theorem exReadOps_one : OneCcdEach exReadOps exCcdOf := by
  intro src mask y x n h
  simp only [exReadOps, List.mem_cons, ReadOp.slice.injEq, reduceCtorEq, List.not_mem_nil, or_false,
    false_or] at h
  rcases h with h | h <;> simp [h.1, exCcdOf]

/-- `C36_once_in_effect` for a file that was read with masking before. -/
example := C36_once_in_effect (fun _ => .ok ⟨4096, 2048, fun r _ => BitVec.ofNat 32 r⟩) 2
  (fun _ => ⟨0, 0, fun _ _ => 0⟩) exReadOps exCcdOf exReadOps_one ⟨.file 0, 1⟩ rfl _
  (List.mem_cons_self ..) _ rfl 10 20 30

/-- C37 fails: after one slice was read with masking on, a slice read with masking off sees the
TAPEBUMP bit, which is not in the file. -/
theorem C37_off_gives_file_mask_fails :
    ∃ (files : Nat → Except Err (Img (BitVec 32))) (ops : List (ReadOp Nat)) (src : MaskSrc Nat)
      (m out : Img (BitVec 32)),
      files 0 = .ok m ∧ src.loc = .file 0 ∧ OneCcdEach ops (fun _ => src.ccd) ∧
      (sliceBmask tapeBumps files (readHistory tapeBumps files ⟨⟨64, []⟩, fun _ => m⟩ ops) src
        false 1 1 1).1 = .ok out ∧
      (out.px 0 0).getLsbD 14 = true ∧ (m.px 1 1).getLsbD 14 = false := by
  let m : Img (BitVec 32) := ⟨4096, 2048, fun _ _ => 0⟩
  let src : MaskSrc Nat := ⟨.file 0, 1⟩
  let files : Nat → Except Err (Img (BitVec 32)) := fun _ => .ok m
  obtain ⟨bumps, hb, h1⟩ : ∃ bumps, bumpsOf tapeBumps 1 = .ok bumps ∧ InBoxes bumps 1 1 := by
    refine ⟨_, rfl, ?_⟩
    exact ⟨_, List.mem_cons_self, by decide⟩
  have hst : readHistory tapeBumps files ⟨⟨64, []⟩, fun _ => m⟩ [.slice src true 1 1 1] =
      ⟨⟨64, [(0, setTapeBumps bumps m)]⟩, fun _ => m⟩ := by
    simp [readHistory, readOp, sliceBmask, readImage, lruCall, Lru.find?, src, hb, mutateAt,
      Lru.mutate, files]
  have hmask := setTapeBumps_masked bumps (bumpsOf_flags tapeBumps_flags hb) m
  refine ⟨files, [.slice src true 1 1 1], src, m, (setTapeBumps bumps m).window 1 1 1, rfl, rfl,
    ?_, ?_, ?_, by simp [m]⟩
  · intro src' mask y x n h
    simp only [List.mem_singleton, ReadOp.slice.injEq] at h
    rw [h.1]
  · rw [hst]
    simp [sliceBmask, readImage, lruCall, Lru.find?, src]
  · have := (hmask.2.2 1 1 14).1 h1
    simpa [Img.window] using this

/-- C37, what does hold: if no slice of this mask was read with masking on before, a slice read
with masking off sees the file's mask.  Missing: the case of an earlier masked read, where it
fails. -/
theorem C37_off_gives_file_mask_partial (files : κ → Except Err (Img (BitVec 32))) (maxsize : Nat)
    (arrays0 : Nat → Img (BitVec 32)) (ops : List (ReadOp κ)) (ccdOf : Loc κ → Nat)
    (hops : OneCcdEach ops ccdOf) (src : MaskSrc κ)
    (hnone : ∀ src' y x n, .slice src' true y x n ∈ ops → src'.loc ≠ src.loc)
    (m : Img (BitVec 32))
    (hm : (match src.loc with | .file k => files k | .mem n => .ok (arrays0 n)) = .ok m)
    (y x n : Nat) :
    ∃ out, (sliceBmask tapeBumps files (readHistory tapeBumps files ⟨⟨maxsize, []⟩, arrays0⟩ ops)
        src false y x n).1 = .ok out ∧
      out.nrow = min (y + n) m.nrow - y ∧ out.ncol = min (x + n) m.ncol - x ∧
      ∀ r c, out.px r c = m.px (y + r) (x + c) := by
  have hinv : ReadInv tapeBumps files arrays0 ccdOf (fun loc => loc ≠ src.loc)
      (readHistory tapeBumps files ⟨⟨maxsize, []⟩, arrays0⟩ ops) :=
    readInv_history tapeBumps_flags ops ⟨by simp, fun n => Or.inl rfl⟩
      (fun src' y x n h => ⟨hops _ _ _ _ _ h, hnone src' y x n h⟩)
  obtain ⟨g1, g2, g3⟩ := readInv_read hinv src.loc
  have hm' : original files arrays0 src.loc = .ok m := by
    rw [← hm]; cases src.loc <;> rfl
  refine ⟨m.window y x n, ?_, rfl, rfl, fun r c => rfl⟩
  unfold sliceBmask
  cases hr : readImage files (readHistory tapeBumps files ⟨⟨maxsize, []⟩, arrays0⟩ ops) src.loc with
  | mk res st' =>
    rw [hr] at g2 g3
    cases res with
    | error e => rw [g2 e rfl] at hm'; cases hm'
    | ok bmask =>
      obtain ⟨m', hm1, hm2⟩ := g3 bmask rfl
      rw [hm'] at hm1
      cases hm1
      rcases hm2 with h | ⟨h, _⟩
      · rw [h]; rfl
      · exact absurd rfl h

/-- `C37_off_gives_file_mask_partial` for a file that was never read with masking. -/
example := C37_off_gives_file_mask_partial (fun _ => .ok ⟨4096, 2048, fun r _ => BitVec.ofNat 32 r⟩) 2
  (fun _ => ⟨0, 0, fun _ _ => 0⟩) exReadOps exCcdOf exReadOps_one ⟨.file 1, 2⟩ (by
    intro src' y x n h
    simp only [exReadOps, List.mem_cons, ReadOp.slice.injEq, reduceCtorEq, List.not_mem_nil, or_false,
      Bool.true_eq_false, false_and, and_false] at h
    simp [h.1]) _ rfl 10 20 30

/-- The hypotheses of C36 and C37_partial: a history with masked and unmasked reads. -/
example : OneCcdEach (κ := Nat) [.slice ⟨.file 0, 1⟩ true 0 0 10, .other (.file 3), .clear,
    .slice ⟨.file 1, 2⟩ false 0 0 10] (fun l => match l with | .file 0 => 1 | _ => 2) := by
  intro src mask y x n h
  simp only [List.mem_cons, ReadOp.slice.injEq, reduceCtorEq, List.not_mem_nil, or_false,
    false_or] at h
  rcases h with h | h <;> simp [h.1]

/-- C38, the table: the keys are exactly the CCDs 1 to 62, each once; every box is non-empty,
lies in 1..4096 × 1..2048, has the TAPEBUMP bit 2^14 and names its own CCD. -/
theorem C38_table :
    tapeBumps.map Prod.fst = (List.range 62).map (· + 1) ∧
    ∀ e ∈ tapeBumps, e.2 ≠ [] ∧ ∀ b ∈ e.2, b.ccd = e.1 ∧ b.flag = 2 ^ 14 ∧
      1 ≤ b.row1 ∧ b.row1 ≤ b.row2 ∧ b.row2 ≤ 4096 ∧
      1 ≤ b.col1 ∧ b.col1 ≤ b.col2 ∧ b.col2 ≤ 2048 := by
  constructor
  · decide +kernel
  · decide +kernel

/-- C38, the layout: every CCD has six boxes, one on each side at the bottom, in the middle and at the top.  They are
111 to 201 columns wide; those at the bottom and at the top are 81 to 161 rows high; those in the middle are 113 to 191
rows high and lie in rows 1794 to 2326.  Boxes of one CCD have no pixel in common, and together they are less than 1.7
per cent of a CCD. -/
theorem C38_layout : ∀ e ∈ tapeBumps,
    (∀ left bottom : Bool, (e.2.filter fun b => decide (b.col1 = 1) = left ∧
      (if bottom then b.row1 = 1 else b.row2 = 4096)).length = 1) ∧
    (∀ left : Bool, (e.2.filter fun b => decide (b.col1 = 1) = left ∧ 1794 ≤ b.row1 ∧ b.row2 ≤ 2326).length = 1) ∧
    e.2.length = 6 ∧
    (∀ b ∈ e.2, (b.col1 = 1 ∨ b.col2 = 2048) ∧ b.col1 + 110 ≤ b.col2 ∧ b.col2 ≤ b.col1 + 200 ∧
      (if b.row1 = 1 ∨ b.row2 = 4096 then b.row1 + 80 ≤ b.row2 ∧ b.row2 ≤ b.row1 + 160
        else b.row1 + 112 ≤ b.row2 ∧ b.row2 ≤ b.row1 + 190)) ∧
    e.2.Pairwise (fun a b => a.row2 < b.row1 ∨ b.row2 < a.row1 ∨ a.col2 < b.col1 ∨ b.col2 < a.col1) ∧
    1000 * (e.2.map fun b => (b.row2 - b.row1 + 1) * (b.col2 - b.col1 + 1)).sum < 17 * (4096 * 2048) := by
  decide +kernel

/-- Array pixel `(r, c)` is a pixel of a box whose rows and columns are numbered from one
(specification). -/
def InOneIndexed (bumps : List Bump) (r c : Nat) : Prop :=
  ∃ b ∈ bumps, b.row1 ≤ r + 1 ∧ r + 1 ≤ b.row2 ∧ b.col1 ≤ c + 1 ∧ c + 1 ≤ b.col2

/-- C38, pixels: the masked pixels are not those of the one-indexed boxes.  On CCD 1 the corner
pixel is in a box but stays unmasked, and pixel `(88, 5)` is in no box but is masked. -/
theorem C38_pixels_fails : ∃ bumps, (1, bumps) ∈ tapeBumps ∧
    InOneIndexed bumps 0 0 ∧
    ((setTapeBumps bumps ⟨4096, 2048, fun _ _ => 0⟩).px 0 0).getLsbD 14 = false ∧
    ¬ InOneIndexed bumps 88 5 ∧
    ((setTapeBumps bumps ⟨4096, 2048, fun _ _ => 0⟩).px 88 5).getLsbD 14 = true := by
  refine ⟨_, List.mem_cons_self, ?_, by decide, ?_, by decide⟩
  · exact ⟨_, List.mem_cons_self, by decide⟩
  · unfold InOneIndexed
    decide

/-- C38, what does hold: the masked pixels are the pixels of the one-indexed boxes moved by one
row and one column.  Missing: they are not the boxes' own pixels. -/
theorem C38_pixels_partial (ccd : Nat) (bumps : List Bump) (h : (ccd, bumps) ∈ tapeBumps)
    (m : Img (BitVec 32)) (r c : Nat) :
    (InOneIndexed bumps r c → ((setTapeBumps bumps m).px (r + 1) (c + 1)).getLsbD 14 = true ∧
      ((setTapeBumps bumps m).px (r + 1) (c + 1)).getLsbD 11 = false) ∧
    (¬ InOneIndexed bumps r c →
      (setTapeBumps bumps m).px (r + 1) (c + 1) = m.px (r + 1) (c + 1)) ∧
    (setTapeBumps bumps m).px 0 c = m.px 0 c ∧ (setTapeBumps bumps m).px r 0 = m.px r 0 := by
  obtain ⟨h1, h2, h3⟩ := setTapeBumps_masked bumps (tapeBumps_flags _ h) m
  have hb := (C38_table.2 _ h).2
  have same : ∀ r c, ¬ InBoxes bumps r c → (setTapeBumps bumps m).px r c = m.px r c := by
    intro r c hn
    apply BitVec.eq_of_getLsbD_eq
    intro k _
    exact (h3 r c k).2 hn
  refine ⟨fun hi => ?_, fun hn => same _ _ hn, ?_, ?_⟩
  · have hi' : InBoxes bumps (r + 1) (c + 1) := hi
    exact ⟨by simpa using (h3 (r + 1) (c + 1) 14).1 hi', by simpa using (h3 (r + 1) (c + 1) 11).1 hi'⟩
  · apply same
    rintro ⟨b, hbm, h4⟩
    have := hb b hbm
    omega
  · apply same
    rintro ⟨b, hbm, h4⟩
    have := hb b hbm
    omega

end
/-- `C38_pixels_partial` for the first CCD of the table. -/
example (m : Img (BitVec 32)) := C38_pixels_partial 1 _ (List.mem_cons_self ..) m 100 200

end Pizza
