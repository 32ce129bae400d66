import Verif.Model.Schedule
import Verif.Spec.Schedule
import Verif.Lemmas.SEObject
import Mathlib.Tactic.Linarith

/-!
C58 (ordering), C59 (chunks), C71 and C72 (seeds).
-/

namespace Pizza

/-! ### C58 -/

theorem curveIndex_range {v : ℚ} {n : Nat} {k : ℤ} (h : curveIndex v n = .ok k) : 0 ≤ k ∧ k ≤ 7 := by
  unfold curveIndex at h
  split at h
  · cases h
  · rw [← Except.ok.inj h]
    unfold phOrder
    constructor <;> omega

/-- C58: whatever the WCS, the curve and the sorting of equal distances are, the ordered list has every
requested slice as often as before: the order is a permutation. -/
theorem C58_permutation (sky : Nat → Except Err (ℚ × ℚ)) (dist : ℤ → ℤ → Nat)
    (argsort : List Nat → List Nat) (hs : IsArgsort argsort) (nrow ncol : Nat) (slices out : List Nat)
    (h : orderSlices sky dist argsort nrow ncol slices = .ok out) :
    out.Perm slices ∧ (slices.Nodup → out.Nodup ∧ ∀ i, i ∈ out ↔ i ∈ slices) := by
  unfold orderSlices at h
  obtain ⟨ds, h1, h2⟩ := bind_eq_ok.1 h
  have hl : ds.length = slices.length := (mapM_ok_inv h1).1
  have hp : out.Perm slices := by
    rw [← Except.ok.inj h2]
    refine ((hs ds).1.map fun k => slices.getD k 0).trans ?_
    have : (List.range ds.length).map (fun k => slices.getD k 0) = slices := by
      rw [hl]
      apply List.ext_getElem (by simp)
      intro i h1 h2
      simp [List.getElem?_eq_getElem h2]
    rw [this]
  exact ⟨hp, fun hn => ⟨hp.nodup_iff.2 hn, fun i => hp.mem_iff⟩⟩

theorem InStrip.unique {n : Nat} {v : ℚ} {k k' : ℤ} (hn : 1 ≤ n) (h : InStrip n v k) (h' : InStrip n v k') :
    k = k' := by
  have hn' : (0 : ℚ) < n := by exact_mod_cast hn
  have key : ∀ {a b : ℤ}, InStrip n v a → InStrip n v b → ¬ a < b := by
    intro a b ha hb hab
    have h1 := hb.2.2.1 (by have := ha.1; omega)
    have h2 := ha.2.2.2 (by have := hb.2.1; omega)
    have h3 : ((a : ℚ) + 1) ≤ b := by exact_mod_cast hab
    have h4 := mul_le_mul_of_nonneg_right h3 hn'.le
    linarith
  have := key h h'
  have := key h' h
  omega

theorem strip_of_trunc (v : ℚ) (n : Nat) (hn : 1 ≤ n) :
    InStrip n v (min (max (truncQ (v / ((n : ℚ) / (phOrder : ℚ)))) 0) (phOrder - 1)) := by
  have hn' : (0 : ℚ) < n := by exact_mod_cast hn
  have hq : v / ((n : ℚ) / (phOrder : ℚ)) = 8 * v / n := by
    rw [show (phOrder : ℚ) = 8 by norm_num [phOrder]]; field_simp
  rw [hq]
  unfold phOrder InStrip
  generalize hz : truncQ (8 * v / n) = z
  have hlo : 0 < z → (z : ℚ) * n ≤ 8 * v := by
    intro hp
    unfold truncQ at hz
    split at hz
    · rw [← le_div_iff₀ hn', ← hz]; exact Int.floor_le _
    · rename_i hneg
      have : ⌈8 * v / n⌉ ≤ 0 := Int.ceil_le.2 (by push_cast; linarith)
      omega
  have hhi : 8 * v < (max (z : ℚ) 0 + 1) * n := by
    rw [← div_lt_iff₀ hn']
    unfold truncQ at hz
    split at hz
    · rw [← hz]
      exact lt_of_lt_of_le (Int.lt_floor_add_one _) (by gcongr; exact le_max_left _ _)
    · rename_i hneg
      have : (0 : ℚ) ≤ max (z : ℚ) 0 := le_max_right _ _
      linarith
  refine ⟨by omega, by omega, ?_, ?_⟩
  · intro h
    have hz0 : 0 < z := by omega
    refine le_trans (mul_le_mul_of_nonneg_right ?_ hn'.le) (hlo hz0)
    exact_mod_cast (by omega : min (max z 0) (8 - 1) ≤ z)
  · intro h
    have : min (max z 0) (8 - 1) = max z 0 := by omega
    rw [this]
    push_cast
    exact hhi

/-- C58: the order follows the curve: slices are sorted by the distance along the curve of the cell of
an 8 by 8 grid over the image that holds the slice (columns first), and ordering succeeds whenever
the WCS does and the image is not empty. -/
theorem C58_sorted (sky : Nat → Except Err (ℚ × ℚ)) (dist : ℤ → ℤ → Nat)
    (argsort : List Nat → List Nat) (hs : IsArgsort argsort) (nrow ncol : Nat) (slices : List Nat)
    (hr : 1 ≤ nrow) (hc : 1 ≤ ncol) (hw : ∀ i ∈ slices, ∃ p, sky i = .ok p) :
    ∃ out, orderSlices sky dist argsort nrow ncol slices = .ok out ∧
      out.Pairwise fun i j => ∀ coli rowi colj rowj, sky i = .ok (coli, rowi) → sky j = .ok (colj, rowj) →
        ∀ xi yi xj yj, InStrip ncol coli xi → InStrip nrow rowi yi → InStrip ncol colj xj →
          InStrip nrow rowj yj → dist xi yi ≤ dist xj yj := by
  have hnr : ¬ nrow = 0 := by omega
  have hnc : ¬ ncol = 0 := by omega
  let P : Nat → ℚ × ℚ := fun i => match sky i with | .ok p => p | .error _ => (0, 0)
  let X : ℚ → Nat → ℤ := fun v n => min (max (truncQ (v / ((n : ℚ) / (phOrder : ℚ)))) 0) (phOrder - 1)
  let A : Nat → ℤ × ℤ := fun i => (X (P i).1 ncol, X (P i).2 nrow)
  have hd : ∀ i ∈ slices, curveDistance sky dist nrow ncol i = .ok (dist (A i).1 (A i).2) := by
    intro i hi
    obtain ⟨p, hp⟩ := hw i hi
    simp only [curveDistance, curveIndex, hp, ok_bind, if_neg hnr, if_neg hnc, A, P, X]
    rfl
  have hm : slices.mapM (curveDistance sky dist nrow ncol) = .ok (slices.map fun i => dist (A i).1 (A i).2) := by
    clear hw
    induction slices with
    | nil => rfl
    | cons a l ih =>
      rw [List.mapM_cons, hd a (by simp), ok_bind, ih (fun i hi => hd i (by simp [hi])), ok_bind]
      rfl
  refine ⟨_, by unfold orderSlices; rw [hm, ok_bind]; rfl, ?_⟩
  have hA : ∀ i col row x y, sky i = .ok (col, row) → InStrip ncol col x → InStrip nrow row y →
      A i = (x, y) := by
    intro i col row x y hsky hx hy
    simp only [A, P, X, hsky]
    rw [InStrip.unique hc (strip_of_trunc col ncol hc) hx, InStrip.unique hr (strip_of_trunc row nrow hr) hy]
  obtain ⟨h1, h2⟩ := hs (slices.map fun i => dist (A i).1 (A i).2)
  have h3 : (((argsort (slices.map fun i => dist (A i).1 (A i).2)).map fun k => slices.getD k 0)).Pairwise
      fun i j => dist (A i).1 (A i).2 ≤ dist (A j).1 (A j).2 := by
    rw [List.pairwise_map] at h2 ⊢
    refine h2.imp_of_mem ?_
    intro a b ha hb hab
    have ha' := List.mem_range.1 (h1.mem_iff.1 ha)
    have hb' := List.mem_range.1 (h1.mem_iff.1 hb)
    rw [List.length_map] at ha' hb'
    simpa [List.getD_eq_getElem?_getD, ha', hb'] using hab
  refine h3.imp ?_
  intro i j hij ci ri cj rj hi hj xi yi xj yj h1 h2 h3 h4
  rw [hA i ci ri xi yi hi h1 h2, hA j cj rj xj yj hj h3 h4] at hij
  exact hij

/-- Every position lies in exactly one strip. -/
theorem C58_strip_exists_unique (size : Nat) (v : ℚ) (h : 1 ≤ size) : ∃! k, InStrip size v k :=
  ⟨_, strip_of_trunc v size h, fun _ hk => InStrip.unique h hk (strip_of_trunc v size h)⟩

/-! ### C59 -/

theorem nSub_covers (n c : Nat) (hc : 1 ≤ c) : n ≤ c * nSub n c := by
  unfold nSub
  simp only
  split
  · rename_i h
    have := Nat.div_add_mod n c
    have := Nat.mod_lt n (by omega : c > 0)
    rw [Nat.mul_add]
    omega
  · rename_i h
    rw [Nat.mul_comm]; omega

theorem chunkJobs_eq (slices seeds : List Nat) (c w : Nat) :
    chunkJobs slices seeds c w =
      (((slices.drop (w * nSub slices.length c)).take (nSub slices.length c)).map
        fun i => (i, seeds.getD i 0)) := by
  unfold chunkJobs
  simp only
  generalize nSub slices.length c = m
  generalize hk : w * m = k
  have key : ∀ (m : Nat), ((List.range m).filterMap fun s =>
      if k + s < slices.length then
        some (slices.getD (k + s) 0, seeds.getD (slices.getD (k + s) 0) 0) else none) =
      ((slices.drop k).take m).map fun i => (i, seeds.getD i 0) := by
    intro m
    induction m with
    | zero => simp
    | succ m ih =>
      rw [List.range_succ, List.filterMap_append, ih]
      by_cases hlt : k + m < slices.length
      · rw [List.take_add_one, List.getElem?_drop, List.getElem?_eq_getElem hlt]
        simp [hlt]
      · rw [List.take_add_one, List.getElem?_drop, List.getElem?_eq_none (by omega)]
        simp [hlt]
  exact key m

theorem flatten_chunks {α : Type} (l : List α) (m : Nat) (c : Nat) :
    ((List.range c).map fun w => (l.drop (w * m)).take m).flatten = l.take (c * m) := by
  induction c with
  | zero => simp
  | succ c ih =>
    rw [List.range_succ, List.map_append, List.flatten_append, ih]
    simp only [List.map_cons, List.map_nil, List.flatten_cons, List.flatten_nil, List.append_nil]
    rw [Nat.succ_mul, List.take_add]

/-- C59: for every positive number of chunks, the chunks are as many as asked for and, put one after
the other, are the ordered slices with their seeds: every slice is in one chunk only, chunks are
consecutive runs, and the seed of slice `i` is entry `i` of the seed list. -/
theorem C59_partition (slices seeds : List Nat) (nChunks : Nat) (hc : 1 ≤ nChunks) :
    ∃ jobs, allChunks slices seeds nChunks = .ok jobs ∧ jobs.length = nChunks ∧
      jobs.flatten = slices.map (fun i => (i, seeds.getD i 0)) := by
  refine ⟨_, if_neg (by omega), by simp, ?_⟩
  have : (List.range nChunks).map (chunkJobs slices seeds nChunks) =
      ((List.range nChunks).map fun w =>
        ((slices.map fun i => (i, seeds.getD i 0)).drop (w * nSub slices.length nChunks)).take
          (nSub slices.length nChunks)) := by
    apply List.map_congr_left
    intro w _
    rw [chunkJobs_eq, List.map_take, List.map_drop]
  rw [this, flatten_chunks, List.take_of_length_le]
  rw [List.length_map]
  exact nSub_covers _ _ hc

/-- C59: no chunk is longer than the ceiling of slices per chunk. -/
theorem C59_balanced (slices seeds : List Nat) (nChunks : Nat) (hc : 1 ≤ nChunks)
    (jobs : List (List (Nat × Nat))) (h : allChunks slices seeds nChunks = .ok jobs) :
    ∀ j ∈ jobs, nChunks * j.length < slices.length + nChunks := by
  unfold allChunks at h
  rw [if_neg (by omega)] at h
  rw [← Except.ok.inj h]
  intro j hj
  obtain ⟨w, _, rfl⟩ := List.mem_map.1 hj
  rw [chunkJobs_eq, List.length_map, List.length_take]
  have : nChunks * nSub slices.length nChunks < slices.length + nChunks := by
    unfold nSub
    simp only
    split
    · rename_i h
      rw [Nat.mul_add, Nat.mul_comm nChunks]; omega
    · have := Nat.div_mul_le_self slices.length nChunks
      rw [Nat.mul_comm nChunks]; omega
  exact lt_of_le_of_lt (Nat.mul_le_mul_left _ (min_le_left _ _)) this

/-- C59: without chunks the run fails. -/
theorem C59_zero (slices seeds : List Nat) : allChunks slices seeds 0 = .error .zeroDivision := rfl

/-! ### C71, C72 -/

variable {σ : Type}

theorem many_eq (r : RandInt σ) (lo hi n : Nat) (s : σ) (rest : List (Nat × Nat)) :
    (r.many lo hi n s).1.length = n ∧
    (∀ k < n, (r.many lo hi n s).1[k]? = nthDraw r.draw (List.replicate n (lo, hi) ++ rest) k s) ∧
    ∀ k, nthDraw r.draw (List.replicate n (lo, hi) ++ rest) (n + k) s =
      nthDraw r.draw rest k (r.many lo hi n s).2 := by
  induction n generalizing s with
  | zero => simp [RandInt.many]
  | succ n ih =>
    obtain ⟨i1, i2, i3⟩ := ih (r.draw lo hi s).2
    refine ⟨by simp [RandInt.many, i1], ?_, ?_⟩
    · intro k hk
      cases k with
      | zero => simp [RandInt.many, nthDraw, List.replicate_succ]
      | succ k => simpa [RandInt.many, nthDraw, List.replicate_succ] using i2 k (by omega)
    · intro k
      have : n + 1 + k = (n + k) + 1 := by omega
      rw [this]
      simpa [RandInt.many, nthDraw, List.replicate_succ] using i3 k

/-- The bounds of the draws of a run, in order: one per slice, then per image one per noise field and
one for the mask. -/
def drawBounds (nSlices nSrc nExtra : Nat) : List (Nat × Nat) :=
  List.replicate nSlices (1, 2 ^ 32 - 1) ++ List.replicate (nSrc * (nExtra + 2)) (1, 2 ^ 30)

theorem srcSeeds_eq (r : RandInt σ) (nExtra n : Nat) (s : σ) :
    (srcSeeds r nExtra n s).length = n ∧
    ∀ k < n, ∃ e, (srcSeeds r nExtra n s)[k]? = some e ∧ e.noise.length = nExtra + 1 ∧
      (∀ j < nExtra + 1, e.noise[j]? =
        nthDraw r.draw (List.replicate (n * (nExtra + 2)) (1, 2 ^ 30)) (k * (nExtra + 2) + j) s) ∧
      some e.piff = nthDraw r.draw (List.replicate (n * (nExtra + 2)) (1, 2 ^ 30))
        (k * (nExtra + 2) + (nExtra + 1)) s := by
  induction n generalizing s with
  | zero => simp [srcSeeds]
  | succ n ih =>
    have hsplit : List.replicate ((n + 1) * (nExtra + 2)) ((1 : Nat), 2 ^ 30) =
        List.replicate (nExtra + 1) (1, 2 ^ 30) ++
          ((1, 2 ^ 30) :: List.replicate (n * (nExtra + 2)) (1, 2 ^ 30)) := by
      rw [← List.replicate_succ, List.replicate_append_replicate]
      congr 1; ring
    obtain ⟨m1, m2, m3⟩ := many_eq r 1 (2 ^ 30) (nExtra + 1) s
      ((1, 2 ^ 30) :: List.replicate (n * (nExtra + 2)) (1, 2 ^ 30))
    obtain ⟨i1, i2⟩ := ih (r.draw 1 (2 ^ 30) (r.many 1 (2 ^ 30) (nExtra + 1) s).2).2
    refine ⟨congrArg Nat.succ i1, ?_⟩
    intro k hk
    cases k with
    | zero =>
      refine ⟨_, rfl, m1, ?_, ?_⟩
      · intro j hj
        rw [hsplit, Nat.zero_mul, Nat.zero_add]
        exact m2 j hj
      · rw [hsplit, Nat.zero_mul, Nat.zero_add]
        exact (m3 0).symm
    | succ k =>
      obtain ⟨e, e1, e2, e3, e4⟩ := i2 k (by omega)
      have shift : ∀ j, nthDraw r.draw (List.replicate ((n + 1) * (nExtra + 2)) (1, 2 ^ 30))
          ((k + 1) * (nExtra + 2) + j) s =
          nthDraw r.draw (List.replicate (n * (nExtra + 2)) (1, 2 ^ 30)) (k * (nExtra + 2) + j)
            (r.draw 1 (2 ^ 30) (r.many 1 (2 ^ 30) (nExtra + 1) s).2).2 := by
        intro j
        have : (k + 1) * (nExtra + 2) + j = (nExtra + 1) + (k * (nExtra + 2) + j + 1) := by ring
        rw [hsplit, this, m3]
        rfl
      refine ⟨e, by simpa [srcSeeds] using e1, e2, fun j hj => ?_, ?_⟩
      · rw [shift, e3 j hj]
      · rw [shift, e4]

/-- C71: the seed of slice `i` is draw number `i` of the stream of the main seed, the seed of noise
field `j` of image `k` is draw number `nSlices + k (nExtra + 2) + j`, and the seed for its Piff mask
follows; nothing else enters. -/
theorem C71_seeds (r : RandInt σ) (s : σ) (nSlices nSrc nExtra : Nat) :
    (makeSeeds r s nSlices nSrc nExtra).slices.length = nSlices ∧
    (makeSeeds r s nSlices nSrc nExtra).srcs.length = nSrc ∧
    (∀ i < nSlices, (makeSeeds r s nSlices nSrc nExtra).slices[i]? =
      nthDraw r.draw (drawBounds nSlices nSrc nExtra) i s) ∧
    ∀ k < nSrc, ∃ e, (makeSeeds r s nSlices nSrc nExtra).srcs[k]? = some e ∧
      e.noise.length = nExtra + 1 ∧
      (∀ j < nExtra + 1, e.noise[j]? =
        nthDraw r.draw (drawBounds nSlices nSrc nExtra) (nSlices + (k * (nExtra + 2) + j)) s) ∧
      some e.piff =
        nthDraw r.draw (drawBounds nSlices nSrc nExtra) (nSlices + (k * (nExtra + 2) + (nExtra + 1))) s := by
  obtain ⟨m1, m2, m3⟩ := many_eq r 1 (2 ^ 32 - 1) nSlices s
    (List.replicate (nSrc * (nExtra + 2)) (1, 2 ^ 30))
  obtain ⟨s1, s2⟩ := srcSeeds_eq r nExtra nSrc (r.many 1 (2 ^ 32 - 1) nSlices s).2
  refine ⟨m1, s1, m2, fun k hk => ?_⟩
  obtain ⟨e, e1, e2, e3, e4⟩ := s2 k hk
  refine ⟨e, e1, e2, fun j hj => ?_, ?_⟩
  · rw [e3 j hj]; exact (m3 _).symm
  · rw [e4]; exact (m3 _).symm

/-- C71: the seeds of the chunks do not depend on which slices are processed, in which order and in
how many chunks: slice `i` always gets draw number `i`. -/
theorem C71_chunk_seeds (r : RandInt σ) (s : σ) (nSlices nSrc nExtra nChunks : Nat)
    (slices : List Nat) (hs : ∀ i ∈ slices, i < nSlices) (hc : 1 ≤ nChunks)
    (jobs : List (List (Nat × Nat)))
    (h : allChunks slices (makeSeeds r s nSlices nSrc nExtra).slices nChunks = .ok jobs) :
    ∀ j ∈ jobs, ∀ p ∈ j, p.1 ∈ slices ∧
      some p.2 = nthDraw r.draw (drawBounds nSlices nSrc nExtra) p.1 s := by
  intro j hj p hp
  obtain ⟨jobs', e1, _, e2⟩ := C59_partition slices (makeSeeds r s nSlices nSrc nExtra).slices nChunks hc
  rw [h] at e1
  have e1 := Except.ok.inj e1
  subst e1
  have hmem : p ∈ jobs.flatten := List.mem_flatten.2 ⟨j, hj, hp⟩
  rw [e2] at hmem
  obtain ⟨i, hi, rfl⟩ := List.mem_map.1 hmem
  obtain ⟨c1, _, c2, _⟩ := C71_seeds r s nSlices nSrc nExtra
  refine ⟨hi, ?_⟩
  rw [← c2 i (hs i hi)]
  have hlt : i < (makeSeeds r s nSlices nSrc nExtra).slices.length := by rw [c1]; exact hs i hi
  simp [List.getD_eq_getElem?_getD, hlt]

theorem nthDraw_mem (draw : Nat → Nat → σ → Nat × σ) (P : Nat → Prop) (l : List (Nat × Nat))
    (hl : ∀ b ∈ l, ∀ s, P (draw b.1 b.2 s).1) (k : Nat) (s : σ) (v : Nat)
    (h : nthDraw draw l k s = some v) : P v := by
  induction l generalizing k s with
  | nil => cases h
  | cons b l ih =>
    cases k with
    | zero => simp only [nthDraw, Option.some.injEq] at h; rw [← h]; exact hl b (by simp) s
    | succ k => exact ih (fun b hb => hl b (by simp [hb])) k _ h

/-- C71: if `randint` keeps to its bounds, all seeds are valid seeds of `RandomState`
(0 to 2^32 - 1) and positive. -/
theorem C71_valid (r : RandInt σ) (hr : ∀ lo hi s, lo < hi → lo ≤ (r.draw lo hi s).1 ∧ (r.draw lo hi s).1 < hi)
    (s : σ) (nSlices nSrc nExtra : Nat) :
    (∀ v ∈ (makeSeeds r s nSlices nSrc nExtra).slices, 1 ≤ v ∧ v < 2 ^ 32) ∧
    ∀ e ∈ (makeSeeds r s nSlices nSrc nExtra).srcs,
      (∀ v ∈ e.noise, 1 ≤ v ∧ v < 2 ^ 32) ∧ 1 ≤ e.piff ∧ e.piff < 2 ^ 32 := by
  obtain ⟨c1, c2, c3, c4⟩ := C71_seeds r s nSlices nSrc nExtra
  have key : ∀ k v, nthDraw r.draw (drawBounds nSlices nSrc nExtra) k s = some v → 1 ≤ v ∧ v < 2 ^ 32 := by
    intro k v
    apply nthDraw_mem r.draw fun v => 1 ≤ v ∧ v < 2 ^ 32
    intro b hb s
    unfold drawBounds at hb
    rcases List.mem_append.1 hb with hb | hb
    · rw [(List.mem_replicate.1 hb).2]
      have := hr 1 (2 ^ 32 - 1) s (by norm_num)
      simp only at this ⊢; omega
    · rw [(List.mem_replicate.1 hb).2]
      have := hr 1 (2 ^ 30) s (by norm_num)
      simp only at this ⊢; omega
  refine ⟨?_, ?_⟩
  · intro v hv
    obtain ⟨i, hi, rfl⟩ := List.getElem_of_mem hv
    have := c3 i (by rw [← c1]; exact hi)
    rw [List.getElem?_eq_getElem hi] at this
    exact key _ _ this.symm
  · intro e he
    obtain ⟨k, hk, rfl⟩ := List.getElem_of_mem he
    obtain ⟨e', e1, e2, e3, e4⟩ := c4 k (by rw [← c2]; exact hk)
    rw [List.getElem?_eq_getElem hk] at e1
    have e1 := Option.some.inj e1
    rw [e1]
    refine ⟨?_, key _ _ e4.symm⟩
    intro v hv
    obtain ⟨j, hj, rfl⟩ := List.getElem_of_mem hv
    have := e3 j (by rw [← e2]; exact hj)
    rw [List.getElem?_eq_getElem hj] at this
    exact key _ _ this.symm

/-- C72: the seeds of the slices, and the seed of the primary noise field of the first image, do not
depend on the number of extra noise images.  What is missing: the other images (see the
counterexample). -/
theorem C72_primary_partial (r : RandInt σ) (s : σ) (nSlices nSrc nExtra nExtra' : Nat) :
    (makeSeeds r s nSlices nSrc nExtra).slices = (makeSeeds r s nSlices nSrc nExtra').slices ∧
    ((makeSeeds r s nSlices nSrc nExtra).srcs[0]?).map (fun e => e.noise[0]?) =
      ((makeSeeds r s nSlices nSrc nExtra').srcs[0]?).map fun e => e.noise[0]? := by
  refine ⟨rfl, ?_⟩
  cases nSrc with
  | zero => rfl
  | succ n => simp [makeSeeds, srcSeeds, RandInt.many]

/-- C72: with another number of extra noise images the primary noise field of the second image gets
another seed. -/
theorem C72_primary_fails : ∃ (r : RandInt Nat) (nSlices nSrc : Nat) (e e' : SrcSeeds),
    (∀ lo hi s, lo < hi → lo ≤ (r.draw lo hi s).1 ∧ (r.draw lo hi s).1 < hi) ∧
    (makeSeeds r 0 nSlices nSrc 0).srcs[1]? = some e ∧ (makeSeeds r 0 nSlices nSrc 1).srcs[1]? = some e' ∧
    e.noise[0]? ≠ e'.noise[0]? := by
  refine ⟨⟨fun lo hi s => (lo + s % (hi - lo), s + 1)⟩, 1, 2, ⟨[4], 5⟩, ⟨[5, 6], 7⟩, ?_, by decide, by decide, by decide⟩
  intro lo hi s h
  simp only
  have := Nat.mod_lt s (by omega : hi - lo > 0)
  omega

/-! ### cases -/

/-- A sort that meets the specification. -/
def exArgsort (l : List Nat) : List Nat :=
  (List.range l.length).insertionSort fun a b => l.getD a 0 ≤ l.getD b 0

theorem exArgsort_spec : IsArgsort exArgsort := by
  intro l
  refine ⟨List.perm_insertionSort _ _, ?_⟩
  rw [List.pairwise_map]
  have : Std.Total fun a b => l.getD a 0 ≤ l.getD b 0 := ⟨fun a b => le_total _ _⟩
  have : IsTrans Nat fun a b => l.getD a 0 ≤ l.getD b 0 := ⟨fun a b c h h' => le_trans h h'⟩
  exact List.pairwise_insertionSort (fun a b => l.getD a 0 ≤ l.getD b 0) _

/-- Ordering of five slices by a made-up curve; chunks of seven slices for three workers. -/
example : IsArgsort exArgsort ∧
    orderSlices (fun i => .ok ((10 * i : ℚ), 80 - 10 * (i : ℚ))) (fun x y => (x + 8 * y).toNat) exArgsort 80 80
      [1, 2, 3, 4, 5] = .ok [5, 4, 3, 2, 1] ∧
    allChunks [4, 3, 9, 0, 1, 2, 5] [10, 11, 12, 13, 14, 15, 16, 17, 18, 19] 3 =
      .ok [[(4, 14), (3, 13), (9, 19)], [(0, 10), (1, 11), (2, 12)], [(5, 15)]] :=
  ⟨exArgsort_spec, by decide +kernel, by decide +kernel⟩

/-- `C58_permutation` on the same five slices. -/
example := C58_permutation (fun i => .ok ((10 * i : ℚ), 80 - 10 * (i : ℚ))) (fun x y => (x + 8 * y).toNat)
  exArgsort exArgsort_spec 80 80 [1, 2, 3, 4, 5] [5, 4, 3, 2, 1] (by decide +kernel)

/-- `C58_sorted` on the same five slices. -/
example := C58_sorted (fun i => .ok ((10 * i : ℚ), 80 - 10 * (i : ℚ))) (fun x y => (x + 8 * y).toNat)
  exArgsort exArgsort_spec 80 80 [1, 2, 3, 4, 5] (by norm_num) (by norm_num) (fun _ _ => ⟨_, rfl⟩)

/-- `C58_strip_exists_unique` for a position in the last strip. -/
example := C58_strip_exists_unique 80 79.5 (by norm_num)

/-- `C59_partition` and `C59_balanced` for seven slices and three workers. -/
example : ∃ jobs, allChunks [4, 3, 9, 0, 1, 2, 5] [10, 11, 12, 13, 14, 15, 16, 17, 18, 19] 3 = .ok jobs ∧
    jobs.length = 3 ∧ ∀ j ∈ jobs, 3 * j.length < 7 + 3 := by
  obtain ⟨jobs, h, hl, _⟩ := C59_partition [4, 3, 9, 0, 1, 2, 5]
    [10, 11, 12, 13, 14, 15, 16, 17, 18, 19] 3 (by norm_num)
  exact ⟨jobs, h, hl, C59_balanced _ _ 3 (by norm_num) jobs h⟩

/-- `C71_chunk_seeds` for a counter as generator, ten slices, two sources and a run over three. -/
example : ∃ jobs, allChunks [4, 9, 0]
      (makeSeeds (σ := Nat) ⟨fun lo _ s => (lo + s, s + 1)⟩ 5 10 2 1).slices 2 = .ok jobs ∧
    ∀ j ∈ jobs, ∀ p ∈ j, p.1 ∈ [4, 9, 0] := by
  obtain ⟨jobs, h, _⟩ := C59_partition [4, 9, 0]
    (makeSeeds (σ := Nat) ⟨fun lo _ s => (lo + s, s + 1)⟩ 5 10 2 1).slices 2 (by norm_num)
  exact ⟨jobs, h, fun j hj p hp => (C71_chunk_seeds _ 5 10 2 1 2 [4, 9, 0] (by decide) (by norm_num) jobs
    h j hj p hp).1⟩

/-- `C71_valid` for a generator that returns the smallest number allowed. -/
example := C71_valid (σ := Nat) ⟨fun lo _ s => (lo, s + 1)⟩ (fun _ _ _ h => ⟨le_rfl, h⟩) 5 10 2 1

end Pizza
