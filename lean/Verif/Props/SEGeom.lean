import Verif.Lemmas.Basic

/-!
Properties C04 (coordinates), C06 (rough sky cut), C07 (slice bounds), C08 (slice reading),
C09 (PSF stamp placement).
-/

namespace Pizza

/-! ### C04 -/

/-- C04, scalar calls: the WCS is evaluated at the position plus the offset, and sky2image
removes the offset. -/
theorem C04_scalar (w : SEWcs) (x y ra dec : ℚ) :
    w.image2sky (.scalar x) (.scalar y) =
      .ok (.scalar (w.fwd (x + w.offset) (y + w.offset)).1,
           .scalar (w.fwd (x + w.offset) (y + w.offset)).2) ∧
    w.sky2image (.scalar ra) (.scalar dec) =
      .ok (.scalar ((w.inv ra dec).1 - w.offset), .scalar ((w.inv ra dec).2 - w.offset)) := by
  constructor <;> rfl

/-- C04, array calls are the element-wise scalar calls. -/
theorem C04_array (w : SEWcs) (xs ys : List ℚ) (h : xs.length = ys.length) :
    (∃ ras decs, w.image2sky (.arr xs) (.arr ys) = .ok (.arr ras, .arr decs) ∧
      ras.length = xs.length ∧ decs.length = xs.length ∧
      ∀ i (_ : i < xs.length), ∃ x y ra dec, xs[i]? = some x ∧ ys[i]? = some y ∧
        ras[i]? = some ra ∧ decs[i]? = some dec ∧
        w.image2sky (.scalar x) (.scalar y) = .ok (.scalar ra, .scalar dec)) ∧
    (∃ as bs, w.sky2image (.arr xs) (.arr ys) = .ok (.arr as, .arr bs) ∧
      as.length = xs.length ∧ bs.length = xs.length ∧
      ∀ i (_ : i < xs.length), ∃ x y a b, xs[i]? = some x ∧ ys[i]? = some y ∧
        as[i]? = some a ∧ bs[i]? = some b ∧
        w.sky2image (.scalar x) (.scalar y) = .ok (.scalar a, .scalar b)) := by
  have key : ∀ f : ℚ → ℚ → ℚ × ℚ, ∃ as bs, coordCall f (.arr xs) (.arr ys) = .ok (.arr as, .arr bs) ∧
      as.length = xs.length ∧ bs.length = xs.length ∧
      ∀ i (_ : i < xs.length), ∃ x y a b, xs[i]? = some x ∧ ys[i]? = some y ∧
        as[i]? = some a ∧ bs[i]? = some b ∧
        coordCall f (.scalar x) (.scalar y) = .ok (.scalar a, .scalar b) := by
    intro f
    refine ⟨(List.zipWith f xs ys).map Prod.fst, (List.zipWith f xs ys).map Prod.snd, ?_, ?_, ?_, ?_⟩
    · simp [coordCall, Arg.ndim, Arg.flat, broadcast, h]
    · simp [h]
    · simp [h]
    · intro i hi
      have hi' : i < ys.length := h ▸ hi
      refine ⟨xs[i], ys[i], (f xs[i] ys[i]).1, (f xs[i] ys[i]).2, by simp [hi], by simp [hi'], ?_, ?_, rfl⟩
      · simp [hi, hi']
      · simp [hi, hi']
  exact ⟨key w.fwd0, key w.inv0⟩

/-- `C04_array` on three positions. -/
example (w : SEWcs) := C04_array w [2, 5, 1/2] [-1, 0, 7] rfl

/-- C04, an array with one element goes with every element of the other array; other lengths that differ are
refused. -/
theorem C04_broadcast (w : SEWcs) (xs ys : List ℚ) (h : xs.length ≠ ys.length) :
    (∀ x, xs = [x] → ∃ ras decs as bs, w.image2sky (.arr xs) (.arr ys) = .ok (.arr ras, .arr decs) ∧
      w.sky2image (.arr xs) (.arr ys) = .ok (.arr as, .arr bs) ∧
      ras.length = ys.length ∧ decs.length = ys.length ∧ as.length = ys.length ∧ bs.length = ys.length ∧
      ∀ (i : Nat) y, ys[i]? = some y → ∃ ra dec a b, ras[i]? = some ra ∧ decs[i]? = some dec ∧ as[i]? = some a ∧
        bs[i]? = some b ∧ w.image2sky (.scalar x) (.scalar y) = .ok (.scalar ra, .scalar dec) ∧
        w.sky2image (.scalar x) (.scalar y) = .ok (.scalar a, .scalar b)) ∧
    (∀ y, ys = [y] → ∃ ras decs as bs, w.image2sky (.arr xs) (.arr ys) = .ok (.arr ras, .arr decs) ∧
      w.sky2image (.arr xs) (.arr ys) = .ok (.arr as, .arr bs) ∧
      ras.length = xs.length ∧ decs.length = xs.length ∧ as.length = xs.length ∧ bs.length = xs.length ∧
      ∀ (i : Nat) x, xs[i]? = some x → ∃ ra dec a b, ras[i]? = some ra ∧ decs[i]? = some dec ∧ as[i]? = some a ∧
        bs[i]? = some b ∧ w.image2sky (.scalar x) (.scalar y) = .ok (.scalar ra, .scalar dec) ∧
        w.sky2image (.scalar x) (.scalar y) = .ok (.scalar a, .scalar b)) ∧
    (xs.length ≠ 1 → ys.length ≠ 1 → w.image2sky (.arr xs) (.arr ys) = .error .valueError ∧
      w.sky2image (.arr xs) (.arr ys) = .error .valueError) := by
  have call : ∀ (f : ℚ → ℚ → ℚ × ℚ) (xs ys : List ℚ), coordCall f (.arr xs) (.arr ys) =
      (broadcast f xs ys >>= fun out => pure (.arr (out.map Prod.fst), .arr (out.map Prod.snd))) := by
    intro f xs ys
    simp [coordCall, Arg.ndim, Arg.flat]
  have left : ∀ (f : ℚ → ℚ → ℚ × ℚ) (x : ℚ) (ys : List ℚ), [x].length ≠ ys.length →
      broadcast f [x] ys = .ok (ys.map (f x)) := by
    intro f x ys h
    unfold broadcast
    rw [if_neg h]
  have right : ∀ (f : ℚ → ℚ → ℚ × ℚ) (y : ℚ) (xs : List ℚ), xs.length ≠ [y].length →
      broadcast f xs [y] = .ok (xs.map (f · y)) := by
    intro f y xs h
    unfold broadcast
    rw [if_neg h]
    match xs, h with
    | [], _ => rfl
    | [_], h => exact absurd rfl h
    | _ :: _ :: _, _ => rfl
  have none : ∀ (f : ℚ → ℚ → ℚ × ℚ) (xs ys : List ℚ), xs.length ≠ ys.length → xs.length ≠ 1 → ys.length ≠ 1 →
      broadcast f xs ys = .error .valueError := by
    intro f xs ys h hx hy
    unfold broadcast
    rw [if_neg h]
    match xs, ys, h, hx, hy with
    | [_], _, _, hx, _ => exact absurd rfl hx
    | [], [_], _, _, hy => exact absurd rfl hy
    | _ :: _ :: _, [_], _, _, hy => exact absurd rfl hy
    | [], [], h, _, _ => exact absurd rfl h
    | [], _ :: _ :: _, _, _, _ => rfl
    | _ :: _ :: _, [], _, _, _ => rfl
    | _ :: _ :: _, _ :: _ :: _, _, _, _ => rfl
  have sc : ∀ (f : ℚ → ℚ → ℚ × ℚ) (x y : ℚ), coordCall f (.scalar x) (.scalar y) =
      .ok (.scalar (f x y).1, .scalar (f x y).2) := by
    intro f x y
    rfl
  unfold SEWcs.image2sky SEWcs.sky2image
  simp only [call, sc]
  refine ⟨?_, ?_, ?_⟩
  · rintro x rfl
    rw [left _ _ _ h, left _ _ _ h]
    refine ⟨_, _, _, _, rfl, rfl, by simp, by simp, by simp, by simp, fun i y hy => ?_⟩
    refine ⟨_, _, _, _, ?_, ?_, ?_, ?_, rfl, rfl⟩ <;> simp [hy]
  · rintro y rfl
    rw [right _ _ _ h, right _ _ _ h]
    refine ⟨_, _, _, _, rfl, rfl, by simp, by simp, by simp, by simp, fun i x hx => ?_⟩
    refine ⟨_, _, _, _, ?_, ?_, ?_, ?_, rfl, rfl⟩ <;> simp [hx]
  · intro hx hy
    rw [none _ _ _ h hx hy, none _ _ _ h hx hy]
    exact ⟨rfl, rfl⟩

/-- `C04_broadcast` on one against three positions, and on two against three. -/
example (w : SEWcs) := And.intro (C04_broadcast w [2] [3, 4, 5] (by decide))
  (C04_broadcast w [2, 6] [3, 4, 5] (by decide))

example : ([2] : List ℚ).length ≠ ([3, 4, 5] : List ℚ).length := by decide

/-- C04, round trip: if the WCS inverse inverts the WCS then sky2image inverts image2sky and
vice versa, for scalars and for arrays of any length. -/
theorem C04_roundtrip (w : SEWcs)
    (hfi : ∀ x y, w.inv (w.fwd x y).1 (w.fwd x y).2 = (x, y))
    (hif : ∀ r d, w.fwd (w.inv r d).1 (w.inv r d).2 = (r, d))
    (a b : Arg) (hab : (∃ x y, a = .scalar x ∧ b = .scalar y) ∨
      (∃ xs ys : List ℚ, a = .arr xs ∧ b = .arr ys ∧ xs.length = ys.length)) :
    (w.image2sky a b >>= fun p => w.sky2image p.1 p.2) = .ok (a, b) ∧
    (w.sky2image a b >>= fun p => w.image2sky p.1 p.2) = .ok (a, b) := by
  have h0 : ∀ x y, w.inv0 (w.fwd0 x y).1 (w.fwd0 x y).2 = (x, y) := by
    intro x y; simp [SEWcs.inv0, SEWcs.fwd0, hfi]
  have h1 : ∀ r d, w.fwd0 (w.inv0 r d).1 (w.inv0 r d).2 = (r, d) := by
    intro x y; simp [SEWcs.inv0, SEWcs.fwd0, hif]
  have key : ∀ f g : ℚ → ℚ → ℚ × ℚ, (∀ x y, g (f x y).1 (f x y).2 = (x, y)) →
      (coordCall f a b >>= fun p => coordCall g p.1 p.2) = .ok (a, b) := by
    intro f g hfg
    rcases hab with ⟨x, y, rfl, rfl⟩ | ⟨xs, ys, rfl, rfl, hl⟩
    · show coordCall g (.scalar (f x y).1) (.scalar (f x y).2) = _
      show Except.ok (Arg.scalar (g (f x y).1 (f x y).2).1, Arg.scalar (g (f x y).1 (f x y).2).2) = _
      rw [hfg]
    · have e : ∀ (h : ℚ → ℚ → ℚ × ℚ) (us vs : List ℚ), us.length = vs.length →
          coordCall h (.arr us) (.arr vs) = .ok (.arr ((List.zipWith h us vs).map Prod.fst),
            .arr ((List.zipWith h us vs).map Prod.snd)) := by
        intro h us vs huv
        simp [coordCall, Arg.ndim, Arg.flat, broadcast, huv]
      rw [e f xs ys hl]
      show coordCall g (.arr _) (.arr _) = _
      rw [e g _ _ (by simp)]
      have z : List.zipWith g ((List.zipWith f xs ys).map Prod.fst)
          ((List.zipWith f xs ys).map Prod.snd) = List.zip xs ys := by
        clear e
        induction xs generalizing ys with
        | nil => simp
        | cons x t ih =>
          cases ys with
          | nil => simp at hl
          | cons y s =>
            simp only [List.zipWith_cons_cons, List.map_cons, hfg, List.zip_cons_cons]
            rw [ih s (by simpa using hl)]
      rw [z, List.map_fst_zip (by omega), List.map_snd_zip (by omega)]
  exact ⟨key _ _ h0, key _ _ h1⟩

/-- `C04_roundtrip` on an affine map with offset 1 and three positions. -/
example := C04_roundtrip
  ⟨fun x y => (2 * x + 3, y - x), fun r d => ((r - 3) / 2, d + (r - 3) / 2), 1⟩
  (by intro x y; simp) (by intro r d; simp; ring) (.arr [2, 5, 1/2]) (.arr [-1, 0, 7])
  (Or.inr ⟨_, _, rfl, rfl, rfl⟩)

/-- C04, mixed scalar/array or too-deep inputs are refused by both calls. -/
theorem C04_reject (w : SEWcs) (a b : Arg) (h : a.ndim ≠ b.ndim ∨ a = .deep ∨ b = .deep) :
    w.image2sky a b = .error .assertionError ∧ w.sky2image a b = .error .assertionError := by
  have key : ∀ f, coordCall f a b = .error .assertionError := by
    intro f
    cases a <;> cases b <;> simp_all [coordCall, Arg.ndim]
  exact ⟨key _, key _⟩

/-- `C04_reject` on a number against an array. -/
example (w : SEWcs) := C04_reject w (.scalar 3) (.arr [4, 5]) (Or.inl (by decide))

/-- Non-vacuity: an affine WCS with offset 1 satisfies the round-trip hypotheses. -/
example : ∃ w : SEWcs, w.offset = 1 ∧
    (∀ x y, w.inv (w.fwd x y).1 (w.fwd x y).2 = (x, y)) ∧
    (∀ r d, w.fwd (w.inv r d).1 (w.inv r d).2 = (r, d)) ∧ w.fwd 0 0 ≠ (0, 0) :=
  ⟨⟨fun x y => (2 * x + 3, y - x), fun r d => ((r - 3) / 2, d + (r - 3) / 2), 1⟩, rfl,
    by intro x y; simp, by intro r d; simp; ring, by norm_num⟩

/-! ### C06 -/

theorem zero_mem_gridAxis (n dim : Nat) : (0 : ℚ) ∈ gridAxis n dim :=
  List.mem_map.2 ⟨0, by simp, by simp⟩

theorem last_mem_gridAxis {n : Nat} (hn : 0 < n) (dim : Nat) : ((dim : ℚ) - 1) ∈ gridAxis n dim := by
  refine List.mem_map.2 ⟨n, by simp, ?_⟩
  have : (n : ℚ) ≠ 0 := by exact_mod_cast hn.ne'
  field_simp

theorem gridAxis_range {n dim : Nat} (hd : 0 < dim) {x : ℚ} (hx : x ∈ gridAxis n dim) :
    0 ≤ x ∧ x ≤ (dim : ℚ) - 1 := by
  obtain ⟨i, hi, rfl⟩ := List.mem_map.1 hx
  have hi : i ≤ n := by have := List.mem_range.1 hi; omega
  have hd' : (0 : ℚ) ≤ (dim : ℚ) - 1 := by
    have : (1 : ℚ) ≤ dim := by exact_mod_cast hd
    linarith
  constructor
  · positivity
  · rcases Nat.eq_zero_or_pos n with h | h
    · subst h; simpa using hd'
    · have hn : (0 : ℚ) < n := by exact_mod_cast h
      rw [div_le_iff₀ hn]
      have : (i : ℚ) ≤ n := by exact_mod_cast hi
      nlinarith

theorem gridShape_pos {nrow ncol nGrid : Nat} (hr : 0 < nrow) (hc : 0 < ncol) (hg : 0 < nGrid) :
    0 < (gridShape nrow ncol nGrid).1 ∧ 0 < (gridShape nrow ncol nGrid).2 := by
  have hr' : (0 : ℚ) < nrow := by exact_mod_cast hr
  have hc' : (0 : ℚ) < ncol := by exact_mod_cast hc
  unfold gridShape
  split
  · refine ⟨?_, hg⟩
    have := Int.ceil_pos.2 (div_pos hr' hc')
    simp only; omega
  · refine ⟨hg, ?_⟩
    have := Int.ceil_pos.2 (div_pos hc' hr')
    simp only; omega

/-- An affine function of one variable on `[0, L]` is at least its smaller end value. -/
theorem affine_ge_min {a L x m : ℚ} (hx0 : 0 ≤ x) (hxL : x ≤ L) (k : ℚ)
    (h0 : m ≤ k) (h1 : m ≤ k + a * L) : m ≤ k + a * x := by
  rcases le_or_gt 0 a with ha | ha
  · nlinarith
  · nlinarith

theorem affine_le_max {a L x m : ℚ} (hx0 : 0 ≤ x) (hxL : x ≤ L) (k : ℚ)
    (h0 : k ≤ m) (h1 : k + a * L ≤ m) : k + a * x ≤ m := by
  rcases le_or_gt 0 a with ha | ha
  · nlinarith
  · nlinarith

/-- C06, exact acceptance region for a non-celestial affine WCS: the rough cut accepts a sky
position iff, in each sky coordinate separately, it is within the buffer of the coordinate of
some point of the CCD rectangle `[0, nrow-1] x [0, ncol-1]`.  (`u`, `v` affine in `(col, row)`.) -/
theorem C06_accepts_iff (nrow ncol nGrid : Nat) (hr : 0 < nrow) (hc : 0 < ncol) (hg : 0 < nGrid)
    (image2sky : ℚ → ℚ → ℚ × ℚ) (u0 ux uy v0 vx vy offset buffer : ℚ) (hbuf : 0 ≤ buffer)
    (hsky : ∀ x y, image2sky x y = (u0 + ux * x + uy * y, v0 + vx * x + vy * y)) :
    ∃ sb, roughSkyBounds nrow ncol nGrid image2sky offset buffer = .ok sb ∧
      ∀ ra dec, ccdContainsRadec sb ra dec = true ↔
        (∃ row col : ℚ, 0 ≤ row ∧ row ≤ (nrow : ℚ) - 1 ∧ 0 ≤ col ∧ col ≤ (ncol : ℚ) - 1 ∧
          |ra - (image2sky (col + offset) (row + offset)).1| ≤ buffer) ∧
        (∃ row col : ℚ, 0 ≤ row ∧ row ≤ (nrow : ℚ) - 1 ∧ 0 ≤ col ∧ col ≤ (ncol : ℚ) - 1 ∧
          |dec - (image2sky (col + offset) (row + offset)).2| ≤ buffer) := by
  obtain ⟨g1, g2⟩ := gridShape_pos hr hc hg
  -- one coordinate at a time
  have one : ∀ (k a b cc : ℚ),
      ∃ mn mx, qmin? ((gridPoints nrow ncol nGrid).map fun p => k + a * (p.2 + offset) + b * (p.1 + offset) - cc) = .ok mn ∧
        qmax? ((gridPoints nrow ncol nGrid).map fun p => k + a * (p.2 + offset) + b * (p.1 + offset) - cc) = .ok mx ∧
        ∀ t : ℚ, (mn - buffer ≤ t - cc ∧ t - cc ≤ mx + buffer) ↔
          ∃ row col : ℚ, 0 ≤ row ∧ row ≤ (nrow : ℚ) - 1 ∧ 0 ≤ col ∧ col ≤ (ncol : ℚ) - 1 ∧
            |t - (k + a * (col + offset) + b * (row + offset))| ≤ buffer := by
    intro k a b cc
    set F : ℚ × ℚ → ℚ := fun p => k + a * (p.2 + offset) + b * (p.1 + offset) - cc with hF
    have mem : ∀ r ∈ gridAxis (gridShape nrow ncol nGrid).1 nrow,
        ∀ c ∈ gridAxis (gridShape nrow ncol nGrid).2 ncol, (r, c) ∈ gridPoints nrow ncol nGrid := by
      intro r hr' c hc'
      simp only [gridPoints, List.mem_flatMap, List.mem_map]
      exact ⟨c, hc', r, hr', rfl⟩
    have range : ∀ p ∈ gridPoints nrow ncol nGrid,
        0 ≤ p.1 ∧ p.1 ≤ (nrow : ℚ) - 1 ∧ 0 ≤ p.2 ∧ p.2 ≤ (ncol : ℚ) - 1 := by
      intro p hp
      simp only [gridPoints, List.mem_flatMap, List.mem_map] at hp
      obtain ⟨c, hc', r, hr', rfl⟩ := hp
      exact ⟨(gridAxis_range hr hr').1, (gridAxis_range hr hr').2, (gridAxis_range hc hc').1,
        (gridAxis_range hc hc').2⟩
    have ne : (gridPoints nrow ncol nGrid).map F ≠ [] := by
      have := mem 0 (zero_mem_gridAxis _ _) 0 (zero_mem_gridAxis _ _)
      intro h
      rw [List.map_eq_nil_iff] at h
      rw [h] at this
      simp at this
    obtain ⟨mn, hmn, hmn1, hmn2⟩ := qmin?_spec ne
    obtain ⟨mx, hmx, hmx1, hmx2⟩ := qmax?_spec ne
    refine ⟨mn, mx, hmn, hmx, fun t => ?_⟩
    have corner : ∀ r ∈ gridAxis (gridShape nrow ncol nGrid).1 nrow,
        ∀ c ∈ gridAxis (gridShape nrow ncol nGrid).2 ncol, mn ≤ F (r, c) ∧ F (r, c) ≤ mx := by
      intro r hr' c hc'
      have := List.mem_map_of_mem (f := F) (mem r hr' c hc')
      exact ⟨hmn2 _ this, hmx2 _ this⟩
    have z1 := zero_mem_gridAxis (gridShape nrow ncol nGrid).1 nrow
    have z2 := zero_mem_gridAxis (gridShape nrow ncol nGrid).2 ncol
    have l1 := last_mem_gridAxis g1 nrow
    have l2 := last_mem_gridAxis g2 ncol
    have c00 := corner _ z1 _ z2
    have c01 := corner _ z1 _ l2
    have c10 := corner _ l1 _ z2
    have c11 := corner _ l1 _ l2
    -- whole rectangle between mn and mx
    have rect : ∀ row col : ℚ, 0 ≤ row → row ≤ (nrow : ℚ) - 1 → 0 ≤ col → col ≤ (ncol : ℚ) - 1 →
        mn ≤ F (row, col) ∧ F (row, col) ≤ mx := by
      intro row col h1 h2 h3 h4
      simp only [hF] at c00 c01 c10 c11 ⊢
      constructor
      · have s1 : mn ≤ (k + a * offset + b * offset - cc) + b * row :=
          affine_ge_min h1 h2 _ (by linarith [c00.1]) (by linarith [c10.1])
        have s2 : mn ≤ (k + a * offset + b * offset - cc + a * ((ncol : ℚ) - 1)) + b * row :=
          affine_ge_min h1 h2 _ (by linarith [c01.1]) (by linarith [c11.1])
        have := affine_ge_min h3 h4 (a := a) ((k + a * offset + b * offset - cc) + b * row) s1
          (by linarith)
        linarith
      · have s1 : (k + a * offset + b * offset - cc) + b * row ≤ mx :=
          affine_le_max h1 h2 _ (by linarith [c00.2]) (by linarith [c10.2])
        have s2 : (k + a * offset + b * offset - cc + a * ((ncol : ℚ) - 1)) + b * row ≤ mx :=
          affine_le_max h1 h2 _ (by linarith [c01.2]) (by linarith [c11.2])
        have := affine_le_max h3 h4 (a := a) ((k + a * offset + b * offset - cc) + b * row) s1
          (by linarith)
        linarith
    constructor
    · rintro ⟨hlo, hhi⟩
      obtain ⟨p, hp, hpm⟩ := List.mem_map.1 hmn1
      obtain ⟨q, hq, hqm⟩ := List.mem_map.1 hmx1
      obtain ⟨p1, p2, p3, p4⟩ := range p hp
      obtain ⟨q1, q2, q3, q4⟩ := range q hq
      simp only [hF] at hpm hqm
      by_cases hA : t - cc < mn
      · refine ⟨p.1, p.2, p1, p2, p3, p4, ?_⟩
        rw [abs_le]; constructor <;> linarith
      · by_cases hB : mx < t - cc
        · refine ⟨q.1, q.2, q1, q2, q3, q4, ?_⟩
          rw [abs_le]; constructor <;> linarith
        · rw [not_lt] at hA hB
          by_cases hE : mx = mn
          · refine ⟨p.1, p.2, p1, p2, p3, p4, ?_⟩
            rw [abs_le]; constructor <;> linarith
          · have hlt : 0 < mx - mn := by
              have : mn ≤ mx := hA.trans hB
              rcases this.lt_or_eq with h | h
              · linarith
              · exact absurd h.symm hE
            set s := (t - cc - mn) / (mx - mn) with hs
            have s0 : 0 ≤ s := div_nonneg (by linarith) hlt.le
            have s1 : s ≤ 1 := by rw [hs, div_le_one hlt]; linarith
            have hs' : s * (mx - mn) = t - cc - mn := by rw [hs]; field_simp
            refine ⟨p.1 + s * (q.1 - p.1), p.2 + s * (q.2 - p.2), ?_, ?_, ?_, ?_, ?_⟩
            · nlinarith
            · nlinarith
            · nlinarith
            · nlinarith
            · have e : t - (k + a * (p.2 + s * (q.2 - p.2) + offset) + b * (p.1 + s * (q.1 - p.1) + offset)) = 0 := by
                have : k + a * (p.2 + s * (q.2 - p.2) + offset) + b * (p.1 + s * (q.1 - p.1) + offset) =
                    (mn + cc) + s * (mx - mn) := by
                  rw [← hpm, ← hqm]; ring
                rw [this, hs']; ring
              rw [e, abs_zero]; exact hbuf
    · rintro ⟨row, col, h1, h2, h3, h4, h5⟩
      have := rect row col h1 h2 h3 h4
      simp only [hF] at this
      rw [abs_le] at h5
      constructor <;> linarith [this.1, this.2]
  set ccd := image2sky (((ncol : ℚ) - 1) / 2 + offset) (((nrow : ℚ) - 1) / 2 + offset) with hccd
  obtain ⟨umin, umax, hu1, hu2, hu3⟩ := one u0 ux uy ccd.1
  obtain ⟨vmin, vmax, hv1, hv2, hv3⟩ := one v0 vx vy ccd.2
  refine ⟨(⟨umin - buffer, umax + buffer, vmin - buffer, vmax + buffer⟩, ccd.1, ccd.2), ?_, ?_⟩
  · unfold roughSkyBounds
    have h0 : ¬ (nrow = 0 ∨ ncol = 0 ∨ nGrid = 0) := by omega
    rw [if_neg h0]
    simp only [List.map_map, Function.comp_def, ← hccd]
    simp only [hsky] at hccd ⊢
    rw [hu1, hu2, hv1, hv2]
    rfl
  · intro ra dec
    simp only [ccdContainsRadec, Bounds.containsPoint, decide_eq_true_eq, hsky]
    rw [← hu3 ra, ← hv3 dec]
    tauto

/-- `C06_accepts_iff` on the same CCD. -/
example := C06_accepts_iff 4096 2048 4 (by norm_num) (by norm_num) (by norm_num)
  (fun x y => (1 + 0.2 * x + 0.1 * y, -3 + 0.1 * x + 0.3 * y)) 1 0.2 0.1 (-3) 0.1 0.3 1 16
  (by norm_num) (fun _ _ => rfl)

/-- C06: no false negatives: a sky position within the buffer (per coordinate) of any point
of the CCD rectangle is accepted. -/
theorem C06_no_false_negative (nrow ncol nGrid : Nat) (hr : 0 < nrow) (hc : 0 < ncol)
    (hg : 0 < nGrid) (image2sky : ℚ → ℚ → ℚ × ℚ) (u0 ux uy v0 vx vy offset buffer : ℚ)
    (hsky : ∀ x y, image2sky x y = (u0 + ux * x + uy * y, v0 + vx * x + vy * y))
    (row col ra dec : ℚ) (h1 : 0 ≤ row) (h2 : row ≤ (nrow : ℚ) - 1) (h3 : 0 ≤ col)
    (h4 : col ≤ (ncol : ℚ) - 1)
    (hra : |ra - (image2sky (col + offset) (row + offset)).1| ≤ buffer)
    (hdec : |dec - (image2sky (col + offset) (row + offset)).2| ≤ buffer) :
    ∃ sb, roughSkyBounds nrow ncol nGrid image2sky offset buffer = .ok sb ∧
      ccdContainsRadec sb ra dec = true := by
  have hb : 0 ≤ buffer := (abs_nonneg _).trans hra
  obtain ⟨sb, e, h⟩ := C06_accepts_iff nrow ncol nGrid hr hc hg image2sky u0 ux uy v0 vx vy
    offset buffer hb hsky
  exact ⟨sb, e, (h ra dec).2 ⟨⟨row, col, h1, h2, h3, h4, hra⟩, ⟨row, col, h1, h2, h3, h4, hdec⟩⟩⟩

/-- Non-vacuity of C06: a DES-sized CCD with a sheared affine WCS and the default buffer. -/
example : ∃ sb, roughSkyBounds 4096 2048 4 (fun x y => (1 + 0.2 * x + 0.1 * y, -3 + 0.1 * x + 0.3 * y)) 1 16 =
    .ok sb ∧ ccdContainsRadec sb 3 0 = true :=
  C06_no_false_negative 4096 2048 4 (by norm_num) (by norm_num) (by norm_num) _ 1 0.2 0.1 (-3) 0.1 0.3 1 16
    (fun _ _ => rfl) 0 0 3 0 le_rfl (by norm_num) le_rfl (by norm_num) (by norm_num [abs_le])
    (by norm_num [abs_le])

/-! ### C07 -/

/-- C07: shape, parity, size and centring of the slice box. -/
theorem C07_slice_bounds (col row fracBuffer : ℚ) (boxSize : ℤ) (hf : 0 ≤ fracBuffer)
    (hbox : 0 ≤ boxSize) :
    ∃ side : ℤ, ∃ b, computeSliceBounds col row boxSize fracBuffer = b ∧
      b.rowmax - b.rowmin + 1 = side ∧ b.colmax - b.colmin + 1 = side ∧
      side % 2 = boxSize % 2 ∧
      (side = ⌊fracBuffer * boxSize⌋ ∨ side = ⌊fracBuffer * boxSize⌋ + 1) ∧
      (1 ≤ fracBuffer → boxSize ≤ side) ∧
      (fracBuffer = 1 → side = boxSize) ∧
      (-(1/2) < ((b.rowmin : ℚ) + b.rowmax) / 2 - row ∧ ((b.rowmin : ℚ) + b.rowmax) / 2 - row ≤ 1/2) ∧
      (-(1/2) < ((b.colmin : ℚ) + b.colmax) / 2 - col ∧ ((b.colmin : ℚ) + b.colmax) / 2 - col ≤ 1/2) := by
  have hpos : 0 ≤ fracBuffer * boxSize := mul_nonneg hf (by exact_mod_cast hbox)
  have htr : truncQ (fracBuffer * boxSize) = ⌊fracBuffer * boxSize⌋ := by
    rw [truncQ, if_pos hpos]
  have hside : buffBoxSize boxSize fracBuffer = ⌊fracBuffer * boxSize⌋ ∨
      buffBoxSize boxSize fracBuffer = ⌊fracBuffer * boxSize⌋ + 1 := by
    unfold buffBoxSize; rw [htr]; simp only; split <;> simp
  have hpar : buffBoxSize boxSize fracBuffer % 2 = boxSize % 2 := by
    unfold buffBoxSize; rw [htr]; simp only; split <;> omega
  refine ⟨buffBoxSize boxSize fracBuffer, _, rfl, ?_, ?_, hpar, hside, ?_, ?_, ?_, ?_⟩
  · simp only [computeSliceBounds]; ring
  · simp only [computeSliceBounds]; ring
  · intro h1
    have : boxSize ≤ ⌊fracBuffer * boxSize⌋ := by
      rw [Int.le_floor]
      have : (0 : ℚ) ≤ boxSize := by exact_mod_cast hbox
      nlinarith
    omega
  · intro h1
    subst h1
    simp only [one_mul, Int.floor_intCast] at hside
    omega
  · simp only [computeSliceBounds]
    have a := Int.floor_le (row - ((buffBoxSize boxSize fracBuffer : ℚ) - 1) / 2 + 1/2)
    have b := Int.lt_floor_add_one (row - ((buffBoxSize boxSize fracBuffer : ℚ) - 1) / 2 + 1/2)
    push_cast
    constructor <;> linarith
  · simp only [computeSliceBounds]
    have a := Int.floor_le (col - ((buffBoxSize boxSize fracBuffer : ℚ) - 1) / 2 + 1/2)
    have b := Int.lt_floor_add_one (col - ((buffBoxSize boxSize fracBuffer : ℚ) - 1) / 2 + 1/2)
    push_cast
    constructor <;> linarith

/-- `C07_slice_bounds` on a 33 pixel box with the extra fraction 1.4. -/
example := C07_slice_bounds 512.25 (-7.5) 1.4 33 (by norm_num) (by norm_num)

example : (0 : ℚ) ≤ 1.4 ∧ (0 : ℤ) ≤ 33 := by norm_num

/-! ### C08 -/

/-- C08, acceptance: a non-empty box is accepted iff every one of its pixels is at least
`buffer` (or 0 when the buffer is not positive) pixels away from the image border. -/
theorem C08_contains_iff (nrow ncol : Nat) (b : Bounds ℤ) (buffer : ℤ)
    (hr : b.rowmin ≤ b.rowmax) (hc : b.colmin ≤ b.colmax) :
    ccdContainsBounds nrow ncol b buffer = true ↔
      ∀ r c : ℤ, b.rowmin ≤ r → r ≤ b.rowmax → b.colmin ≤ c → c ≤ b.colmax →
        max buffer 0 ≤ r ∧ r < nrow - max buffer 0 ∧ max buffer 0 ≤ c ∧ c < ncol - max buffer 0 := by
  have e : ccdContainsBounds nrow ncol b buffer = true ↔
      (max buffer 0 ≤ b.rowmin ∧ b.rowmax ≤ (nrow : ℤ) - 1 - max buffer 0 ∧
        max buffer 0 ≤ b.colmin ∧ b.colmax ≤ (ncol : ℤ) - 1 - max buffer 0) := by
    unfold ccdContainsBounds Bounds.containsBounds ccdBnds
    simp only
    split
    · rename_i h
      rw [max_eq_left h.le, decide_eq_true_eq]
      constructor <;> rintro ⟨h1, h2, h3, h4⟩ <;> refine ⟨?_, ?_, ?_, ?_⟩ <;> omega
    · rename_i h
      rw [max_eq_right (not_lt.1 h), decide_eq_true_eq]
      constructor <;> rintro ⟨h1, h2, h3, h4⟩ <;> refine ⟨?_, ?_, ?_, ?_⟩ <;> omega
  rw [e]
  constructor
  · rintro ⟨h1, h2, h3, h4⟩ r c a1 a2 a3 a4
    refine ⟨?_, ?_, ?_, ?_⟩ <;> omega
  · intro h
    have := h b.rowmin b.colmin le_rfl hr le_rfl hc
    have := h b.rowmax b.colmax hr le_rfl hc le_rfl
    refine ⟨?_, ?_, ?_, ?_⟩ <;> omega

/-- `C08_contains_iff` on a ten pixel box in a 100 x 80 image, with a buffer of 5. -/
example := C08_contains_iff 100 80 ⟨10, 19, 60, 69⟩ 5 (by norm_num) (by norm_num)

/-- The window of `a` with corner `(r0, c0)` and size `n x n`, read with checked in-range
reads (specification). -/
def IsWindow {α β : Type} (out : Img β) (a : Img α) (f : α → β) (r0 c0 n : ℤ) : Prop :=
  (out.nrow : ℤ) = n ∧ (out.ncol : ℤ) = n ∧
  ∀ i j : Nat, (i : ℤ) < n → (j : ℤ) < n →
    ∃ v, a.getZ? (r0 + i) (c0 + j) = some v ∧ out.px i j = f v

/-- C08: a box accepted by `ccd_contains_bounds` (any buffer) that is square and not empty is
read completely and in range, with the zero-point scaling. -/
theorem C08_set_slice (f : SEFiles) (nrow ncol : Nat) (scale : ℚ) (b : Bounds ℤ) (buffer : ℤ)
    (hi : f.image.nrow = nrow ∧ f.image.ncol = ncol) (hbk : f.bkg.nrow = nrow ∧ f.bkg.ncol = ncol)
    (hm : f.bmask.nrow = nrow ∧ f.bmask.ncol = ncol) (hw : f.weight.nrow = nrow ∧ f.weight.ncol = ncol)
    (hn : ∀ a ∈ f.noises, a.nrow = nrow ∧ a.ncol = ncol)
    (hsq : b.rowmax - b.rowmin = b.colmax - b.colmin) (hne : b.rowmin ≤ b.rowmax)
    (hin : ccdContainsBounds nrow ncol b buffer = true) :
    ∃ s, setSlice f scale b = .ok s ∧ s.xStart = b.colmin ∧ s.yStart = b.rowmin ∧
      s.boxSize = b.rowmax - b.rowmin + 1 ∧
      (∃ diff : Img ℚ, IsWindow s.image diff (fun v => v * scale) b.rowmin b.colmin s.boxSize ∧
        diff.nrow = nrow ∧ diff.ncol = ncol ∧
        ∀ r c, diff.px r c = f.image.px r c - f.bkg.px r c) ∧
      IsWindow s.weight f.weight (fun v => v / scale ^ 2) b.rowmin b.colmin s.boxSize ∧
      IsWindow s.bmask f.bmask id b.rowmin b.colmin s.boxSize ∧
      s.noises.length = f.noises.length ∧
      (∀ (k : Nat) (o a : Img ℚ), s.noises[k]? = some o → f.noises[k]? = some a →
        IsWindow o a id b.rowmin b.colmin s.boxSize) := by
  have hc : b.colmin ≤ b.colmax := by omega
  have hpix := (C08_contains_iff nrow ncol b buffer hne hc).1 hin
  have h1 := hpix b.rowmin b.colmin le_rfl hne le_rfl hc
  have h2 := hpix b.rowmax b.colmax hne le_rfl hc le_rfl
  have hmx : 0 ≤ max buffer 0 := le_max_right _ _
  have hb : ¬ (b.colmax - b.colmin + 1 ≠ b.rowmax - b.rowmin + 1) := by omega
  set n := b.rowmax - b.rowmin + 1 with hndef
  have win : ∀ {α β : Type} (a : Img α) (g : α → β), a.nrow = nrow → a.ncol = ncol →
      IsWindow ((a.slice b.rowmin (b.rowmin + n) b.colmin (b.colmin + n)).map g) a g b.rowmin b.colmin n := by
    intro α β a g ha1 ha2
    have p1 : pySliceIdx a.nrow b.rowmin = b.rowmin.toNat := by
      unfold pySliceIdx; rw [if_neg (by omega), ha1]; omega
    have p2 : pySliceIdx a.nrow (b.rowmin + n) = (b.rowmin + n).toNat := by
      unfold pySliceIdx; rw [if_neg (by omega), ha1]; omega
    have p3 : pySliceIdx a.ncol b.colmin = b.colmin.toNat := by
      unfold pySliceIdx; rw [if_neg (by omega), ha2]; omega
    have p4 : pySliceIdx a.ncol (b.colmin + n) = (b.colmin + n).toNat := by
      unfold pySliceIdx; rw [if_neg (by omega), ha2]; omega
    refine ⟨?_, ?_, ?_⟩
    · simp only [Img.slice, Img.map, p1, p2]; omega
    · simp only [Img.slice, Img.map, p3, p4]; omega
    · intro i j hi' hj'
      refine ⟨a.px (b.rowmin.toNat + i) (b.colmin.toNat + j), ?_, ?_⟩
      · unfold Img.getZ?
        rw [if_pos (by omega)]
        congr 2 <;> omega
      · simp only [Img.slice, Img.map, p1, p3]
  have mapid : ∀ {α : Type} (a : Img α), a.map id = a := fun a => rfl
  refine ⟨_, by unfold setSlice; simp only; rw [if_neg hb], rfl, rfl, not_not.1 hb, ?_, ?_, ?_, ?_, ?_⟩
  all_goals
    have hbox : b.colmax - b.colmin + 1 = n := by omega
    simp only [hbox]
  · exact ⟨⟨f.image.nrow, f.image.ncol, fun r c => f.image.px r c - f.bkg.px r c⟩,
      win _ _ hi.1 hi.2, hi.1, hi.2, fun _ _ => rfl⟩
  · exact win _ _ hw.1 hw.2
  · rw [← mapid (Img.slice _ _ _ _ _)]; exact win _ _ hm.1 hm.2
  · simp
  · intro k o a ho ha
    rw [List.getElem?_map, ha] at ho
    simp only [Option.map_some, Option.some.injEq] at ho
    subst ho
    have hmem := hn a (List.mem_of_getElem? ha)
    rw [← mapid (Img.slice _ _ _ _ _)]; exact win _ _ hmem.1 hmem.2

/-- `C08_set_slice` on a 6 x 5 image with two noise fields. -/
example := C08_set_slice
  ⟨⟨6, 5, fun r c => r + 10 * c⟩, ⟨6, 5, fun r _ => r⟩, ⟨6, 5, fun r _ => BitVec.ofNat 32 r⟩,
    ⟨6, 5, fun _ _ => 4⟩, [⟨6, 5, fun _ _ => 1⟩, ⟨6, 5, fun _ c => c⟩]⟩ 6 5 (1/2) ⟨1, 3, 2, 4⟩ 0
  ⟨rfl, rfl⟩ ⟨rfl, rfl⟩ ⟨rfl, rfl⟩ ⟨rfl, rfl⟩ (by simp) (by norm_num) (by norm_num) (by decide)

/-- C08, outside of the CCD the window follows the rules of Python: the bounds of a slice count from the end when
they are negative, and only pixels that exist are taken.  So a box that hangs over the first row or column is not
padded, it is cut short or empty. -/
theorem C08_any_window {α : Type} (a : Img α) (r0 r1 c0 c1 : ℤ) :
    ∃ rs cs, (∀ i j, (a.slice r0 r1 c0 c1).px i j = a.px (rs + i) (cs + j)) ∧
      (∀ r, (rs ≤ r ∧ r < rs + (a.slice r0 r1 c0 c1).nrow) ↔
        r < a.nrow ∧ (if r0 < 0 then r0 + a.nrow else r0) ≤ (r : ℤ) ∧
          (r : ℤ) < if r1 < 0 then r1 + a.nrow else r1) ∧
      (∀ c, (cs ≤ c ∧ c < cs + (a.slice r0 r1 c0 c1).ncol) ↔
        c < a.ncol ∧ (if c0 < 0 then c0 + a.ncol else c0) ≤ (c : ℤ) ∧
          (c : ℤ) < if c1 < 0 then c1 + a.ncol else c1) := by
  have key : ∀ (n : Nat) (i j : ℤ) (r : Nat),
      (pySliceIdx n i ≤ r ∧ r < pySliceIdx n i + (pySliceIdx n j - pySliceIdx n i)) ↔
      r < n ∧ (if i < 0 then i + n else i) ≤ (r : ℤ) ∧ (r : ℤ) < if j < 0 then j + n else j := by
    intro n i j r
    unfold pySliceIdx
    split <;> split <;> omega
  exact ⟨pySliceIdx a.nrow r0, pySliceIdx a.ncol c0, fun _ _ => rfl, fun r => key _ _ _ r, fun c => key _ _ _ c⟩

/-- C08, composition with C07: the box computed for a target is always square, so `set_slice`
never trips its assertion on it. -/
theorem C08_computed_bounds_never_assert (f : SEFiles) (scale col row frac : ℚ) (box : ℤ) :
    ∃ s, setSlice f scale (computeSliceBounds col row box frac) = .ok s := by
  unfold setSlice
  simp only
  rw [if_neg (by simp only [computeSliceBounds]; omega)]
  exact ⟨_, rfl⟩

/-- Non-vacuity: a box in a 100 x 80 image is accepted with buffer 5, and refused with 11. -/
example : ccdContainsBounds 100 80 ⟨10, 19, 60, 69⟩ 5 = true ∧
    ccdContainsBounds 100 80 ⟨10, 19, 60, 69⟩ 11 = false := by decide

/-! ### C09 -/

/-- C09, SE stamps: with an odd size the stamp's central pixel is the pixel nearest to the
position; the sub-pixel offset used for drawing is the remainder and lies in [-1/2, 1/2);
even sizes are refused. -/
theorem C09_stamp (x y : ℚ) (dim : ℤ) :
    (dim % 2 = 1 → ∃ xmin ymin : ℤ, psfStampBounds x y dim = .ok (xmin, ymin) ∧
      ((xmin : ℚ) + ((dim : ℚ) - 1) / 2) + psfSubPixel x = x ∧
      ((ymin : ℚ) + ((dim : ℚ) - 1) / 2) + psfSubPixel y = y) ∧
    (dim % 2 = 0 → psfStampBounds x y dim = .error .assertionError) ∧
    -(1/2) ≤ psfSubPixel x ∧ psfSubPixel x < 1/2 := by
  refine ⟨fun h => ?_, fun h => ?_, ?_, ?_⟩
  · obtain ⟨kx, hkx⟩ := (half_int_iff dim ⌊x + 1/2⌋).2 h
    obtain ⟨ky, hky⟩ := (half_int_iff dim ⌊y + 1/2⌋).2 h
    refine ⟨kx, ky, ?_, ?_, ?_⟩
    · unfold psfStampBounds
      simp only [hkx, hky, truncQ_int]
      simp
    · simp only [psfSubPixel]; linarith
    · simp only [psfSubPixel]; linarith
  · unfold psfStampBounds
    simp only
    rw [if_pos]
    intro hc
    have := (half_int_iff dim ⌊y + 1/2⌋).1 ⟨_, hc⟩
    omega
  · have := Int.floor_le (x + 1/2)
    simp only [psfSubPixel]; linarith
  · have := Int.lt_floor_add_one (x + 1/2)
    simp only [psfSubPixel]; linarith

/-- C09, coadd layout: for odd box sizes the PSF is evaluated at the sky position of an
integer WCS pixel nearest to the target, and the stamp (in zero-indexed coordinates) is
centred on that pixel; even sizes are refused. -/
theorem C09_coadd_layout (fwd inv : ℚ → ℚ → ℚ × ℚ) (ra dec offset : ℚ) (box : ℤ) :
    (box % 2 = 1 → ∃ (l : PsfLayout) (col row : ℤ),
      coaddPsfLayout fwd inv ra dec box offset = .ok l ∧
      (l.raPsf, l.decPsf) = fwd col row ∧
      -(1/2) ≤ (inv ra dec).1 - col ∧ (inv ra dec).1 - col < 1/2 ∧
      -(1/2) ≤ (inv ra dec).2 - row ∧ (inv ra dec).2 - row < 1/2 ∧
      l.startCol + ((box : ℚ) - 1) / 2 = col - offset ∧
      l.startRow + ((box : ℚ) - 1) / 2 = row - offset) ∧
    (box % 2 = 0 → coaddPsfLayout fwd inv ra dec box offset = .error .assertionError) := by
  have hh : ∀ z : ℤ, ((((truncQ (((box : ℚ) - 1) / 2) : ℤ) : ℚ) = ((box : ℚ) - 1) / 2) ↔ box % 2 = 1) := by
    intro z
    rw [truncQ_eq_iff, ← half_int_iff box 0]
    constructor
    · rintro ⟨k, hk⟩; exact ⟨-k, by rw [hk]; push_cast; ring⟩
    · rintro ⟨k, hk⟩; exact ⟨-k, by push_cast at hk ⊢; linarith⟩
  constructor
  · intro h
    refine ⟨⟨(fwd ⌊(inv ra dec).1 + 1/2⌋ ⌊(inv ra dec).2 + 1/2⌋).1,
        (fwd ⌊(inv ra dec).1 + 1/2⌋ ⌊(inv ra dec).2 + 1/2⌋).2,
        (⌊(inv ra dec).2 + 1/2⌋ : ℚ) - offset - ((box : ℚ) - 1) / 2,
        (⌊(inv ra dec).1 + 1/2⌋ : ℚ) - offset - ((box : ℚ) - 1) / 2⟩,
      ⌊(inv ra dec).1 + 1/2⌋, ⌊(inv ra dec).2 + 1/2⌋, ?_, ?_, ?_, ?_, ?_, ?_, ?_, ?_⟩
    · unfold coaddPsfLayout
      simp only
      rw [if_neg (by rw [not_not]; exact (hh 0).2 h)]
    · rfl
    · have := Int.floor_le ((inv ra dec).1 + 1/2); linarith
    · have := Int.lt_floor_add_one ((inv ra dec).1 + 1/2); linarith
    · have := Int.floor_le ((inv ra dec).2 + 1/2); linarith
    · have := Int.lt_floor_add_one ((inv ra dec).2 + 1/2); linarith
    · simp only; ring
    · simp only; ring
  · intro h
    unfold coaddPsfLayout
    simp only
    rw [if_pos]
    intro hc
    have := (hh 0).1 hc
    omega

example : (21 : ℤ) % 2 = 1 := by norm_num

end Pizza
