import Verif.Spec.EpochsInfo
import Verif.Props.BuildExamples

/-!
C64 (what is recorded for the epochs of a slice), C65 (every considered epoch is recorded).
-/

namespace Pizza

theorem epochRow_ok {old : EpochRow} {e : Epoch} (he : e.obj.Placed) (f : BitVec 32) (w : ℚ) :
    ∃ r, epochRow old e f w = .ok r ∧ r.id = old.id ∧ r.flags = f ∧ r.weight = w ∧ r.Records e := by
  obtain ⟨h1, h2, h3, h4, h5, h6⟩ := he
  unfold epochRow
  cases a1 : e.obj.xStart with
  | none => exact absurd a1 h1
  | some x =>
  cases a2 : e.obj.yStart with
  | none => exact absurd a2 h2
  | some y =>
  cases a3 : e.obj.boxSize with
  | none => exact absurd a3 h3
  | some b =>
  cases a4 : e.obj.psfXStart with
  | none => exact absurd a4 h4
  | some px =>
  cases a5 : e.obj.psfYStart with
  | none => exact absurd a5 h5
  | some py =>
  cases a6 : e.obj.psfBoxSize with
  | none => exact absurd a6 h6
  | some pb =>
  exact ⟨_, rfl, rfl, rfl, rfl, rfl, a2, a1, a3, a5, a4, pb, a6, rfl⟩

/-- The state of the table: `k` rows filled. -/
theorem fillUsed_ok (id : ℤ) (l : List (ℚ × Epoch)) (hl : ∀ x ∈ l, x.2.obj.Placed) :
    ∀ (pre : List EpochRow) (m : Nat), ∃ rows,
      fillUsed (pre ++ List.replicate (l.length + m) { id := id }) pre.length l =
        .ok (pre ++ rows ++ List.replicate m { id := id }, pre.length + l.length) ∧
      List.Forall₂ (fun (r : EpochRow) (x : ℚ × Epoch) =>
        r.id = id ∧ r.flags = 0 ∧ r.weight = x.1 ∧ r.Records x.2) rows l := by
  induction l with
  | nil => intro pre m; exact ⟨[], by simp [fillUsed], .nil⟩
  | cons x l ih =>
    intro pre m
    obtain ⟨w, e⟩ := x
    obtain ⟨r, h1, h2, h3, h4, h5⟩ := epochRow_ok (old := ({ id := id } : EpochRow))
      (hl (w, e) (by simp)) 0 w
    obtain ⟨rows, i1, i2⟩ := ih (fun x hx => hl x (by simp [hx])) (pre ++ [r]) m
    refine ⟨r :: rows, ?_, .cons ⟨h2, h3, h4, h5⟩ i2⟩
    unfold fillUsed setRow
    have hrep : List.replicate ((((w, e) :: l).length) + m) ({ id := id } : EpochRow) =
        { id := id } :: List.replicate (l.length + m) { id := id } := by
      rw [← List.replicate_succ]; congr 1; simp; omega
    rw [hrep]
    have hget : (pre ++ ({ id := id } : EpochRow) :: List.replicate (l.length + m) { id := id })[pre.length]? =
        some { id := id } := by simp
    rw [hget]
    simp only [h1, ok_bind, pure_bind]
    have hset : (pre ++ ({ id := id } : EpochRow) :: List.replicate (l.length + m) { id := id }).set pre.length r =
        (pre ++ [r]) ++ List.replicate (l.length + m) { id := id } := by
      simp
    rw [hset]
    have hlen : pre.length + 1 = (pre ++ [r]).length := by simp
    rw [hlen, i1]
    simp; omega

theorem fillUnused_ok (id : ℤ) (l : List (BitVec 32 × Epoch)) (hl : ∀ x ∈ l, x.2.obj.Placed) :
    ∀ (pre : List EpochRow), ∃ rows,
      fillUnused (pre ++ List.replicate l.length { id := id }) pre.length l = .ok (pre ++ rows) ∧
      List.Forall₂ (fun (r : EpochRow) (x : BitVec 32 × Epoch) =>
        r.id = id ∧ r.flags = x.1 ∧ r.weight = 0 ∧ r.Records x.2) rows l := by
  induction l with
  | nil => intro pre; exact ⟨[], by simp [fillUnused], .nil⟩
  | cons x l ih =>
    intro pre
    obtain ⟨w, e⟩ := x
    obtain ⟨r, h1, h2, h3, h4, h5⟩ := epochRow_ok (old := ({ id := id } : EpochRow))
      (hl (w, e) (by simp)) w 0
    obtain ⟨rows, i1, i2⟩ := ih (fun x hx => hl x (by simp [hx])) (pre ++ [r])
    refine ⟨r :: rows, ?_, .cons ⟨h2, h3, h4, h5⟩ i2⟩
    unfold fillUnused setRow
    rw [List.length_cons, List.replicate_succ]
    have hget : (pre ++ ({ id := id } : EpochRow) :: List.replicate l.length { id := id })[pre.length]? =
        some { id := id } := by simp
    rw [hget]
    simp only [h1, ok_bind, pure_bind]
    have hset : (pre ++ ({ id := id } : EpochRow) :: List.replicate l.length { id := id }).set pre.length r =
        (pre ++ [r]) ++ List.replicate l.length { id := id } := by
      simp
    rw [hset]
    have hlen : pre.length + 1 = (pre ++ [r]).length := by simp
    rw [hlen, i1]
    simp

/-- C64: the table is one row per used epoch, in order, with flags 0 and its weight, followed by one row
per unused epoch, in order, with its flags and weight 0; all have the id of the slice. -/
theorem C64_rows (id : ℤ) (weights : List ℚ) (slices notUsed : List Epoch) (flags : List (BitVec 32))
    (h1 : weights.length = slices.length) (h2 : flags.length = notUsed.length)
    (hp : ∀ e ∈ slices ++ notUsed, e.obj.Placed) :
    ∃ a b, makeEpochsInfo id weights slices notUsed flags = .ok (a ++ b) ∧
      a.length = slices.length ∧ b.length = notUsed.length ∧
      (∀ (k : Nat) (ha : k < a.length) (hs : k < slices.length) (hw : k < weights.length),
        a[k].id = id ∧ a[k].flags = 0 ∧ a[k].weight = weights[k] ∧ a[k].Records slices[k]) ∧
      (∀ (k : Nat) (hb : k < b.length) (hs : k < notUsed.length) (hf : k < flags.length),
        b[k].id = id ∧ b[k].flags = flags[k] ∧ b[k].weight = 0 ∧ b[k].Records notUsed[k]) := by
  have l1 : (weights.zip slices).length = slices.length := by simp; omega
  have l2 : (flags.zip notUsed).length = notUsed.length := by simp; omega
  obtain ⟨a, a1, a2⟩ := fillUsed_ok id (weights.zip slices)
    (fun x hx => hp x.2 (by
      have := (List.of_mem_zip (a := x.1) (b := x.2) hx).2
      simp [this])) [] notUsed.length
  obtain ⟨b, b1, b2⟩ := fillUnused_ok id (flags.zip notUsed)
    (fun x hx => hp x.2 (by
      have := (List.of_mem_zip (a := x.1) (b := x.2) hx).2
      simp [this])) a
  have la : a.length = slices.length := by rw [a2.length_eq, l1]
  have lb : b.length = notUsed.length := by rw [b2.length_eq, l2]
  refine ⟨a, b, ?_, la, lb, ?_, ?_⟩
  · unfold makeEpochsInfo
    simp only [List.nil_append, List.length_nil, Nat.zero_add] at a1
    rw [l1] at a1
    simp only [a1, ok_bind]
    rw [← la, ← l2, b1]
  · intro k ha hs hw
    have := (List.forall₂_iff_get.1 a2).2 k ha (by rw [l1]; exact hs)
    simpa using this
  · intro k hb hs hf
    have := (List.forall₂_iff_get.1 b2).2 k hb (by rw [l2]; exact hs)
    simpa using this

/-! ### positions of the epochs -/

/-- Same position of patch and PSF stamp. -/
def SEObj.SamePlace (o o' : SEObj) : Prop :=
  o.xStart = o'.xStart ∧ o.yStart = o'.yStart ∧ o.boxSize = o'.boxSize ∧ o.psfXStart = o'.psfXStart ∧
  o.psfYStart = o'.psfYStart ∧ o.psfBoxSize = o'.psfBoxSize

theorem PlacedAt.congr {A : Type} {c : BuildCfg A} {s : Src} {o o' : SEObj} (h : PlacedAt c s o)
    (hs : o'.SamePlace o) : PlacedAt c s o' := by
  obtain ⟨col, row, psf, px, py, h1, h2, h3, h4, h5, h6, h7, h8, h9⟩ := h
  obtain ⟨s1, s2, s3, s4, s5, s6⟩ := hs
  exact ⟨col, row, psf, px, py, h1, s1.trans h2, s2.trans h3, s3.trans h4, h5, h6, s4.trans h7, s5.trans h8,
    s6.trans h9⟩

theorem PlacedAt.placed {A : Type} {c : BuildCfg A} {s : Src} {o : SEObj} (h : PlacedAt c s o) : o.Placed := by
  obtain ⟨col, row, psf, px, py, h1, h2, h3, h4, h5, h6, h7, h8, h9⟩ := h
  refine ⟨?_, ?_, ?_, ?_, ?_, ?_⟩ <;> simp [*]

theorem setSlice_place {o o' : SEObj} {f : SEReads} {scale : ℚ} {b : Bounds ℤ}
    (h : o.setSlice f scale b = (o', none)) :
    o'.xStart = some b.colmin ∧ o'.yStart = some b.rowmin ∧ o'.boxSize = some (b.colmax - b.colmin + 1) := by
  unfold SEObj.setSlice at h
  simp only at h
  repeat' split at h
  all_goals first
    | (have h1 := (Prod.mk.inj h).1; have h2 := (Prod.mk.inj h).2; cases h2; subst h1; exact ⟨rfl, rfl, rfl⟩)
    | cases h

theorem setPsf_place {o : SEObj} {x y : ℚ} {flag : Except Err Bool} {psf : Except Err (Img ℚ)} {f : Bool}
    (h : (o.setPsf x y flag psf).2 = .ok f) :
    ∃ im a b, psf = .ok im ∧ psfStampBounds x y im.nrow = .ok (a, b) ∧
      (o.setPsf x y flag psf).1.psfXStart = some a ∧ (o.setPsf x y flag psf).1.psfYStart = some b ∧
      (o.setPsf x y flag psf).1.psfBoxSize = some im.nrow ∧
      (o.setPsf x y flag psf).1.xStart = o.xStart ∧ (o.setPsf x y flag psf).1.yStart = o.yStart ∧
      (o.setPsf x y flag psf).1.boxSize = o.boxSize := by
  unfold SEObj.setPsf at h ⊢
  cases flag with
  | error e => cases h
  | ok flag =>
    cases psf with
    | error e => cases h
    | ok im =>
      simp only at h ⊢
      cases hb : psfStampBounds x y im.nrow with
      | error e => rw [hb] at h; cases h
      | ok ab => exact ⟨im, ab.1, ab.2, rfl, hb, rfl, rfl, rfl, rfl, rfl, rfl⟩

theorem roughCut_place {A : Type} {c : BuildCfg A} {s : Src} {l : List Cand} (h : roughCut c s = .ok l) :
    ∀ k ∈ l, k.src = s ∧ PlacedAt c s k.obj := by
  rcases roughCut_ok h with ⟨_, rfl⟩ | ⟨_, _, _, rfl⟩ | ⟨p, _, _, _, h3, h4⟩
  · simp
  · simp
  · rcases h4 with ⟨_, rfl⟩ | ⟨_, o, flag, h5, h6, rfl⟩
    · simp
    · intro k hk
      rw [List.mem_singleton] at hk
      subst hk
      obtain ⟨b1, b2, b3⟩ := setSlice_place h5
      obtain ⟨im, a, b, c1, c2, c3, c4, c5, c6, c7, c8⟩ := setPsf_place h6
      exact ⟨rfl, p.1, p.2, im, a, b, h3, by rw [c6, b1], by rw [c7, b2], by rw [c8, b3], c1, c2, c3, c4, c5⟩

theorem possibleSlices_place {A : Type} {c : BuildCfg A} {srcs : List Src} {l : List Cand}
    (h : possibleSlices c srcs = .ok l) : ∀ k ∈ l, PlacedAt c k.src k.obj := by
  induction srcs generalizing l with
  | nil => have := Except.ok.inj h; subst this; simp
  | cons s srcs ih =>
    unfold possibleSlices at h
    obtain ⟨a, h1, h⟩ := bind_eq_ok.1 h
    obtain ⟨t, h2, h⟩ := bind_eq_ok.1 h
    have := Except.ok.inj h
    subst this
    intro k hk
    rcases List.mem_append.1 hk with hk | hk
    · obtain ⟨e1, e2⟩ := roughCut_place h1 k hk
      rw [e1]; exact e2
    · exact ih h2 k hk

theorem rejectOutliers_place {A σ : Type} {x : Ext A σ} {c : BuildCfg A} {cands out : List Cand}
    (h : rejectOutliers x c cands = .ok out) (hp : ∀ k ∈ cands, PlacedAt c k.src k.obj) :
    ∀ k ∈ out, PlacedAt c k.src k.obj := by
  unfold rejectOutliers at h
  split at h
  · obtain ⟨ims, _, h⟩ := bind_eq_ok.1 h
    obtain ⟨wts, _, h⟩ := bind_eq_ok.1 h
    obtain ⟨new, _, h⟩ := bind_eq_ok.1 h
    have := Except.ok.inj h
    subst this
    intro k hk
    obtain ⟨i, hi, rfl⟩ := List.mem_mapIdx.1 hk
    exact (hp _ (List.getElem_mem hi)).congr ⟨rfl, rfl, rfl, rfl, rfl, rfl⟩
  · have := Except.ok.inj h
    subst this
    exact hp

/-- The slice object in an outcome. -/
def Outcome.obj : Outcome → SEObj
  | .used o _ => o
  | .unused o _ => o

theorem setInterp_place {o o' : SEObj} {im : Img ℚ} {ns : List (Img ℚ)} {m : Img (BitVec 32)} {e : Option Err}
    (h : o.setInterp im ns m = (o', e)) : o'.SamePlace o := by
  unfold SEObj.setInterp at h
  repeat' split at h
  all_goals
    have := (Prod.mk.inj h).1
    subst this
    exact ⟨rfl, rfl, rfl, rfl, rfl, rfl⟩

theorem processCand_place {A σ : Type} {x : Ext A σ} {c : BuildCfg A} {k : Cand} {rng rng' : σ} {r : Outcome}
    (h : processCand x c k rng = .ok (r, rng')) : r.obj.SamePlace k.obj := by
  unfold processCand at h
  simp only at h
  obtain ⟨gaia, _, h⟩ := bind_eq_ok.1 h
  obtain ⟨w0, _, h⟩ := bind_eq_ok.1 h
  obtain ⟨b0, _, h⟩ := bind_eq_ok.1 h
  obtain ⟨wb, _, h⟩ := bind_eq_ok.1 h
  obtain ⟨sk, _, h⟩ := bind_eq_ok.1 h
  split at h
  · have := (Prod.mk.inj (Except.ok.inj h)).1
    subst this
    exact ⟨rfl, rfl, rfl, rfl, rfl, rfl⟩
  · unfold interpolateCand at h
    obtain ⟨image, _, h⟩ := bind_eq_ok.1 h
    obtain ⟨noises, _, h⟩ := bind_eq_ok.1 h
    obtain ⟨k1, _, h⟩ := bind_eq_ok.1 h
    obtain ⟨k2, _, h⟩ := bind_eq_ok.1 h
    split at h
    · have := (Prod.mk.inj (Except.ok.inj h)).1
      subst this
      exact ⟨rfl, rfl, rfl, rfl, rfl, rfl⟩
    · obtain ⟨k3, _, h⟩ := bind_eq_ok.1 h
      split at h
      · have := (Prod.mk.inj (Except.ok.inj h)).1
        subst this
        exact ⟨rfl, rfl, rfl, rfl, rfl, rfl⟩
      · split at h
        · have := (Prod.mk.inj (Except.ok.inj h)).1
          subst this
          exact ⟨rfl, rfl, rfl, rfl, rfl, rfl⟩
        · split at h
          · cases h
          · rename_i o' hset
            obtain ⟨psf, _, h⟩ := bind_eq_ok.1 h
            obtain ⟨wt, _, h⟩ := bind_eq_ok.1 h
            have := (Prod.mk.inj (Except.ok.inj h)).1
            subst this
            obtain ⟨p1, p2, p3, p4, p5, p6⟩ := setInterp_place hset
            exact ⟨p1, p2, p3, p4, p5, p6⟩

/-- All epochs in the result, used or not, are at the patch asked for. -/
theorem buildSliceInputs_place {A σ : Type} {x : Ext A σ} {c : BuildCfg A} {srcs : List Src} {rng : σ}
    {out : Inputs} (hx : Sane x c srcs) (h : buildSliceInputs x c srcs rng = .ok out) :
    ∀ e ∈ out.slices ++ out.notUsed, PlacedAt c e.src e.obj := by
  obtain ⟨cands0, h1, h2⟩ := buildSliceInputs_ok hx.keeps hx.box hx.frac h
  rcases h2 with ⟨h2, rfl⟩ | ⟨h2, cands, sl, wt, nu, fl, h3, _, _, _, rfl, _, h7, h8, h9, h10⟩
  · simp
  · have hp := rejectOutliers_place h3 (possibleSlices_place h1)
    intro e he
    simp only at he
    rcases List.mem_append.1 he with he | he
    · obtain ⟨i, hi, rfl⟩ := List.getElem_of_mem he
      have hmem : (sl[i], wt[i]'(h7 ▸ hi)) ∈ sl.zip wt := by
        rw [← List.getElem_zip (h := by simp [h7 ▸ hi, hi])]
        exact List.getElem_mem _
      obtain ⟨k, hk, g, g', a1, a2⟩ := h9 _ _ hmem
      rw [← a1]
      exact (hp k hk).congr (processCand_place a2)
    · obtain ⟨i, hi, rfl⟩ := List.getElem_of_mem he
      have hmem : (nu[i], fl[i]'(h8 ▸ hi)) ∈ nu.zip fl := by
        rw [← List.getElem_zip (h := by simp [h8 ▸ hi, hi])]
        exact List.getElem_mem _
      obtain ⟨k, hk, g, g', a1, a2⟩ := h10 _ _ hmem
      rw [← a1]
      exact (hp k hk).congr (processCand_place a2)

theorem Interleave.perm {α : Type} {l a b : List α} (h : Interleave l a b) : (a ++ b).Perm l := by
  induction h with
  | nil => exact .refl _
  | left x _ ih => exact ih.cons x
  | right x _ ih => exact List.perm_middle.trans (ih.cons x)

/-- C64: what is recorded for a slice: the used epochs first, then the others, all at the patch of the
slice; the weights sum to 1 if there is a used epoch and to 0 otherwise; an epoch was used if and only
if its flags are 0, and if and only if its weight is positive. -/
theorem C64_slice {A σ : Type} (x : Ext A σ) (c : BuildCfg A) (srcs : List Src) (rng : σ)
    (out : Inputs) (hx : Sane x c srcs)
    (hfw : c.coaddingWeight = .noiseFwhm → ∀ im v, x.fwhm im = .ok v → 0 < v)
    (h : buildSliceInputs x c srcs rng = .ok out) (id : ℤ) :
    ∃ rows, makeEpochsInfo id out.weights out.slices out.notUsed out.flags = .ok rows ∧
      List.Forall₂ EpochRow.Records rows (out.slices ++ out.notUsed) ∧
      (∀ e ∈ out.slices ++ out.notUsed, PlacedAt c e.src e.obj) ∧
      (out.slices ≠ [] → (rows.map EpochRow.weight).sum = 1) ∧
      (out.slices = [] → (rows.map EpochRow.weight).sum = 0) ∧
      (∀ r ∈ rows, r.id = id) ∧
      ∀ (k : Nat) (hk : k < rows.length), (k < out.slices.length ↔ rows[k].flags = 0) ∧
        (k < out.slices.length ↔ 0 < rows[k].weight) := by
  obtain ⟨w1, w2⟩ := C49_weights x c srcs rng out hx hfw h
  have f1 := (C46_accounted x c srcs rng out hx h).2.2.2
  have hp := buildSliceInputs_place hx h
  obtain ⟨a, b, h1, la, lb, ha, hb⟩ := C64_rows id out.weights out.slices out.notUsed out.flags w1 f1
    fun e he => (hp e he).placed
  have hwa : a.map EpochRow.weight = out.weights := by
    apply List.ext_getElem (by rw [List.length_map, la, w1])
    intro k h1 h2
    rw [List.getElem_map]
    exact (ha k (by simpa using h1) (by omega) h2).2.2.1
  have hwb : ∀ r ∈ b, r.weight = 0 := by
    intro r hr
    obtain ⟨k, hk, rfl⟩ := List.getElem_of_mem hr
    exact (hb k hk (by omega) (by omega)).2.2.1
  have hsb : (b.map EpochRow.weight).sum = 0 := by
    apply List.sum_eq_zero
    intro v hv
    obtain ⟨r, hr, rfl⟩ := List.mem_map.1 hv
    exact hwb r hr
  have hsum : ((a ++ b).map EpochRow.weight).sum = out.weights.sum := by
    rw [List.map_append, List.sum_append, hsb, hwa, add_zero]
  refine ⟨a ++ b, h1, ?_, hp, ?_, ?_, ?_, ?_⟩
  · apply List.rel_append
    · apply List.forall₂_iff_get.2
      refine ⟨la, fun k h1 h2 => ?_⟩
      exact (ha k h1 h2 (by omega)).2.2.2
    · apply List.forall₂_iff_get.2
      refine ⟨lb, fun k h1 h2 => ?_⟩
      exact (hb k h1 h2 (by omega)).2.2.2
  · intro hne; rw [hsum]; exact (w2 hne).2
  · intro he
    have : out.weights = [] := by rw [← List.length_eq_zero_iff, w1, he]; rfl
    rw [hsum, this]; rfl
  · intro r hr
    rcases List.mem_append.1 hr with hr | hr
    · obtain ⟨k, hk, rfl⟩ := List.getElem_of_mem hr
      exact (ha k hk (by omega) (by omega)).1
    · obtain ⟨k, hk, rfl⟩ := List.getElem_of_mem hr
      exact (hb k hk (by omega) (by omega)).1
  · intro k hk
    rw [List.length_append] at hk
    by_cases hka : k < a.length
    · have hne : out.slices ≠ [] := by
        intro he; rw [he] at la; simp at la; rw [la] at hka; simp at hka
      have hw : k < out.weights.length := by omega
      obtain ⟨_, e1, e2, _⟩ := ha k hka (by omega) hw
      rw [List.getElem_append_left hka, e1, e2]
      have := (w2 hne).1 _ (List.getElem_mem hw)
      simp [← la, hka, this]
    · have hkb : k - a.length < b.length := by omega
      have hf : k - a.length < out.flags.length := by omega
      obtain ⟨_, e1, e2, _⟩ := hb _ hkb (by omega) hf
      rw [List.getElem_append_right (by omega), e1, e2]
      have := (C47_nonzero x c srcs rng out hx h _ (List.getElem_mem hf)).1
      have hna : ¬ k < out.slices.length := by omega
      exact ⟨⟨fun h => absurd h hna, fun h => absurd h this⟩, ⟨fun h => absurd h hna, fun h => absurd h (lt_irrefl _)⟩⟩

/-- C65: every SE image that passes the geometric cuts is recorded exactly once, if at least one of
them has a usable PSF model.  The statement without that condition is false, see `C65_recorded_fails`. -/
theorem C65_recorded_partial {A σ : Type} (x : Ext A σ) (c : BuildCfg A) (srcs : List Src) (rng : σ)
    (out : Inputs) (hx : Sane x c srcs)
    (h : buildSliceInputs x c srcs rng = .ok out) (id : ℤ) (hgood : ∃ s ∈ srcs, s.Passes c ∧ s.psfFlag = .ok false) :
    ∃ (rows : List EpochRow) (l : List Src), makeEpochsInfo id out.weights out.slices out.notUsed out.flags = .ok rows ∧
      (∀ s, s ∈ l ↔ s ∈ srcs ∧ s.Passes c) ∧ l.Sublist srcs ∧
      (rows.map EpochRow.imageId).Perm (l.map Src.imageId) := by
  classical
  obtain ⟨c1, _, c3, c4⟩ := C46_accounted x c srcs rng out hx h
  have hp := buildSliceInputs_place hx h
  obtain ⟨a, b, h1, la, lb, ha, hb⟩ := C64_rows id out.weights out.slices out.notUsed out.flags c3 c4
    fun e he => (hp e he).placed
  refine ⟨a ++ b, srcs.filter fun s => decide (s.Passes c), h1, by simp, List.filter_sublist, ?_⟩
  have hids : (a ++ b).map EpochRow.imageId =
      (out.slices.map Epoch.src ++ out.notUsed.map Epoch.src).map Src.imageId := by
    rw [List.map_append, List.map_append]
    congr 1
    · apply List.ext_getElem (by simp [la])
      intro k h1 h2
      simp only [List.getElem_map]
      exact (ha k (by simpa using h1) (by simp at h1; omega) (by simp at h1; omega)).2.2.2.imageId
    · apply List.ext_getElem (by simp [lb])
      intro k h1 h2
      simp only [List.getElem_map]
      exact (hb k (by simpa using h1) (by simp at h1; omega) (by simp at h1; omega)).2.2.2.imageId
  rw [hids]
  have := (c1 hgood).perm.map Src.imageId
  convert this using 3

/-- C65 fails: if the PSF models of all images that pass the geometric cuts are bad, the images are
not recorded at all. -/
theorem C65_recorded_fails {A σ : Type} (x : Ext A σ) (c : BuildCfg A) (srcs : List Src) (rng : σ)
    (out : Inputs) (hx : Sane x c srcs) (h : buildSliceInputs x c srcs rng = .ok out) (id : ℤ)
    (hbad : ∀ s ∈ srcs, s.Passes c → s.psfFlag = .ok true) :
    makeEpochsInfo id out.weights out.slices out.notUsed out.flags = .ok [] := by
  obtain ⟨_, c2, c3, c4⟩ := C46_accounted x c srcs rng out hx h
  obtain ⟨e1, e2⟩ := c2 (by
    rintro ⟨s, hs, hp, hf⟩
    rw [hbad s hs hp] at hf
    cases hf)
  rw [e1] at c3
  rw [e2] at c4
  have w : out.weights = [] := by simpa using c3
  have f : out.flags = [] := by simpa using c4
  rw [w, f, e1, e2]
  rfl

/-- The hypotheses of `C64_slice` and `C65_recorded_partial` are met by the run of `exRun`, with two used and two unused epochs. -/
example : ∃ out, Sane exExt exCfg exSrcs ∧ buildSliceInputs exExt exCfg exSrcs 0 = .ok out ∧
    (∃ s ∈ exSrcs, s.Passes exCfg ∧ s.psfFlag = .ok false) ∧
    exCfg.coaddingWeight = .noise ∧ out.slices.length = 2 ∧ out.notUsed.length = 2 := by
  obtain ⟨out, h1, h2⟩ := exView_some exRun
  have hl : out.slices.length = 2 := by simpa [exViewOf] using congrArg (fun v => v.slices.length) h2
  have hu : out.notUsed.length = 2 := congrArg ExView.notUsed h2
  refine ⟨out, exSrcs_sane, h1, ?_, rfl, hl, hu⟩
  by_contra hno
  have := ((C46_accounted exExt exCfg exSrcs 0 out exSrcs_sane h1).2.1 hno).1
  rw [this] at hl; cases hl

/-- A single image, on the patch, with a bad PSF model: the hypotheses of `C65_recorded_fails`. -/
example : ∃ out, Sane exExt exCfg [exSrc 0 1 0 true] ∧
    buildSliceInputs exExt exCfg [exSrc 0 1 0 true] 0 = .ok out ∧ (exSrc 0 1 0 true).Passes exCfg ∧
    (∀ s ∈ [exSrc 0 1 0 true], s.Passes exCfg → s.psfFlag = .ok true) := by
  have hs : Sane exExt exCfg [exSrc 0 1 0 true] :=
    exSane _ (by intro s hs; simp only [List.mem_singleton] at hs; exact ⟨_, _, _, _, hs⟩) _ rfl rfl
  have hrun : exView (buildSliceInputs exExt exCfg [exSrc 0 1 0 true] 0) = some ⟨[], [], 0, []⟩ := by
    decide +kernel
  have hcut : (possibleSlices exCfg [exSrc 0 1 0 true]).map List.length = .ok 1 := by decide +kernel
  obtain ⟨out, h1, _⟩ := exView_some hrun
  refine ⟨out, hs, h1, ?_, ?_⟩
  · cases hc : possibleSlices exCfg [exSrc 0 1 0 true] with
    | error e => rw [hc] at hcut; cases hcut
    | ok l =>
      rw [hc] at hcut
      obtain ⟨f1, f2⟩ := possibleSlices_facts hs.box hs.frac hc
      cases l with
      | nil => cases hcut
      | cons k l =>
        have hk := (f2 k (by simp)).passes
        have hmem : k.src ∈ (k :: l).map Cand.src := by simp
        rw [f1] at hmem
        have := (List.mem_filter.1 hmem).1
        rw [List.mem_singleton] at this
        rwa [this] at hk
  · intro s hs _
    rw [List.mem_singleton] at hs
    subst hs; rfl

/-- `C64_rows`: no epochs used, and one that is placed and not used. -/
example (e : Epoch) (h : e.obj.Placed) := C64_rows 3 [] [] [e] [2] rfl rfl (by simpa using h)

end Pizza
