import Verif.Spec.Linear
import Verif.Props.PixelLaw
import Verif.Lemmas.Order

/-!
The steps between the pixels of an SE image and the pixels of a slice, as maps on arrays.
-/

namespace Pizza

variable {A σ S : Type}

abbrev Plane := Nat → Nat → ℚ

/-- The same values on the array of side `n`. -/
def AgreeOn (n m : Nat) (f g : Plane) : Prop := ∀ r < n, ∀ c < m, f r c = g r c

/-- A map on arrays of side `n`, linear if `lin`. -/
structure PlaneOp (lin : Prop) (n : Nat) (P : Plane → Plane) : Prop where
  linear : lin → IsLinearMap ℚ P
  agree : ∀ f g, AgreeOn n n f g → AgreeOn n n (P f) (P g)

theorem PlaneOp.id {lin : Prop} {n : Nat} : PlaneOp lin n (fun f => f) :=
  ⟨fun _ => ⟨fun _ _ => rfl, fun _ _ => rfl⟩, fun _ _ h => h⟩

theorem PlaneOp.comp {lin : Prop} {n : Nat} {P Q : Plane → Plane} (hp : PlaneOp lin n P) (hq : PlaneOp lin n Q) :
    PlaneOp lin n (fun f => P (Q f)) :=
  ⟨fun h => ⟨fun f g => by rw [(hq.linear h).map_add, (hp.linear h).map_add],
    fun a f => by rw [(hq.linear h).map_smul, (hp.linear h).map_smul]⟩,
    fun f g h => hp.agree _ _ (hq.agree _ _ h)⟩

/-! ### copied edges -/

theorem copyRow_op (lin : Prop) {n i ii : Nat} (h : ii < n) (good : Nat → Bool) :
    PlaneOp lin n (fun f r c => if r = i ∧ good c = true then f ii c else f r c) := by
  refine ⟨fun _ => ⟨fun f g => ?_, fun a f => ?_⟩, fun f g hfg r hr c hc => ?_⟩
  · funext r c; simp only [Pi.add_apply]; split <;> rfl
  · funext r c; simp only [Pi.smul_apply]; split <;> rfl
  · show (if _ then _ else _) = (if _ then _ else _)
    split
    · exact hfg _ h _ hc
    · exact hfg _ hr _ hc

theorem copyCol_op (lin : Prop) {n i ii : Nat} (h : ii < n) (good : Nat → Bool) :
    PlaneOp lin n (fun f r c => if c = i ∧ good r = true then f r ii else f r c) := by
  refine ⟨fun _ => ⟨fun f g => ?_, fun a f => ?_⟩, fun f g hfg r hr c hc => ?_⟩
  · funext r c; simp only [Pi.add_apply]; split <;> rfl
  · funext r c; simp only [Pi.smul_apply]; split <;> rfl
  · show (if _ then _ else _) = (if _ then _ else _)
    split
    · exact hfg _ hr _ h
    · exact hfg _ hr _ hc

/-- A step that does the same to the image and to all noise fields, and whose effect on masks and weights does not
depend on them. -/
def ActsAs (step : EdgeState ℚ → EdgeState ℚ) (P : Plane → Plane) (fb : Img (BitVec 32) → Img (BitVec 32))
    (fw : Img ℚ → Img ℚ) : Prop :=
  ∀ st, (step st).image = ⟨st.image.nrow, st.image.ncol, P st.image.px⟩ ∧
    (step st).noises = st.noises.map (fun a => ⟨a.nrow, a.ncol, P a.px⟩) ∧
    (step st).bmask = fb st.bmask ∧ (step st).weight = fw st.weight

theorem edgeRowStep_acts (lin : Prop) (w : Img ℚ) (b : Img (BitVec 32)) (flags : BitVec 32) {n i ii : Nat} (h : ii < n) :
    ∃ P fb fw, PlaneOp lin n P ∧ ActsAs (edgeRowStep w b flags i ii) P fb fw := by
  unfold edgeRowStep
  by_cases hc : ((allLt w.ncol fun c => badPix w b flags i c) && !(allLt w.ncol fun c => badPix w b flags ii c)) = true
  · refine ⟨_, fun x => x.copyRow i ii (fun c => !badPix w b flags ii c),
      fun x => x.copyRow i ii (fun c => !badPix w b flags ii c),
      copyRow_op lin (i := i) h (fun c => !badPix w b flags ii c), ?_⟩
    intro st
    simp only [hc]
    exact ⟨rfl, rfl, rfl, rfl⟩
  · refine ⟨_, fun x => x, fun x => x, PlaneOp.id, ?_⟩
    intro st
    simp only [hc]
    exact ⟨rfl, (List.map_id _).symm, rfl, rfl⟩

theorem edgeColStep_acts (lin : Prop) (w : Img ℚ) (b : Img (BitVec 32)) (flags : BitVec 32) {n i ii : Nat} (h : ii < n) :
    ∃ P fb fw, PlaneOp lin n P ∧ ActsAs (edgeColStep w b flags i ii) P fb fw := by
  unfold edgeColStep
  by_cases hc : ((allLt w.nrow fun r => badPix w b flags r i) && !(allLt w.nrow fun r => badPix w b flags r ii)) = true
  · refine ⟨_, fun x => x.copyCol i ii (fun r => !badPix w b flags r ii),
      fun x => x.copyCol i ii (fun r => !badPix w b flags r ii),
      copyCol_op lin (i := i) h (fun r => !badPix w b flags r ii), ?_⟩
    intro st
    simp only [hc]
    exact ⟨rfl, rfl, rfl, rfl⟩
  · refine ⟨_, fun x => x, fun x => x, PlaneOp.id, ?_⟩
    intro st
    simp only [hc]
    exact ⟨rfl, (List.map_id _).symm, rfl, rfl⟩

theorem ActsAs.comp {s t : EdgeState ℚ → EdgeState ℚ} {P Q : Plane → Plane}
    {fb gb : Img (BitVec 32) → Img (BitVec 32)} {fw gw : Img ℚ → Img ℚ} (hs : ActsAs s P fb fw) (ht : ActsAs t Q gb gw) :
    ActsAs (fun st => s (t st)) (fun f => P (Q f)) (fun x => fb (gb x)) (fun x => fw (gw x)) := by
  intro st
  obtain ⟨a1, a2, a3, a4⟩ := ht st
  obtain ⟨b1, b2, b3, b4⟩ := hs (t st)
  refine ⟨?_, ?_, ?_, ?_⟩
  · rw [b1, a1]
  · rw [b2, a2, List.map_map]; rfl
  · rw [b3, a3]
  · rw [b4, a4]

/-- The image and the noise fields after a step that does the same to all of them. -/
def Work.Became (P : Plane → Plane) (k k' : Work) : Prop :=
  k'.image = ⟨k.image.nrow, k.image.ncol, P k.image.px⟩ ∧
    k'.noises = k.noises.map (fun a => ⟨a.nrow, a.ncol, P a.px⟩)

theorem edgeStage_acts (lin : Prop) (on : Bool) (flags : BitVec 32) {n : Nat} {w : Img ℚ} (hw : w.Sq n)
    (b : Img (BitVec 32)) : ∃ P w' b', PlaneOp lin n P ∧ ∀ k out, edgeStage on flags k w b = .ok out →
      Work.Became P k out.1 ∧ out.2.1 = w' ∧ out.2.2.1 = b' := by
  cases on with
  | false =>
    refine ⟨_, w, b, PlaneOp.id, ?_⟩
    intro k out h
    cases h
    exact ⟨⟨rfl, (List.map_id _).symm⟩, rfl, rfl⟩
  | true =>
    by_cases hn : n < 2
    · refine ⟨_, w, b, PlaneOp.id, ?_⟩
      intro k out h
      have : copyMaskedEdges k.image k.noises w b flags = .error .indexError := by
        unfold copyMaskedEdges
        simp only [hw.1, hw.2, hn, true_or, if_true]
      unfold edgeStage at h
      rw [if_pos rfl, this] at h
      cases h
    · obtain ⟨P1, b1, w1, p1, q1⟩ := edgeRowStep_acts lin w b flags (n := n) (i := 0) (ii := 1) (by omega)
      obtain ⟨P2, b2, w2, p2, q2⟩ := edgeColStep_acts lin w b flags (n := n) (i := 0) (ii := 1) (by omega)
      obtain ⟨P3, b3, w3, p3, q3⟩ := edgeRowStep_acts lin w b flags (n := n) (i := n - 1) (ii := n - 2) (by omega)
      obtain ⟨P4, b4, w4, p4, q4⟩ := edgeColStep_acts lin w b flags (n := n) (i := n - 1) (ii := n - 2) (by omega)
      have q := q4.comp (q3.comp (q2.comp q1))
      refine ⟨_, w4 (w3 (w2 (w1 w))), b4 (b3 (b2 (b1 b))), p4.comp (p3.comp (p2.comp p1)), ?_⟩
      intro k out h
      unfold edgeStage at h
      rw [if_pos rfl] at h
      obtain ⟨st, h1, h⟩ := bind_eq_ok.1 h
      obtain ⟨bad, h2, h⟩ := bind_eq_ok.1 h
      cases h
      unfold copyMaskedEdges at h1
      simp only [hw.1, hw.2] at h1
      rw [if_neg (by omega)] at h1
      cases h1
      obtain ⟨e1, e2, e3, e4⟩ := q ⟨k.image, k.noises, b, w⟩
      exact ⟨⟨e1, e2⟩, e4, e3⟩

/-! ### interpolation -/

theorem unravelIndex_lt {nrow ncol : Nat} {l : List ℤ} {out : List (Nat × Nat)}
    (h : unravelIndex nrow ncol l = .ok out) : ∀ p ∈ out, p.1 < nrow ∧ p.2 < ncol := by
  intro p hp
  obtain ⟨i, hi⟩ := List.getElem?_of_mem hp
  obtain ⟨hl, hm⟩ := mapM_ok_inv h
  have hil : i < l.length := by
    have := (List.getElem?_eq_some_iff.1 hi).1
    omega
  obtain ⟨b, h1, h2⟩ := hm i _ (List.getElem?_eq_getElem hil)
  cases hi.symm.trans h1
  unfold unravelOne at h2
  split at h2
  · rename_i hb
    cases h2
    have hpos : 0 < ncol := by
      rcases Nat.eq_zero_or_pos ncol with h0 | h0
      · rw [h0] at hb; simp at hb; omega
      · exact h0
    refine ⟨?_, Nat.mod_lt _ hpos⟩
    apply Nat.div_lt_of_lt_mul
    rw [Nat.mul_comm]
    omega
  · cases h2

/-- What is assigned to masked pixels. -/
def fillOp (G : (Nat → ℚ) → Nat × Nat → ℚ) (good bad : List (Nat × Nat)) (m : Img Bool) (f : Plane) : Plane :=
  fun r c => if m.px r c then
    (bad.map (G fun k => (good.map fun p => f p.1 p.2).getD k 0)).getD ((maskedList m).idxOf (r, c)) (f r c) else f r c

theorem fillOp_op {lin : Prop} {n : Nat} {G : (Nat → ℚ) → Nat × Nat → ℚ} (hG : lin → IsLinearMap ℚ G)
    {good bad : List (Nat × Nat)} (hgood : ∀ p ∈ good, p.1 < n ∧ p.2 < n) (m : Img Bool) :
    PlaneOp lin n (fillOp G good bad m) := by
  have hsome : ∀ (F : Nat × Nat → ℚ) (i : Nat) (d : ℚ), (bad.map F).getD i d = (bad[i]?).elim d F := by
    intro F i d
    rw [List.getD_eq_getElem?_getD, List.getElem?_map]
    cases bad[i]? <;> rfl
  have hv : ∀ (f : Plane) (k : Nat), (good.map fun p => f p.1 p.2).getD k 0 = (good[k]?).elim 0 fun p => f p.1 p.2 := by
    intro f k
    rw [List.getD_eq_getElem?_getD, List.getElem?_map]
    cases good[k]? <;> rfl
  refine ⟨fun h => ⟨fun f g => ?_, fun a f => ?_⟩, fun f g hfg r hr c hc => ?_⟩
  · have e : (fun k => (good.map fun p => (f + g) p.1 p.2).getD k 0) =
        (fun k => (good.map fun p => f p.1 p.2).getD k 0) + fun k => (good.map fun p => g p.1 p.2).getD k 0 := by
      funext k
      rw [Pi.add_apply, hv (f + g), hv f, hv g]
      cases good[k]? <;> simp
    funext r c
    simp only [fillOp, Pi.add_apply]
    split
    · simp only [Pi.add_apply] at e
      rw [e, (hG h).map_add]
      simp only [hsome]
      cases bad[(maskedList m).idxOf (r, c)]? <;> rfl
    · rfl
  · have e : (fun k => (good.map fun p => (a • f) p.1 p.2).getD k 0) =
        a • fun k => (good.map fun p => f p.1 p.2).getD k 0 := by
      funext k
      rw [Pi.smul_apply, hv (a • f), hv f]
      cases good[k]? <;> simp
    funext r c
    simp only [fillOp, Pi.smul_apply]
    split
    · simp only [Pi.smul_apply] at e
      rw [e, (hG h).map_smul]
      simp only [hsome]
      cases bad[(maskedList m).idxOf (r, c)]? <;> rfl
    · rfl
  · have e : (good.map fun p => f p.1 p.2) = good.map fun p => g p.1 p.2 :=
      List.map_congr_left fun p hp => hfg _ (hgood p hp).1 _ (hgood p hp).2
    simp only [fillOp]
    rw [e, hfg r hr c hc]

/-- The interpolation at given points as a function of the values there. -/
theorem interp_fun (x : Ext A σ) (pts : List (Nat × Nat)) : ∃ G : (Nat → ℚ) → Nat × Nat → ℚ,
    (x.LinearInterp → IsLinearMap ℚ G) ∧ ∀ vals f, vals.length = pts.length → x.interp pts vals = .ok f →
      f = G fun k => vals.getD k 0 := by
  by_cases hl : x.LinearInterp
  · obtain ⟨G, hG⟩ := hl pts
    exact ⟨G, fun _ => ⟨G.map_add, G.map_smul⟩, hG⟩
  · refine ⟨fun u => match x.interp pts ((List.range pts.length).map u) with | .ok f => f | .error _ => fun _ => 0,
      fun h => absurd h hl, fun vals f h1 h2 => ?_⟩
    have : (List.range pts.length).map (fun k => vals.getD k 0) = vals := by
      apply List.ext_getElem (by simp [h1])
      intro i i1 i2
      simp [List.getD_eq_getElem?_getD, List.getElem?_eq_getElem i2]
    simp only [this, h2]

theorem interpAll_acts {one : Img ℚ → Option Unit → Except Err (Img ℚ × Option Unit)} {P : Plane → Plane}
    (h1 : ∀ a r out, one a r = .ok out → out.1 = ⟨a.nrow, a.ncol, P a.px⟩) {l : List (Img ℚ)} {r : Option Unit}
    {out : List (Img ℚ) × Option Unit} (h : interpAll one l r = .ok out) :
    out.1 = l.map (fun a => ⟨a.nrow, a.ncol, P a.px⟩) := by
  induction l generalizing r out with
  | nil => cases h; rfl
  | cons a l ih =>
    unfold interpAll at h
    obtain ⟨o, e1, h⟩ := bind_eq_ok.1 h
    obtain ⟨os, e2, h⟩ := bind_eq_ok.1 h
    cases h
    rw [List.map_cons]
    simp only
    rw [← ih e2, ← h1 _ _ _ e1]

theorem splineStage_acts (x : Ext A σ) (flags : BitVec 32) {n : Nat} {w : Img ℚ} (hw : w.Sq n)
    (b : Img (BitVec 32)) : ∃ P, PlaneOp x.LinearInterp n P ∧ ∀ k k', splineStage x flags k w b = .ok (some k') →
      Work.Became P k k' := by
  by_cases h0 : maskSum (badMaskOf w b flags) = 0
  · refine ⟨_, PlaneOp.id, fun k k' h => ?_⟩
    unfold splineStage interpolateImageAndNoise at h
    simp only [h0, ne_eq, not_true, if_false] at h
    cases h
    exact ⟨rfl, (List.map_id _).symm⟩
  · set m := badMaskOf w b flags with hm
    rcases hst : getNearbyGoodPixels m (maskSum m) 4 1 with e | st
    · refine ⟨_, PlaneOp.id, fun k k' h => ?_⟩
      exfalso
      unfold splineStage interpolateImageAndNoise at h
      simp only [← hm, h0, ne_eq, not_false_eq_true, if_true, hst] at h
      split at h <;> cases h
    rcases hbad : unravelIndex m.nrow m.ncol st.badInd with e | bad
    · refine ⟨_, PlaneOp.id, fun k k' h => ?_⟩
      exfalso
      unfold splineStage interpolateImageAndNoise at h
      simp only [← hm, h0, ne_eq, not_false_eq_true, if_true, hst, ok_bind, hbad] at h
      split at h <;> cases h
    rcases hgood : unravelIndex m.nrow m.ncol (npUnique st.goodInd) with e | good
    · refine ⟨_, PlaneOp.id, fun k k' h => ?_⟩
      exfalso
      unfold splineStage interpolateImageAndNoise at h
      simp only [← hm, h0, ne_eq, not_false_eq_true, if_true, hst, ok_bind, hbad, hgood] at h
      split at h <;> cases h
    obtain ⟨G, hG, hG'⟩ := interp_fun x good
    refine ⟨fillOp G good bad m, fillOp_op hG (fun p hp => ?_) m, fun k k' h => ?_⟩
    · have := unravelIndex_lt hgood p hp
      rw [show m.nrow = n from hw.1, show m.ncol = n from hw.2] at this
      exact this
    have one : ∀ (a : Img ℚ) (med : ℚ) (r : Option Unit) (out : Img ℚ × Option Unit),
        interpOne x.interp (fun (s : Unit) _ _ => ([], s)) a bad good m none med r = .ok out →
        out.1 = ⟨a.nrow, a.ncol, fillOp G good bad m a.px⟩ := by
      intro a med r out ho
      unfold interpOne at ho
      simp only [pure, Except.pure, ok_bind] at ho
      obtain ⟨f, e1, ho⟩ := bind_eq_ok.1 ho
      obtain ⟨o, e2, ho⟩ := bind_eq_ok.1 ho
      cases ho
      have hf := hG' _ f (by simp) e1
      unfold assignMask at e2
      split at e2
      · cases e2
        simp only [hf]
        rfl
      · cases e2
    unfold splineStage interpolateImageAndNoise at h
    simp only [← hm, h0, ne_eq, not_false_eq_true, if_true, hst, ok_bind, hbad, hgood] at h
    split at h
    · cases h
    · simp only [Bool.false_eq_true, if_false, pure, Except.pure, ok_bind] at h
      obtain ⟨res, h1, h⟩ := bind_eq_ok.1 h
      obtain ⟨im, e1, h1⟩ := bind_eq_ok.1 h1
      obtain ⟨ns, e2, h1⟩ := bind_eq_ok.1 h1
      cases h1
      cases h
      exact ⟨one _ _ _ _ e1, interpAll_acts (fun a r out h => one _ _ _ _ h) e2⟩

/-! ### resampling -/

theorem lanczosSum_linear (n : Nat) (area : Plane) (y x : ℚ) :
    IsLinearMap ℚ fun f : Plane => lanczosSum (perArea ⟨n, n, f⟩ area n) 3 y x := by
  have e : ∀ (f : Plane) (r c : ℤ), ext (perArea ⟨n, n, f⟩ area n) r c =
      if 0 ≤ r ∧ r < n ∧ 0 ≤ c ∧ c < n then f r.toNat c.toNat / area r.toNat c.toNat else 0 := by
    intro f r c
    split
    · rename_i h
      rw [ext_in _ h.1 h.2.1 h.2.2.1 h.2.2.2]
      rfl
    · rename_i h
      exact ext_out _ h
  constructor
  · intro f g
    unfold lanczosSum
    rw [← Finset.sum_add_distrib]
    refine Finset.sum_congr rfl fun r _ => ?_
    rw [← Finset.sum_add_distrib]
    refine Finset.sum_congr rfl fun c _ => ?_
    rw [e, e, e]
    split
    · simp only [Pi.add_apply]; ring
    · ring
  · intro a f
    unfold lanczosSum
    rw [Finset.smul_sum]
    refine Finset.sum_congr rfl fun r _ => ?_
    rw [Finset.smul_sum]
    refine Finset.sum_congr rfl fun c _ => ?_
    rw [e, e, smul_eq_mul]
    split
    · simp only [Pi.smul_apply, smul_eq_mul]; ring
    · ring

theorem lanczosSum_agree {n : Nat} (area : Plane) (y x : ℚ) {f g : Plane} (h : AgreeOn n n f g) :
    lanczosSum (perArea ⟨n, n, f⟩ area n) 3 y x = lanczosSum (perArea ⟨n, n, g⟩ area n) 3 y x := by
  unfold lanczosSum
  refine Finset.sum_congr rfl fun r _ => Finset.sum_congr rfl fun c _ => ?_
  congr 1
  by_cases hr : 0 ≤ r ∧ r < n ∧ 0 ≤ c ∧ c < n
  · rw [ext_in _ hr.1 hr.2.1 hr.2.2.1 hr.2.2.2, ext_in _ hr.1 hr.2.1 hr.2.2.1 hr.2.2.2]
    show f _ _ / _ = g _ _ / _
    rw [h _ (by omega) _ (by omega)]
  · rw [ext_out _ hr, ext_out _ hr]

/-- The pixels of an epoch on the grid of a slice as a function of the pixels of its window. -/
def resampleOp (lk : Lookups) (row : ObjRow) (n : Nat) (sx sy : ℤ) (f : Plane) : Plane := fun r c =>
  (lanczosAt (perArea ⟨n, n, f⟩ (fun r c => lk.areaSe ((c : ℚ) + sx) ((r : ℚ) + sy)) n)
    (localPos lk row.origStartCol row.origStartRow sx sy r c)).1 *
    lk.areaCoadd ((c : ℚ) + row.origStartCol) ((r : ℚ) + row.origStartRow)

theorem resampleOp_linear (lk : Lookups) (row : ObjRow) (n : Nat) (sx sy : ℤ) :
    IsLinearMap ℚ (resampleOp lk row n sx sy) := by
  constructor
  · intro f g
    funext r c
    simp only [resampleOp, Pi.add_apply]
    cases localPos lk row.origStartCol row.origStartRow sx sy r c with
    | none => simp [lanczosAt]
    | some p =>
      simp only [lanczosAt]
      rw [(lanczosSum_linear n _ p.1 p.2).map_add, add_mul]
  · intro a f
    funext r c
    simp only [resampleOp, Pi.smul_apply]
    cases localPos lk row.origStartCol row.origStartRow sx sy r c with
    | none => simp [lanczosAt]
    | some p =>
      simp only [lanczosAt]
      rw [(lanczosSum_linear n _ p.1 p.2).map_smul, smul_eq_mul, smul_eq_mul, mul_assoc]

theorem resampleOp_agree (lk : Lookups) (row : ObjRow) {n : Nat} (sx sy : ℤ) {f g : Plane} (h : AgreeOn n n f g) :
    resampleOp lk row n sx sy f = resampleOp lk row n sx sy g := by
  funext r c
  unfold resampleOp
  cases localPos lk row.origStartCol row.origStartRow sx sy r c with
  | none => simp [lanczosAt]
  | some p =>
    simp only [lanczosAt]
    rw [lanczosSum_agree _ p.1 p.2 h]

theorem cut_linear (y0 x0 : Nat) : IsLinearMap ℚ fun (f : Plane) i j => f (y0 + i) (x0 + j) :=
  ⟨fun _ _ => rfl, fun _ _ => rfl⟩

end Pizza
