import Verif.Spec.BuildInputs
import Verif.Props.SEObject
import Verif.Props.SEGeom
import Verif.Props.Symmetrize
import Verif.Props.Interp2

/-! Facts about the stages of `buildSliceInputs`. -/

namespace Pizza

/-! ### the rough cut -/

theorem roughCut_passes_iff {A : Type} {c : BuildCfg A} {s : Src}
    (hc : 1 ≤ c.boxSize) (hf : 1 ≤ c.fracBuffer) {p : ℚ × ℚ} :
    ccdContainsBounds s.nrow s.ncol (computeSliceBounds p.1 p.2 c.boxSize c.fracBuffer) c.edgeBuffer
      = true ↔
    ∀ i j : ℤ, ∀ b, computeSliceBounds p.1 p.2 c.boxSize c.fracBuffer = b →
      b.rowmin ≤ i → i ≤ b.rowmax → b.colmin ≤ j → j ≤ b.colmax →
      max c.edgeBuffer 0 ≤ i ∧ i < s.nrow - max c.edgeBuffer 0 ∧
      max c.edgeBuffer 0 ≤ j ∧ j < s.ncol - max c.edgeBuffer 0 := by
  obtain ⟨side, b, hb, h1, h2, _, _, h3, _⟩ :=
    C07_slice_bounds p.1 p.2 c.fracBuffer c.boxSize (by linarith) (by omega)
  have := h3 hf
  rw [C08_contains_iff _ _ _ _ (by rw [hb]; omega) (by rw [hb]; omega)]
  constructor
  · intro h i j b' hb'; subst hb'; exact h i j
  · intro h i j; exact h i j _ rfl

theorem roughCut_ok {A : Type} {c : BuildCfg A} {s : Src} {l : List Cand}
    (h : roughCut c s = .ok l) :
    (s.imageFlags ≠ 0 ∧ l = []) ∨
    (s.imageFlags = 0 ∧ s.init = .ok () ∧ s.containsRadec = .ok false ∧ l = []) ∨
    ∃ p, s.imageFlags = 0 ∧ s.init = .ok () ∧ s.containsRadec = .ok true ∧ s.pos = .ok p ∧
      ((ccdContainsBounds s.nrow s.ncol (computeSliceBounds p.1 p.2 c.boxSize c.fracBuffer)
          c.edgeBuffer = false ∧ l = []) ∨
        (ccdContainsBounds s.nrow s.ncol (computeSliceBounds p.1 p.2 c.boxSize c.fracBuffer)
          c.edgeBuffer = true ∧ ∃ o flag,
          ({} : SEObj).setSlice s.reads s.scale
            (computeSliceBounds p.1 p.2 c.boxSize c.fracBuffer) = (o, none) ∧
          (o.setPsf s.psfX s.psfY s.psfFlag s.psfImage).2 = .ok flag ∧
          l = [⟨s, (o.setPsf s.psfX s.psfY s.psfFlag s.psfImage).1, flag⟩])) := by
  unfold roughCut at h
  split at h
  · rename_i h0
    right
    obtain ⟨⟨⟩, h1, h⟩ := bind_eq_ok.1 h
    obtain ⟨inside, h2, h⟩ := bind_eq_ok.1 h
    cases inside with
    | false => left; exact ⟨h0, h1, h2, (Except.ok.inj h).symm⟩
    | true =>
      right
      simp only [if_true] at h
      obtain ⟨p, h3, h⟩ := bind_eq_ok.1 h
      refine ⟨p, h0, h1, h2, h3, ?_⟩
      split at h
      · rename_i h4
        right
        split at h
        · cases h
        · rename_i o ho
          obtain ⟨flag, h5, h⟩ := bind_eq_ok.1 h
          exact ⟨h4, o, flag, ho, h5, (Except.ok.inj h).symm⟩
      · rename_i h4
        left
        exact ⟨by simpa using h4, (Except.ok.inj h).symm⟩
  · rename_i h0
    left; exact ⟨h0, (Except.ok.inj h).symm⟩

/-- What is known about a candidate after the rough cut. -/
structure RoughFacts {A : Type} (c : BuildCfg A) (n : Nat) (k : Cand) : Prop where
  passes : k.src.Passes c
  psfFlag : k.src.psfFlag = .ok k.psfFlag
  data : ∃ d, k.src.ReadsAs c d ∧ k.obj.image = some d.image ∧ k.obj.noises = some d.noises ∧
    k.obj.weight = some d.weight ∧ k.obj.bmask = some d.bmask ∧
    k.obj.boxSize = some d.boxSize ∧ k.obj.xStart = some d.xStart ∧ k.obj.yStart = some d.yStart ∧
    (k.src.WellShaped → d.image.Sq n ∧ d.weight.Sq n ∧ d.bmask.Sq n ∧ (∀ a ∈ d.noises, a.Sq n)) ∧
    d.boxSize.toNat = n
  psf : ∃ p, k.obj.psf = some p

theorem setPsf_ok {o : SEObj} {x y : ℚ} {flag : Except Err Bool} {psf : Except Err (Img ℚ)} {f : Bool}
    (h : (o.setPsf x y flag psf).2 = .ok f) :
    flag = .ok f ∧ ∃ im, psf = .ok im ∧ ∃ a b, (o.setPsf x y flag psf).1 =
      { o with psf := some im, psfXStart := some a, psfYStart := some b,
               psfBoxSize := some im.nrow } := by
  unfold SEObj.setPsf at h ⊢
  cases flag with
  | error e => cases h
  | ok flag =>
    cases psf with
    | error e => cases h
    | ok im =>
      simp only at h ⊢
      split at h
      · cases h
      · rename_i a b _
        refine ⟨h, im, rfl, a, b, ?_⟩
        simp only

/-- The side of the SE patch. -/
def sliceSide {A : Type} (c : BuildCfg A) : Nat := (buffBoxSize c.boxSize c.fracBuffer).toNat

theorem sliceSide_pos {A : Type} {c : BuildCfg A} (hc : 1 ≤ c.boxSize) (hf : 1 ≤ c.fracBuffer) :
    1 ≤ sliceSide c ∧ (sliceSide c : ℤ) = buffBoxSize c.boxSize c.fracBuffer := by
  obtain ⟨side, b, hb, h1, h2, _, _, h3, _⟩ :=
    C07_slice_bounds 0 0 c.fracBuffer c.boxSize (by linarith) (by omega)
  have := h3 hf
  have hs : side = buffBoxSize c.boxSize c.fracBuffer := by
    rw [← h1, ← hb]; simp only [computeSliceBounds]; ring
  unfold sliceSide
  omega

theorem slice_sq {α : Type} {n nrow ncol : Nat} (a : Img α) (ha : a.nrow = nrow ∧ a.ncol = ncol)
    {r c : ℤ} (hr : 0 ≤ r) (hr' : r + n ≤ nrow) (hc : 0 ≤ c) (hc' : c + n ≤ ncol) :
    (a.slice r (r + n) c (c + n)).Sq n := by
  obtain ⟨rfl, rfl⟩ := ha
  unfold Img.slice Img.Sq pySliceIdx
  simp only
  constructor
  · rw [if_neg (by omega), if_neg (by omega)]; omega
  · rw [if_neg (by omega), if_neg (by omega)]; omega

theorem roughCut_facts {A : Type} {c : BuildCfg A} {s : Src} {l : List Cand}
    (hc : 1 ≤ c.boxSize) (hf : 1 ≤ c.fracBuffer) (h : roughCut c s = .ok l) :
    (¬ s.Passes c ∧ l = []) ∨ ∃ k, l = [k] ∧ k.src = s ∧ RoughFacts c (sliceSide c) k := by
  rcases roughCut_ok h with ⟨h0, h1⟩ | ⟨h0, h1, h2, h3⟩ | ⟨p, h0, h1, h2, h3, h4⟩
  · left; exact ⟨fun hp => h0 hp.1, h1⟩
  · left
    refine ⟨fun hp => ?_, h3⟩
    have := hp.2.2.1
    rw [h2] at this
    cases this
  · rcases h4 with ⟨h4, h5⟩ | ⟨h4, o, flag, h5, h6, h7⟩
    · left
      refine ⟨?_, h5⟩
      rintro ⟨_, _, _, col, row, hp, hin⟩
      rw [h3] at hp
      cases hp
      rw [(roughCut_passes_iff hc hf (p := (col, row))).2 hin] at h4
      cases h4
    · right
      refine ⟨_, h7, rfl, ?_⟩
      have hin := (roughCut_passes_iff hc hf).1 h4
      obtain ⟨h8, psf, h9, a, b, h10⟩ := setPsf_ok h6
      obtain ⟨im, bkg, bm, wt, ns, e1, e2, e3, e4, e5, e6, e7, d, e8, e9⟩ := setSlice_ok h5
      have hside := sliceSide_pos hc hf
      have hb : ∀ d, setSlice ⟨im, bkg, bm, wt, ns⟩ s.scale
          (computeSliceBounds p.1 p.2 c.boxSize c.fracBuffer) = .ok d →
          d.boxSize = sliceSide c ∧ (s.WellShaped → d.image.Sq (sliceSide c) ∧
            d.weight.Sq (sliceSide c) ∧ d.bmask.Sq (sliceSide c) ∧
            (∀ a ∈ d.noises, a.Sq (sliceSide c))) := by
        intro d hd
        unfold setSlice at hd
        simp only at hd
        split at hd
        · cases hd
        · have hd := Except.ok.inj hd
          have hbx : (computeSliceBounds p.1 p.2 c.boxSize c.fracBuffer).colmax -
              (computeSliceBounds p.1 p.2 c.boxSize c.fracBuffer).colmin + 1 = sliceSide c := by
            rw [hside.2]; simp only [computeSliceBounds]; ring
          have hby : (computeSliceBounds p.1 p.2 c.boxSize c.fracBuffer).rowmax -
              (computeSliceBounds p.1 p.2 c.boxSize c.fracBuffer).rowmin + 1 = sliceSide c := by
            rw [hside.2]; simp only [computeSliceBounds]; ring
          rw [hbx] at hd
          subst hd
          refine ⟨rfl, ?_⟩
          rintro ⟨w1, w2, w3, w4⟩
          set B := computeSliceBounds p.1 p.2 c.boxSize c.fracBuffer with hB
          have q1 := hin B.rowmin B.colmin B rfl le_rfl (by omega) le_rfl (by omega)
          have q2 := hin B.rowmax B.colmax B rfl (by omega) le_rfl (by omega) le_rfl
          have r1 : 0 ≤ B.rowmin := by omega
          have r2 : B.rowmin + (sliceSide c : Nat) ≤ s.nrow := by omega
          have r3 : 0 ≤ B.colmin := by omega
          have r4 : B.colmin + (sliceSide c : Nat) ≤ s.ncol := by omega
          refine ⟨?_, ?_, ?_, ?_⟩
          · exact slice_sq _ (w1 _ e1) r1 r2 r3 r4
          · exact slice_sq _ (w3 _ e4) r1 r2 r3 r4
          · exact slice_sq _ (w2 _ e3) r1 r2 r3 r4
          · intro a ha
            rw [List.mem_map] at ha
            obtain ⟨a', ha', rfl⟩ := ha
            exact slice_sq _ (w4 _ e5 a' ha') r1 r2 r3 r4
      obtain ⟨hd1, hd2⟩ := hb d e8
      refine ⟨⟨h0, h1, h2, p.1, p.2, h3, hin⟩, h8, ?_, ?_⟩
      · refine ⟨d, ⟨p.1, p.2, im, bkg, bm, wt, ns, h3, e1, e2, e3, e4, e5, e8⟩, ?_⟩
        simp only [h10]
        subst e9
        simp only [hd1, Int.toNat_natCast, and_true, true_and]
        exact hd2
      · exact ⟨psf, by simp only [h10]⟩

open Classical in
theorem possibleSlices_facts {A : Type} {c : BuildCfg A} {srcs : List Src} {l : List Cand}
    (hc : 1 ≤ c.boxSize) (hf : 1 ≤ c.fracBuffer) (h : possibleSlices c srcs = .ok l) :
    l.map Cand.src = srcs.filter (fun s => decide (s.Passes c)) ∧
      ∀ k ∈ l, RoughFacts c (sliceSide c) k := by
  induction srcs generalizing l with
  | nil =>
    have := Except.ok.inj h
    subst this; simp
  | cons s srcs ih =>
    unfold possibleSlices at h
    obtain ⟨a, h1, h⟩ := bind_eq_ok.1 h
    obtain ⟨t, h2, h⟩ := bind_eq_ok.1 h
    have := Except.ok.inj h
    subst this
    obtain ⟨i1, i2⟩ := ih h2
    rcases roughCut_facts hc hf h1 with ⟨h3, rfl⟩ | ⟨k, rfl, rfl, h3⟩
    · simp only [List.nil_append, List.filter_cons, h3, decide_false, Bool.false_eq_true, if_false]
      exact ⟨i1, i2⟩
    · simp only [List.cons_append, List.nil_append, List.map_cons, List.filter_cons, h3.passes,
        decide_true, if_true, i1, true_and]
      intro k' hk'
      rcases List.mem_cons.1 hk' with rfl | hk'
      · exact h3
      · exact i2 k' hk'

/-! ### outlier rejection -/

/-- What is known about a candidate in the second loop. -/
structure PrepFacts {A : Type} (c : BuildCfg A) (n : Nat) (k : Cand) : Prop where
  passes : k.src.Passes c
  psfFlag : k.src.psfFlag = .ok k.psfFlag
  data : ∃ d w, k.src.ReadsAs c d ∧ k.obj.image = some d.image ∧ k.obj.noises = some d.noises ∧
    k.obj.weight = some w ∧ k.obj.bmask = some d.bmask ∧
    k.obj.boxSize = some d.boxSize ∧ k.obj.xStart = some d.xStart ∧ k.obj.yStart = some d.yStart ∧
    (k.src.WellShaped → d.image.Sq n ∧ w.Sq n ∧ d.bmask.Sq n ∧ (∀ a ∈ d.noises, a.Sq n)) ∧
    d.boxSize.toNat = n ∧ (c.rejectOutliers = false → w = d.weight)
  psf : ∃ p, k.obj.psf = some p

theorem rejectOutliers_facts {A σ : Type} {x : Ext A σ} {c : BuildCfg A} {n : Nat}
    {cands out : List Cand} (hx : x.KeepsShape) (h : rejectOutliers x c cands = .ok out)
    (hk : ∀ k ∈ cands, RoughFacts c n k) :
    out.map Cand.src = cands.map Cand.src ∧ out.map Cand.psfFlag = cands.map Cand.psfFlag ∧
      ∀ k ∈ out, PrepFacts c n k := by
  unfold rejectOutliers at h
  split at h
  · rename_i hro
    obtain ⟨ims, h1, h⟩ := bind_eq_ok.1 h
    obtain ⟨wts, h2, h⟩ := bind_eq_ok.1 h
    obtain ⟨new, h3, h⟩ := bind_eq_ok.1 h
    have := Except.ok.inj h
    subst this
    refine ⟨?_, ?_, ?_⟩
    · apply List.ext_getElem <;> simp
    · apply List.ext_getElem <;> simp
    · intro k hk'
      rw [List.mem_mapIdx] at hk'
      obtain ⟨i, hi, rfl⟩ := hk'
      have r := hk _ (List.getElem_mem hi)
      obtain ⟨d, d1, d2, d3, d4, d5, d6, d7, d8, d9, d10⟩ := r.data
      refine ⟨r.passes, r.psfFlag, ⟨d, new i, d1, d2, d3, rfl, d5, d6, d7, d8, ?_, d10, ?_⟩, r.psf⟩
      · intro hs
        obtain ⟨s1, s2, s3, s4⟩ := d9 hs
        refine ⟨s1, ?_, s3, s4⟩
        obtain ⟨_, hm⟩ := mapM_ok_inv h2
        obtain ⟨w, hw1, hw2⟩ := hm i _ (List.getElem?_eq_getElem hi)
        rw [attr_ok, d4] at hw2
        cases hw2
        obtain ⟨e1, e2⟩ := hx _ _ _ h3 i _ hw1
        exact ⟨e1.trans s2.1, e2.trans s2.2⟩
      · rw [hro]; intro h; cases h
  · have := Except.ok.inj h
    subst this
    refine ⟨rfl, rfl, fun k hk' => ?_⟩
    have r := hk k hk'
    obtain ⟨d, d1, d2, d3, d4, d5, d6, d7, d8, d9, d10⟩ := r.data
    exact ⟨r.passes, r.psfFlag, ⟨d, d.weight, d1, d2, d3, d4, d5, d6, d7, d8, d9, d10, fun _ => rfl⟩,
      r.psf⟩

/-! ### the second loop -/

/-- The outcomes of the candidates, in order. -/
theorem processAll_ok {A σ : Type} {x : Ext A σ} {c : BuildCfg A} {cands : List Cand} {acc out : Inputs}
    {rng : σ} (h : processAll x c cands acc rng = .ok out) :
    ∃ outs : List Outcome,
      List.Forall₂ (fun k o => ∃ g g', processCand x c k g = .ok (o, g')) cands outs ∧
      out = (cands.zip outs).foldl (fun a p => a.add p.1.src p.2) acc := by
  induction cands generalizing acc rng with
  | nil =>
    have := Except.ok.inj h
    subst this
    exact ⟨[], .nil, rfl⟩
  | cons k l ih =>
    unfold processAll at h
    obtain ⟨⟨o, g⟩, h1, h⟩ := bind_eq_ok.1 h
    obtain ⟨outs, i1, i2⟩ := ih h
    exact ⟨o :: outs, .cons ⟨_, _, h1⟩ i1, by simpa using i2⟩

/-- The four lists in terms of the outcomes. -/
theorem add_fold (ps : List (Cand × Outcome)) (acc : Inputs) :
    ∃ sl wt nu fl, ps.foldl (fun a p => a.add p.1.src p.2) acc =
      ⟨acc.slices ++ sl, acc.weights ++ wt, acc.notUsed ++ nu, acc.flags ++ fl⟩ ∧
      Interleave (ps.map fun p => p.1.src) (sl.map Epoch.src) (nu.map Epoch.src) ∧
      sl.length = wt.length ∧ nu.length = fl.length ∧
      (∀ e w, (e, w) ∈ sl.zip wt → ∃ p ∈ ps, p.1.src = e.src ∧ p.2 = .used e.obj w) ∧
      (∀ e f, (e, f) ∈ nu.zip fl → ∃ p ∈ ps, p.1.src = e.src ∧ p.2 = .unused e.obj f) := by
  induction ps generalizing acc with
  | nil => exact ⟨[], [], [], [], by simp, .nil, rfl, rfl, by simp, by simp⟩
  | cons p ps ih =>
    obtain ⟨k, o⟩ := p
    obtain ⟨sl, wt, nu, fl, h1, h2, h3, h4, h5, h6⟩ := ih (acc.add k.src o)
    rw [List.foldl_cons, h1]
    cases o with
    | used o w =>
      refine ⟨⟨k.src, o⟩ :: sl, w :: wt, nu, fl, by simp [Inputs.add], .left _ h2, by simp [h3], h4,
        ?_, ?_⟩
      · intro e w' he
        rw [List.zip_cons_cons, List.mem_cons] at he
        rcases he with he | he
        · cases he; exact ⟨_, List.mem_cons_self, rfl, rfl⟩
        · obtain ⟨p, hp, hp'⟩ := h5 e w' he
          exact ⟨p, List.mem_cons_of_mem _ hp, hp'⟩
      · intro e w' he
        obtain ⟨p, hp, hp'⟩ := h6 e w' he
        exact ⟨p, List.mem_cons_of_mem _ hp, hp'⟩
    | unused o f =>
      refine ⟨sl, wt, ⟨k.src, o⟩ :: nu, f :: fl, by simp [Inputs.add], .right _ h2, h3, by simp [h4],
        ?_, ?_⟩
      · intro e w' he
        obtain ⟨p, hp, hp'⟩ := h5 e w' he
        exact ⟨p, List.mem_cons_of_mem _ hp, hp'⟩
      · intro e w' he
        rw [List.zip_cons_cons, List.mem_cons] at he
        rcases he with he | he
        · cases he; exact ⟨_, List.mem_cons_self, rfl, rfl⟩
        · obtain ⟨p, hp, hp'⟩ := h6 e w' he
          exact ⟨p, List.mem_cons_of_mem _ hp, hp'⟩

/-- The whole function: either the early return, or the outcomes of the candidates. -/
theorem buildSliceInputs_ok {A σ : Type} {x : Ext A σ} {c : BuildCfg A} {srcs : List Src} {rng : σ}
    {out : Inputs} (hx : x.KeepsShape) (hc : 1 ≤ c.boxSize) (hf : 1 ≤ c.fracBuffer)
    (h : buildSliceInputs x c srcs rng = .ok out) :
    ∃ cands0, possibleSlices c srcs = .ok cands0 ∧
      (((∀ k ∈ cands0, k.psfFlag = true) ∧ out = {}) ∨
      ((∃ k ∈ cands0, k.psfFlag = false) ∧
        ∃ cands sl wt nu fl, rejectOutliers x c cands0 = .ok cands ∧
        processAll x c cands {} rng = .ok ⟨sl, wt, nu, fl⟩ ∧
        cands.map Cand.src = cands0.map Cand.src ∧ (∀ k ∈ cands, PrepFacts c (sliceSide c) k) ∧
        out = ⟨sl, wt.map (· / wt.sum), nu, fl⟩ ∧
        Interleave (cands.map Cand.src) (sl.map Epoch.src) (nu.map Epoch.src) ∧
        sl.length = wt.length ∧ nu.length = fl.length ∧
        (∀ e w, (e, w) ∈ sl.zip wt → ∃ k ∈ cands, ∃ g g', k.src = e.src ∧
          processCand x c k g = .ok (.used e.obj w, g')) ∧
        (∀ e f, (e, f) ∈ nu.zip fl → ∃ k ∈ cands, ∃ g g', k.src = e.src ∧
          processCand x c k g = .ok (.unused e.obj f, g')))) := by
  unfold buildSliceInputs at h
  obtain ⟨cands0, h1, h⟩ := bind_eq_ok.1 h
  refine ⟨cands0, h1, ?_⟩
  split at h
  · rename_i h2
    left
    refine ⟨?_, (Except.ok.inj h).symm⟩
    rw [Bool.or_eq_true, List.isEmpty_iff, List.all_eq_true] at h2
    rcases h2 with rfl | h2
    · simp
    · exact h2
  · rename_i h2
    right
    refine ⟨?_, ?_⟩
    · by_contra hne
      apply h2
      rw [Bool.or_eq_true, List.all_eq_true]
      right
      intro k hk
      by_contra hf
      exact hne ⟨k, hk, by simpa using hf⟩
    obtain ⟨cands, h3, h⟩ := bind_eq_ok.1 h
    obtain ⟨acc, h4, h⟩ := bind_eq_ok.1 h
    obtain ⟨e1, _, e3⟩ := rejectOutliers_facts hx h3 (possibleSlices_facts hc hf h1).2
    obtain ⟨outs, h5, h6⟩ := processAll_ok h4
    obtain ⟨sl, wt, nu, fl, h7, h8, h9, h10, h11, h12⟩ := add_fold (cands.zip outs) {}
    rw [h7] at h6
    simp only [List.nil_append] at h6
    have hmap : (cands.zip outs).map (fun p => p.1.src) = cands.map Cand.src := by
      have : (cands.zip outs).map (fun p => p.1.src) = ((cands.zip outs).map Prod.fst).map Cand.src := by
        rw [List.map_map]; rfl
      rw [this, List.map_fst_zip]
      exact h5.length_eq.le
    rw [hmap] at h8
    have hmem : ∀ p ∈ cands.zip outs, p.1 ∈ cands ∧ ∃ g g', processCand x c p.1 g = .ok (p.2, g') := by
      intro p hp
      exact ⟨(List.of_mem_zip hp).1, List.forall₂_iff_zip.1 h5 |>.2 hp⟩
    refine ⟨cands, sl, wt, nu, fl, h3, by rw [h4, h6], e1, e3, ?_, h8, h9, h10, ?_, ?_⟩
    · subst h6
      split at h
      · rename_i hw
        have := Except.ok.inj h
        rw [List.isEmpty_iff] at hw
        simp only at hw
        subst hw
        exact this.symm
      · exact (Except.ok.inj h).symm
    · intro e w he
      obtain ⟨p, hp, hp1, hp2⟩ := h11 e w he
      obtain ⟨q1, g, g', q2⟩ := hmem p hp
      exact ⟨p.1, q1, g, g', hp1, by rw [q2, hp2]⟩
    · intro e w he
      obtain ⟨p, hp, hp1, hp2⟩ := h12 e w he
      obtain ⟨q1, g, g', q2⟩ := hmem p hp
      exact ⟨p.1, q1, g, g', hp1, by rw [q2, hp2]⟩

end Pizza
