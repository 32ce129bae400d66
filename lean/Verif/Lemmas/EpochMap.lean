import Verif.Lemmas.Planes
import Verif.Props.Order

/-!
A used SE image as a map from its pixels to the pixels of a slice.
-/

namespace Pizza

variable {A σ S : Type}

/-- The SE image is used: its object and its weight before normalisation. -/
def UsedAs (x : Ext A σ) (c : BuildCfg A) (s : Src) (o : SEObj) (w : ℚ) : Prop :=
  ∃ k rng rng', roughCut c s = .ok [k] ∧ processCand x c k rng = .ok (.used o w, rng')

theorem roughCut_mem {c : BuildCfg A} {s : Src} {l : List Cand} (h : roughCut c s = .ok l) {k : Cand} (hk : k ∈ l) :
    l = [k] ∧ k.src = s := by
  rcases roughCut_ok h with ⟨_, rfl⟩ | ⟨_, _, _, rfl⟩ | ⟨p, _, _, _, _, h4⟩
  · simp at hk
  · simp at hk
  · rcases h4 with ⟨_, rfl⟩ | ⟨_, o, flag, _, _, rfl⟩
    · simp at hk
    · simp only [List.mem_singleton] at hk
      subst hk
      exact ⟨rfl, rfl⟩

theorem possibleSlices_cut {c : BuildCfg A} {srcs : List Src} {l : List Cand} (h : possibleSlices c srcs = .ok l) :
    ∀ k ∈ l, k.src ∈ srcs ∧ roughCut c k.src = .ok [k] := by
  induction srcs generalizing l with
  | nil => cases h; simp
  | cons s srcs ih =>
    unfold possibleSlices at h
    obtain ⟨a, h1, h⟩ := bind_eq_ok.1 h
    obtain ⟨t, h2, h⟩ := bind_eq_ok.1 h
    cases h
    intro k hk
    rcases List.mem_append.1 hk with hk | hk
    · obtain ⟨rfl, rfl⟩ := roughCut_mem h1 hk
      exact ⟨by simp, h1⟩
    · obtain ⟨e1, e2⟩ := ih h2 k hk
      exact ⟨by simp [e1], e2⟩

theorem rejectOutliers_off {x : Ext A σ} {c : BuildCfg A} (hro : c.rejectOutliers = false) (l : List Cand) :
    rejectOutliers x c l = .ok l := by
  unfold rejectOutliers
  rw [hro]
  rfl

/-- The used SE images of a slice, with the weights before normalisation. -/
theorem inputs_usedAs {x : Ext A σ} {c : BuildCfg A} {srcs : List Src} {rng : σ} {out : Inputs}
    (hx : Sane x c srcs) (hro : c.rejectOutliers = false) (h : buildSliceInputs x c srcs rng = .ok out) :
    ∃ wt : List ℚ, out.weights = wt.map (· / wt.sum) ∧
      List.Forall₂ (fun e w => e.src ∈ srcs ∧ UsedAs x c e.src e.obj w) out.slices wt := by
  obtain ⟨cands0, h1, h2⟩ := buildSliceInputs_ok hx.keeps hx.box hx.frac h
  rcases h2 with ⟨h2, rfl⟩ | ⟨h2, cands, sl, wt, nu, fl, h3, _, h5, h5', rfl, h6, h7, h8, h9, h10⟩
  · exact ⟨[], rfl, .nil⟩
  · rw [rejectOutliers_off hro] at h3
    cases h3
    refine ⟨wt, rfl, List.forall₂_iff_zip.2 ⟨h7, fun {e w} he => ?_⟩⟩
    obtain ⟨k, hk, g, g', a1, a2⟩ := h9 e w he
    obtain ⟨b1, b2⟩ := possibleSlices_cut h1 k hk
    rw [a1] at b1 b2
    exact ⟨b1, k, g, g', b2, a2⟩

/-- A used SE image is used alone, too. -/
theorem UsedAs.alone {x : Ext A σ} {c : BuildCfg A} {s : Src} {o : SEObj} {w : ℚ} (hro : c.rejectOutliers = false)
    (h : UsedAs x c s o w) : ∃ rng wt, buildSliceInputs x c [s] rng = .ok ⟨[⟨s, o⟩], wt, [], []⟩ := by
  obtain ⟨k, rng, rng', h1, h2⟩ := h
  obtain ⟨_, hsrc⟩ := roughCut_mem h1 (k := k) (by simp)
  have hf : k.psfFlag = false := by
    unfold processCand at h2
    simp only at h2
    obtain ⟨g, _, h2⟩ := bind_eq_ok.1 h2
    obtain ⟨w0, _, h2⟩ := bind_eq_ok.1 h2
    obtain ⟨b0, _, h2⟩ := bind_eq_ok.1 h2
    obtain ⟨wb, _, h2⟩ := bind_eq_ok.1 h2
    obtain ⟨sk, _, h2⟩ := bind_eq_ok.1 h2
    split at h2
    · cases h2
    · rename_i hc
      simp only [Bool.or_eq_true, not_or] at hc
      simpa using hc.2
  have hp : possibleSlices c [s] = .ok [k] := by
    unfold possibleSlices
    rw [h1]
    rfl
  refine ⟨rng, [w / ([w] : List ℚ).sum], ?_⟩
  unfold buildSliceInputs
  rw [hp, ok_bind]
  have hc : (([k] : List Cand).isEmpty || ([k] : List Cand).all (·.psfFlag)) = false := by simp [hf]
  rw [hc]
  simp only [Bool.false_eq_true, if_false]
  rw [rejectOutliers_off hro, ok_bind]
  unfold processAll
  rw [h2, ok_bind]
  unfold processAll
  rw [ok_bind]
  simp only [Inputs.add, List.nil_append, hsrc]
  rfl

/-- What there is about a used SE image without its pixels. -/
def Framed (x : Ext A σ) (c : BuildCfg A) (s : Src) (w : ℚ) (y0 x0 : Nat) (wS : Img ℚ) (bS : Img (BitVec 32)) : Prop :=
  ∃ (p : ℚ × ℚ) (bm : Img (BitVec 32)) (wf psf : Img ℚ) (g : Option (Img Bool)) (B : Bounds ℤ),
    s.pos = .ok p ∧ s.reads.bmask = .ok bm ∧ s.reads.weight = .ok wf ∧ s.psfImage = .ok psf ∧
    B = computeSliceBounds p.1 p.2 c.boxSize c.fracBuffer ∧ B.rowmin = y0 ∧ B.colmin = x0 ∧
    seGaiaMask c s ({ xStart := some B.colmin, yStart := some B.rowmin, boxSize := some (B.colmax - B.colmin + 1) } : SEObj)
      = .ok g ∧
    symmetrizeSlice x.rotate c.symmetrize g (c.splineFlags ||| c.noiseFlags)
      ((wf.slice B.rowmin (B.rowmin + (B.colmax - B.colmin + 1)) B.colmin (B.colmin + (B.colmax - B.colmin + 1))).map
        (· / s.scale ^ 2))
      (bm.slice B.rowmin (B.rowmin + (B.colmax - B.colmin + 1)) B.colmin (B.colmin + (B.colmax - B.colmin + 1)))
      = .ok (wS, bS) ∧
    buildCoaddWeight x.fwhm c.coaddingWeight wS psf = .ok w

theorem Framed.other {x : Ext A σ} {c : BuildCfg A} {s s' : Src} (hs : OtherPixels s s') {w : ℚ} {y0 x0 : Nat}
    {wS : Img ℚ} {bS : Img (BitVec 32)} (h : Framed x c s' w y0 x0 wS bS) : Framed x c s w y0 x0 wS bS := by
  rw [hs] at h
  exact h

theorem Framed.unique {x : Ext A σ} {c : BuildCfg A} {s : Src} {w w' : ℚ} {y0 x0 y0' x0' : Nat}
    {wS wS' : Img ℚ} {bS bS' : Img (BitVec 32)} (h : Framed x c s w y0 x0 wS bS)
    (h' : Framed x c s w' y0' x0' wS' bS') : w' = w ∧ y0' = y0 ∧ x0' = x0 ∧ wS' = wS ∧ bS' = bS := by
  obtain ⟨p, bm, wf, psf, g, B, a1, a2, a3, a4, a5, a6, a7, a8, a9, a10⟩ := h
  obtain ⟨p', bm', wf', psf', g', B', b1, b2, b3, b4, b5, b6, b7, b8, b9, b10⟩ := h'
  cases a1.symm.trans b1
  cases a2.symm.trans b2
  cases a3.symm.trans b3
  cases a4.symm.trans b4
  rw [← a5] at b5
  subst b5
  cases a8.symm.trans b8
  cases a9.symm.trans b9
  cases a10.symm.trans b10
  exact ⟨rfl, by omega, by omega, rfl, rfl⟩

theorem seGaiaMask_place {c : BuildCfg A} {s : Src} {o o' : SEObj} (h1 : o'.xStart = o.xStart)
    (h2 : o'.yStart = o.yStart) (h3 : o'.boxSize = o.boxSize) : seGaiaMask c s o' = seGaiaMask c s o := by
  unfold seGaiaMask SEObj.mapImage
  rw [h1, h2, h3]

/-- A used SE image: what it is without its pixels, and the steps that its pixels went through. -/
theorem UsedAs.stages {x : Ext A σ} {c : BuildCfg A} {s : Src} {o : SEObj} {w : ℚ} (hc : 1 ≤ c.boxSize)
    (hf : 1 ≤ c.fracBuffer) (hro : c.rejectOutliers = false) (hkeep : x.KeepsShape) (hs : s.WellShaped)
    (hq : ∀ bm, s.reads.bmask = .ok bm → Unflagged c.noiseFlags bm) (h : UsedAs x c s o w) :
    ∃ (y0 x0 : Nat) (wS : Img ℚ) (bS : Img (BitVec 32)) (im bkg : Img ℚ) (ns : List (Img ℚ)) (d : SESlice)
      (k1 k3 : Work) (k2 : Work × Img ℚ × Img (BitVec 32) × Bool),
      Framed x c s w y0 x0 wS bS ∧ wS.Sq (sliceSide c) ∧
      o.yStart = some (y0 : ℤ) ∧ o.xStart = some (x0 : ℤ) ∧ o.boxSize = some (sliceSide c : ℤ) ∧
      y0 + sliceSide c ≤ s.nrow ∧ x0 + sliceSide c ≤ s.ncol ∧
      s.reads.image = .ok im ∧ s.reads.bkg = .ok bkg ∧ s.reads.noises = .ok ns ∧
      AgreeOn (sliceSide c) (sliceSide c) d.image.px (fun i j => calibrated s im bkg (y0 + i) (x0 + j)) ∧
      d.noises.length = ns.length ∧
      (∀ (k : Nat) a o, ns[k]? = some a → d.noises[k]? = some o →
        AgreeOn (sliceSide c) (sliceSide c) o.px (fun i j => a.px (y0 + i) (x0 + j))) ∧
      k1.image = d.image ∧ k1.noises = d.noises ∧
      edgeStage c.copyEdges c.splineFlags k1 wS bS = .ok k2 ∧
      splineStage x c.splineFlags k2.1 k2.2.1 k2.2.2.1 = .ok (some k3) ∧
      o.image = some k3.image ∧ o.noises = some k3.noises := by
  obtain ⟨rng0, wt0, hrun⟩ := h.alone hro
  have hx : Sane x c [s] := ⟨hc, hf, by simpa using hs, hkeep⟩
  obtain ⟨y0, x0, im, bkg, ns, d, f1, f2, f3, f4, f5, f6, f7, f8, f9, f10, f11, f12⟩ :=
    used_window (e := ⟨s, o⟩) hx hrun (by simp)
  obtain ⟨_, _, _, d', w0', g', wS', bS', _, _, _, _, _, _, u1, u2, u3, u4, u5, _⟩ :=
    used_epoch x c [s] rng0 _ hx hrun ⟨s, o⟩ (by simp)
  simp only at f1 f2 f3 f4 f5 f6 f7 f8 f9 f10 f11 f12 u4 u5
  obtain ⟨k, rng, rng', h1, h2⟩ := h
  obtain ⟨_, hsrc⟩ := roughCut_mem h1 (k := k) (by simp)
  rcases roughCut_facts hc hf h1 with ⟨_, h0⟩ | ⟨k', h0, _, R⟩
  · cases h0
  simp only [List.cons.injEq, and_true] at h0
  subst h0
  obtain ⟨d'', r1, r2, r3, r4, r5, r6, r7, r8, _, _⟩ := R.data
  rw [hsrc] at r1
  cases readsAs_unique r1 f9
  obtain ⟨colrow1, colrow2, im', bkg', bm, wf, ns', q1, q2, q3, q4, q5, q6, q7⟩ := f9
  cases q2.symm.trans f6
  cases q3.symm.trans f7
  cases q6.symm.trans f8
  obtain ⟨B, hB⟩ : ∃ B, B = computeSliceBounds colrow1 colrow2 c.boxSize c.fracBuffer := ⟨_, rfl⟩
  rw [← hB] at q7
  have hd : d = ⟨B.colmin, B.rowmin, B.colmax - B.colmin + 1, d.image,
      bm.slice B.rowmin (B.rowmin + (B.colmax - B.colmin + 1)) B.colmin (B.colmin + (B.colmax - B.colmin + 1)),
      (wf.slice B.rowmin (B.rowmin + (B.colmax - B.colmin + 1)) B.colmin (B.colmin + (B.colmax - B.colmin + 1))).map
        (· / s.scale ^ 2), d.noises⟩ := by
    unfold setSlice at q7
    simp only at q7
    split at q7
    · cases q7
    · cases q7
      rfl
  have e1 := congrArg SESlice.xStart hd
  have e2 := congrArg SESlice.yStart hd
  have e3 := congrArg SESlice.boxSize hd
  have e4 := congrArg SESlice.bmask hd
  have e5 := congrArg SESlice.weight hd
  simp only at e1 e2 e3 e4 e5
  have hpsf : ∃ psf, s.psfImage = .ok psf ∧ k.obj.psf = some psf := by
    rcases roughCut_ok h1 with ⟨_, h0⟩ | ⟨_, _, _, h0⟩ | ⟨p, _, _, _, _, h4⟩
    · cases h0
    · cases h0
    · rcases h4 with ⟨_, h0⟩ | ⟨_, o', flag, _, h6, h7⟩
      · cases h0
      · obtain ⟨_, psf, h9, a, b, h10⟩ := setPsf_ok h6
        simp only [List.cons.injEq, and_true] at h7
        exact ⟨psf, h9, by rw [h7, h10]⟩
  obtain ⟨psf, hp1, hp2⟩ := hpsf
  unfold processCand at h2
  simp only at h2
  obtain ⟨g, t1, h2⟩ := bind_eq_ok.1 h2
  rw [r4, r5] at h2
  simp only [attr_some, ok_bind] at h2
  obtain ⟨⟨wS, bS⟩, t2, h2⟩ := bind_eq_ok.1 h2
  obtain ⟨sk, t3, h2⟩ := bind_eq_ok.1 h2
  split at h2
  · cases h2
  simp only at h2
  unfold interpolateCand at h2
  simp only [r2, r3, attr_some, ok_bind] at h2
  obtain ⟨k1, t4, h2⟩ := bind_eq_ok.1 h2
  obtain ⟨k2, t5, h2⟩ := bind_eq_ok.1 h2
  split at h2
  · cases h2
  obtain ⟨k3, t6, h2⟩ := bind_eq_ok.1 h2
  split at h2
  · cases h2
  rename_i k3 
  split at h2
  · cases h2
  split at h2
  · cases h2
  rename_i o' t7
  obtain ⟨psf', t8, h2⟩ := bind_eq_ok.1 h2
  obtain ⟨w', t9, h2⟩ := bind_eq_ok.1 h2
  cases h2
  obtain ⟨i1, i2, i3, i4, i5, i6, i7, i8, i9⟩ := setInterp_ok t7
  rw [attr_ok, i6] at t8
  simp only at t8
  cases hp2.symm.trans t8
  rw [u4] at i4
  rw [u5] at i5
  cases i4
  cases i5
  have hquiet := quiet_of hx (by simpa using hq) [k] (by unfold possibleSlices; rw [h1]; rfl) k (by simp)
  have hun := hquiet g _ _ _ _ r4 r5 t2
  rw [noiseInterp_quiet x _ _ _ hun] at t4
  cases t4
  refine ⟨y0, x0, _, _, im, bkg, ns, d, _, _, k2, ?_, u2, f1, f2, f3, f4, f5, f6, f7, f8, f10, f11, f12, rfl, rfl,
    t5, t6, i1, i2⟩
  refine ⟨(colrow1, colrow2), bm, wf, psf, g, B, q1, q4, q5, hp1, hB, ?_, ?_, ?_, ?_, t9⟩
  · rw [i9, r8, e2] at f1
    exact Option.some.inj f1
  · rw [i8, r7, e1] at f2
    exact Option.some.inj f2
  · rw [← t1, hsrc]
    exact seGaiaMask_place (by rw [r7, e1]) (by rw [r8, e2]) (by rw [r6, e3])
  · rw [← e4, ← e5]
    exact t2

theorem copyMaskedEdges_sq {n : Nat} {im : Img ℚ} {ns : List (Img ℚ)} {w : Img ℚ} {b : Img (BitVec 32)}
    {fl : BitVec 32} {st : EdgeState ℚ} (hw : w.Sq n) (h : copyMaskedEdges im ns w b fl = .ok st) : st.weight.Sq n := by
  by_cases hn : n < 2
  · unfold copyMaskedEdges at h
    simp only [hw.1, hw.2, hn, true_or, if_true] at h
    cases h
  · rw [copyMaskedEdges_eq im ns w b fl (by rw [hw.1]; omega) (by rw [hw.2]; omega)] at h
    cases h
    unfold edge4
    simp only
    constructor <;> (split <;> split <;> split <;> split <;> first | exact hw.1 | exact hw.2)

/-- What a used SE image contributes, as one and the same map of its calibrated pixels and of those of each noise field;
the map and the weight do not depend on the pixels. -/
theorem epoch_map {x : Ext A σ} {c : BuildCfg A} (hc : 1 ≤ c.boxSize) (hf : 1 ≤ c.fracBuffer)
    (hro : c.rejectOutliers = false) (hkeep : x.KeepsShape) (row : ObjRow) (s : Src)
    (hq : ∀ bm, s.reads.bmask = .ok bm → Unflagged c.noiseFlags bm) :
    ∃ (M : Plane → Plane) (wt : ℚ), (x.LinearInterp → IsLinearMap ℚ M) ∧
      (∀ f g, AgreeOn s.nrow s.ncol f g → M f = M g) ∧
      ∀ s', OtherPixels s s' → s'.WellShaped → ∀ o w, UsedAs x c s' o w → w = wt ∧
        ∀ lay d, SeenAs row lay ⟨s', o⟩ d → ∃ im bkg ns, s'.reads.image = .ok im ∧ s'.reads.bkg = .ok bkg ∧
          s'.reads.noises = .ok ns ∧
          AgreeOn row.boxSize.toNat row.boxSize.toNat d.image.px (M (calibrated s' im bkg)) ∧
          ∀ k a, ns[k]? = some a →
            AgreeOn row.boxSize.toNat row.boxSize.toNat (fun r c => noisePx k r c d) (M a.px) := by
  have hq' : ∀ s', OtherPixels s s' → ∀ bm, s'.reads.bmask = .ok bm → Unflagged c.noiseFlags bm := by
    intro s' h bm hb
    rw [h] at hb
    exact hq bm hb
  by_cases hex : ∃ s', OtherPixels s s' ∧ s'.WellShaped ∧ ∃ o w, UsedAs x c s' o w
  swap
  · refine ⟨fun _ => 0, 0, fun _ => ⟨fun _ _ => (add_zero _).symm, fun _ _ => (smul_zero _).symm⟩, fun _ _ _ => rfl, ?_⟩
    intro s' h1 h2 o w h3
    exact absurd ⟨s', h1, h2, o, w, h3⟩ hex
  obtain ⟨s0, g1, g2, o0, w0, g3⟩ := hex
  obtain ⟨y0, x0, wS, bS, _, _, _, _, _, _, _, F, hw, _, _, _, b1, b2, _⟩ :=
    g3.stages hc hf hro hkeep g2 (hq' s0 g1)
  have F0 := F.other g1
  have hdim : s0.nrow = s.nrow ∧ s0.ncol = s.ncol := by
    rw [g1]
    exact ⟨rfl, rfl⟩
  rw [hdim.1] at b1
  rw [hdim.2] at b2
  obtain ⟨P, w', b', hP, hP'⟩ := edgeStage_acts x.LinearInterp c.copyEdges c.splineFlags hw bS
  by_cases hw' : w'.Sq (sliceSide c)
  swap
  · refine ⟨fun _ => 0, w0, fun _ => ⟨fun _ _ => (add_zero _).symm, fun _ _ => (smul_zero _).symm⟩, fun _ _ _ => rfl, ?_⟩
    intro s' h1 h2 o w h3
    obtain ⟨y0', x0', wS', bS', im, bkg, ns, d, k1, k3, k2, F', hw2, _, _, _, _, _, _, _, _, _, _, _, _, _, t5, _⟩ :=
      h3.stages hc hf hro hkeep h2 (hq' s' h1)
    obtain ⟨rfl, rfl, rfl, rfl, rfl⟩ := F0.unique (F'.other h1)
    obtain ⟨_, c2, _⟩ := hP' _ _ t5
    exact absurd (by
      rw [← c2]
      by_cases hon : c.copyEdges = true
      · unfold edgeStage at t5
        rw [hon, if_pos rfl] at t5
        obtain ⟨st, z1, t5⟩ := bind_eq_ok.1 t5
        obtain ⟨bad, z2, t5⟩ := bind_eq_ok.1 t5
        cases t5
        exact copyMaskedEdges_sq hw z1
      · unfold edgeStage at t5
        rw [if_neg hon] at t5
        cases t5
        exact hw) hw'
  obtain ⟨Q, hQ, hQ'⟩ := splineStage_acts x c.splineFlags hw' b'
  have hPQ := hQ.comp hP
  by_cases hlk : ∃ lk, s.lookups = .ok lk
  swap
  · refine ⟨fun _ => 0, w0, fun _ => ⟨fun _ _ => (add_zero _).symm, fun _ _ => (smul_zero _).symm⟩, fun _ _ _ => rfl, ?_⟩
    intro s' h1 h2 o w h3
    obtain ⟨y0', x0', wS', bS', im, bkg, ns, d, k1, k3, k2, F', _⟩ := h3.stages hc hf hro hkeep h2 (hq' s' h1)
    obtain ⟨rfl, rfl, rfl, rfl, rfl⟩ := F0.unique (F'.other h1)
    refine ⟨rfl, fun lay d hd => ?_⟩
    obtain ⟨lk, out, l1, _⟩ := hd
    simp only at l1
    rw [h1] at l1
    exact absurd ⟨lk, l1⟩ hlk
  obtain ⟨lk, hlk⟩ := hlk
  refine ⟨fun f => resampleOp lk row (sliceSide c) x0 y0 (Q (P fun i j => f (y0 + i) (x0 + j))), w0, ?_, ?_, ?_⟩
  · intro hl
    have R := resampleOp_linear lk row (sliceSide c) x0 y0
    have T := hPQ.linear hl
    constructor
    · intro f g
      have := T.map_add (fun i j => f (y0 + i) (x0 + j)) (fun i j => g (y0 + i) (x0 + j))
      have := congrArg (resampleOp lk row (sliceSide c) x0 y0) this
      rw [R.map_add] at this
      exact this
    · intro a f
      have := T.map_smul a (fun i j => f (y0 + i) (x0 + j))
      have := congrArg (resampleOp lk row (sliceSide c) x0 y0) this
      rw [R.map_smul] at this
      exact this
  · intro f g hfg
    refine resampleOp_agree lk row x0 y0 (hPQ.agree _ _ fun r hr c hc => ?_)
    exact hfg _ (by omega) _ (by omega)
  · intro s' h1 h2 o w h3
    obtain ⟨y0', x0', wS', bS', im, bkg, ns, d, k1, k3, k2, F', _, f1, f2, f3, _, _, f6, f7, f8, f10, f11, f12, t1, t2,
      t5, t6, t7, t8⟩ := h3.stages hc hf hro hkeep h2 (hq' s' h1)
    obtain ⟨rfl, rfl, rfl, rfl, rfl⟩ := F0.unique (F'.other h1)
    refine ⟨rfl, fun lay e he => ⟨im, bkg, ns, f6, f7, f8, ?_⟩⟩
    obtain ⟨c1, c2, c3⟩ := hP' _ _ t5
    rw [c2, c3] at t6
    have c4 := hQ' _ _ t6
    obtain ⟨lk', out, l1, l2, l3⟩ := he
    simp only at l1 l2
    rw [h1] at l1
    cases hlk.symm.trans l1
    obtain ⟨selfBox, sx, sy, image, iom, frac, noises, bm, pm, G⟩ := resample_facts l2
    cases f3.symm.trans G.hbox
    cases f2.symm.trans G.hx
    cases f1.symm.trans G.hy
    cases t7.symm.trans G.himage
    cases t8.symm.trans G.hnoises
    have hshape := G.shape
    have hi : k3.image = ⟨sliceSide c, sliceSide c, Q (P d.image.px)⟩ := by
      have := c4.1
      rw [c1.1, t1] at this
      simp only at this
      rw [this] at hshape ⊢
      simp only at hshape
      rw [hshape.1, hshape.2]
      simp
    have hn : ∀ (k : Nat) a, d.noises[k]? = some a → ∃ u v, k3.noises[k]? = some ⟨u, v, Q (P a.px)⟩ := by
      intro k a ha
      refine ⟨a.nrow, a.ncol, ?_⟩
      rw [c4.2, c1.2, t2]
      simp [ha]
    subst l3
    constructor
    · intro r hr cc hcc
      have := (G.px r hr cc hcc).1
      rw [hi] at this
      have hag : resampleOp lk row (sliceSide c) x0' y0' (Q (P d.image.px)) =
          resampleOp lk row (sliceSide c) x0' y0' (Q (P fun i j => calibrated s' im bkg (y0' + i) (x0' + j))) :=
        resampleOp_agree lk row _ _ (hPQ.agree _ _ f10)
      show _ = resampleOp lk row (sliceSide c) x0' y0' (Q (P fun i j => calibrated s' im bkg (y0' + i) (x0' + j))) r cc
      rw [← hag]
      exact this
    · intro k a ha r hr cc hcc
      have hk : k < d.noises.length := by
        rw [f11]
        exact (List.getElem?_eq_some_iff.1 ha).1
      obtain ⟨u, v, hu⟩ := hn k _ (List.getElem?_eq_getElem hk)
      have hk3 : k < out.noises.length := by
        rw [G.lenNoises]
        exact (List.getElem?_eq_some_iff.1 hu).1
      obtain ⟨s1, s2, _, _, s5⟩ := G.noisePx k _ _ hu (List.getElem?_eq_getElem hk3)
      have := s5 r hr cc hcc
      simp only at s1 s2
      rw [Int.toNat_natCast] at s1 s2 this
      subst s1
      subst s2
      have hag : resampleOp lk row (sliceSide c) x0' y0' (Q (P d.noises[k].px)) =
          resampleOp lk row (sliceSide c) x0' y0' (Q (P fun i j => a.px (y0' + i) (x0' + j))) :=
        resampleOp_agree lk row _ _ (hPQ.agree _ _ (f12 k a _ ha (List.getElem?_eq_getElem hk)))
      show (out.noises[k]?).elim 0 _ =
        resampleOp lk row (sliceSide c) x0' y0' (Q (P fun i j => a.px (y0' + i) (x0' + j))) r cc
      rw [← hag]
      rw [List.getElem?_eq_getElem hk3]
      exact this

end Pizza
