import Verif.Lemmas.MaskedStages

/-! One candidate processed with two sets of arrays that differ only in `Z`. -/

namespace Pizza

/-- The attributes that do not depend on the image and the noise images. -/
structure ObjFix (o o' : SEObj) : Prop where
  xStart : o.xStart = o'.xStart
  yStart : o.yStart = o'.yStart
  boxSize : o.boxSize = o'.boxSize
  bmask : o.bmask = o'.bmask
  weight : o.weight = o'.weight
  psf : o.psf = o'.psf
  psfXStart : o.psfXStart = o'.psfXStart
  psfYStart : o.psfYStart = o'.psfYStart
  psfBoxSize : o.psfBoxSize = o'.psfBoxSize

/-- Slices whose image and noise images agree except in `Z`. -/
def ValR (n : Nat) (Z : Nat → Nat → Prop) (o o' : SEObj) : Prop :=
  ∃ im im' ns ns', o.image = some im ∧ o'.image = some im' ∧ o.noises = some ns ∧
    o'.noises = some ns' ∧ AgreeOff n Z im im' ∧ List.Forall₂ (AgreeOff n Z) ns ns'

/-- Slices that agree in everything that is resampled. -/
def UsedR (n : Nat) (o o' : SEObj) : Prop :=
  ObjFix o o' ∧ ValR n (fun _ _ => False) o o' ∧ (∃ b, o.bmask = some b ∧ b.Sq n) ∧
  ∃ io io' fr fr' pm pm', o.interpOnlyImage = some io ∧ o'.interpOnlyImage = some io' ∧
    o.interpFrac = some fr ∧ o'.interpFrac = some fr' ∧ o.pmask = some pm ∧ o'.pmask = some pm' ∧
    AgreeOff n (fun _ _ => False) io io' ∧ AgreeOff n (fun _ _ => False) fr fr' ∧
    AgreeOff n (fun _ _ => False) pm pm'

/-- The same outcome, as far as the coadd is concerned. -/
def OutR (n : Nat) : Outcome → Outcome → Prop
  | .used o wt, .used o' wt' => wt = wt' ∧ UsedR n o o'
  | .unused o f, .unused o' f' => f = f' ∧ ObjFix o o'
  | _, _ => False

/-- Slices that agree in the values, but perhaps not in the processing mask. -/
def UsedV (n : Nat) (o o' : SEObj) : Prop :=
  ObjFix o o' ∧ ValR n (fun _ _ => False) o o'

/-- If both are used then with the same values. -/
def OutV (n : Nat) (r r' : Outcome) : Prop :=
  ∀ o wt o' wt', r = .used o wt → r' = .used o' wt' → wt = wt' ∧ UsedV n o o'

theorem setInterp_fix {o u : SEObj} {im : Img ℚ} {ns : List (Img ℚ)} {pm : Img (BitVec 32)}
    (h : o.setInterp im ns pm = (u, none)) : ObjFix o u := by
  unfold SEObj.setInterp at h
  split at h
  · cases h
  · split at h
    · cases h
    · split at h
      · cases h
      · rw [← (Prod.mk.inj h).1]
        exact ⟨rfl, rfl, rfl, rfl, rfl, rfl, rfl, rfl, rfl⟩

theorem ObjFix.symm {o o' : SEObj} (h : ObjFix o o') : ObjFix o' o :=
  ⟨h.1.symm, h.2.symm, h.3.symm, h.4.symm, h.5.symm, h.6.symm, h.7.symm, h.8.symm, h.9.symm⟩

theorem ObjFix.trans {o o' o'' : SEObj} (h : ObjFix o o') (h' : ObjFix o' o'') : ObjFix o o'' :=
  ⟨h.1.trans h'.1, h.2.trans h'.2, h.3.trans h'.3, h.4.trans h'.4, h.5.trans h'.5, h.6.trans h'.6,
    h.7.trans h'.7, h.8.trans h'.8, h.9.trans h'.9⟩

theorem countPix_congr {n m : Nat} {f g : Nat → Nat → Bool}
    (h : ∀ i < n, ∀ j < m, f i j = g i j) : countPix n m f = countPix n m g := by
  unfold countPix
  congr 1
  refine Finset.filter_congr fun q hq => ?_
  rw [mem_pixels] at hq
  rw [h _ hq.1 _ hq.2]

theorem pmaskFraction_congr {n : Nat} {pm pm' : Img (BitVec 32)} (g : Option (Img Bool))
    (h : AgreeOff n (fun _ _ => False) pm pm') : pmaskFraction pm g = pmaskFraction pm' g := by
  obtain ⟨h1, h2, h3⟩ := h
  have e : ∀ F : BitVec 32 → Nat → Nat → Bool,
      countPix pm.nrow pm.ncol (fun r c => F (pm.px r c) r c) =
      countPix pm'.nrow pm'.ncol (fun r c => F (pm'.px r c) r c) := by
    intro F
    rw [h1.1, h1.2, h2.1, h2.2]
    exact countPix_congr fun i hi j hj => by rw [h3 i hi j hj id]
  unfold pmaskFraction
  cases g with
  | none =>
    simp only
    rw [e fun v _ _ => decide (v ≠ 0), h1.1, h1.2, h2.1, h2.2]
  | some g =>
    simp only
    rw [e fun v r c => decide (v ≠ 0) && !g.px r c]

theorem setInterp_rel {n : Nat} {Z : Nat → Nat → Prop} {o o' : SEObj} {k k' : Work}
    (hf : ObjFix o o') (hv : ValR n Z o o') (hb : ∃ b, o.bmask = some b ∧ b.Sq n) (h : WorkR n (fun _ _ => False) (fun _ _ => False) k k') :
    ∃ u u', o.setInterp k.image k.noises k.pmask = (u, none) ∧
      o'.setInterp k'.image k'.noises k'.pmask = (u', none) ∧ UsedR n u u' := by
  obtain ⟨im, im', ns, ns', e1, e2, _, _, hi, _⟩ := hv
  unfold SEObj.setInterp
  rw [e1, e2]
  simp only
  have a1 := h.pmask.1
  have a2 := h.pmask.2.1
  have b1 := h.image.1
  have b2 := h.image.2.1
  have c1 := hi.1
  have c2 := hi.2.1
  rw [if_neg (by rw [a1.1, a1.2, c1.1, c1.2]; simp), if_neg (by rw [a1.1, a1.2, b1.1, b1.2]; simp),
    if_neg (by rw [a2.1, a2.2, c2.1, c2.2]; simp), if_neg (by rw [a2.1, a2.2, b2.1, b2.2]; simp)]
  refine ⟨_, _, rfl, rfl, ⟨hf.xStart, hf.yStart, hf.boxSize, hf.bmask, hf.weight, hf.psf,
    hf.psfXStart, hf.psfYStart, hf.psfBoxSize⟩, ⟨_, _, _, _, rfl, rfl, rfl, rfl, h.image, h.noises⟩, hb,
    _, _, _, _, _, _, rfl, rfl, rfl, rfl, rfl, rfl, ⟨b1, b2, fun i hi j hj _ => ?_⟩,
    ⟨c1, c2, fun i hi j hj _ => ?_⟩, h.pmask⟩
  · simp only
    rw [h.pmask.2.2 i hi j hj id, h.image.2.2 i hi j hj id]
  · simp only
    rw [h.pmask.2.2 i hi j hj id]

variable {A σ : Type} {x : Ext A σ} {c : BuildCfg A} {g : Option (Img Bool)} {o o' : SEObj}
  {w : Img ℚ} {b : Img (BitVec 32)} {rng : σ} {n : Nat} {Z : Nat → Nat → Prop}

theorem interpolateCand_rel (hw : w.Sq n) (hb : b.Sq n) (hob : o.bmask = some b) (hf : ObjFix o o') (hv : ValR n Z o o')
    (hz : ∀ i < n, ∀ j < n, Z i j → Carries (b.px i j) c.noiseFlags ∨
      (c.copyEdges = false ∧ Carries (b.px i j) c.splineFlags)) :
    ExR (fun r r' => r.2 = r'.2 ∧ OutR n r.1 r'.1) (interpolateCand x c g o w b rng)
      (interpolateCand x c g o' w b rng) := by
  obtain ⟨im, im', ns, ns', e1, e2, e3, e4, hi, hn⟩ := hv
  unfold interpolateCand
  rw [e1, e2, e3, e4]
  simp only [attr_some, ok_bind]
  refine (noiseInterp_rel hb hi hn).bind fun k1 k1' hk1 => ?_
  obtain ⟨k1, g1⟩ := k1
  obtain ⟨k1', g1'⟩ := k1'
  obtain ⟨rfl, hk1⟩ := hk1
  simp only at hk1 ⊢
  have hz1 : ∀ i < n, ∀ j < n, (Z i j ∧ ¬ Carries (b.px i j) c.noiseFlags) →
      c.copyEdges = false ∧ Carries (b.px i j) c.splineFlags := fun i hi j hj h =>
    (hz i hi j hj h.1).resolve_left h.2
  refine (edgeStage_rel (on := c.copyEdges) (flags := c.splineFlags) hw hb
    (fun i hi j hj h => .inr (hz1 i hi j hj h).2) hk1).bind fun k2 k2' hk2 => ?_
  obtain ⟨k2, w2, b2, bad⟩ := k2
  obtain ⟨k2', q⟩ := k2'
  obtain ⟨rfl, sw, sb, hoff, hk2⟩ := hk2
  simp only at sw sb hoff hk2 ⊢
  cases bad with
  | true => exact .ok ⟨rfl, rfl, hf⟩
  | false =>
    simp only [Bool.false_eq_true, if_false]
    refine (splineStage_rel sw (fun i hi j hj h => h.2) hk2).bind fun k3 k3' hk3 => ?_
    cases k3 with
    | none =>
      cases k3' with
      | none => exact .ok ⟨rfl, rfl, hf⟩
      | some _ => exact hk3.elim
    | some k =>
      cases k3' with
      | none => exact hk3.elim
      | some k' =>
        have hk : WorkR n (fun _ _ => False) (fun _ _ => False) k k' := by
          refine WorkR.mono hk3 (fun _ _ _ _ h => h) fun i hi j hj hp => ?_
          rcases hp with (hp | ⟨hon, hp⟩) | ⟨⟨hp, _⟩, _, hnc⟩
          · exact hp
          · rw [(hz1 i hi j hj hp).1] at hon; cases hon
          · obtain ⟨h1, h2⟩ := hz1 i hi j hj hp
            have := hoff h1
            simp only [Prod.mk.injEq] at this
            rw [this.2.1] at hnc
            exact hnc h2
        simp only
        rw [pmaskFraction_congr g hk.pmask]
        split
        · exact .ok ⟨rfl, rfl, hf⟩
        · obtain ⟨u, u', s1, s2, s3⟩ := setInterp_rel hf ⟨im, im', ns, ns', e1, e2, e3, e4, hi, hn⟩ ⟨b, hob, hb⟩ hk
          rw [s1, s2]
          simp only
          rw [s3.1.psf]
          exact ExR.same fun psf _ => ExR.same fun wt _ => .ok ⟨rfl, rfl, s3⟩

theorem interpolateCand_vals (hw : w.Sq n) (hb : b.Sq n) (hf : ObjFix o o') (hv : ValR n Z o o')
    (hz : ∀ i < n, ∀ j < n, Z i j → Unusable w b (c.splineFlags ||| c.noiseFlags) (i, j))
    {r r' : Outcome × σ} (h : interpolateCand x c g o w b rng = .ok r)
    (h' : interpolateCand x c g o' w b rng = .ok r') : r.2 = r'.2 ∧ OutV n r.1 r'.1 := by
  obtain ⟨im, im', ns, ns', e1, e2, e3, e4, hi, hn⟩ := hv
  unfold interpolateCand at h h'
  rw [e1, e3] at h
  rw [e2, e4] at h'
  simp only [attr_some, ok_bind] at h h'
  obtain ⟨k1, p1, h⟩ := bind_eq_ok.1 h
  obtain ⟨k1', p1', h'⟩ := bind_eq_ok.1 h'
  have hk1 := noiseInterp_rel (x := x) (flags := c.noiseFlags) (w := w) (rng := rng) hb hi hn
  rw [p1, p1'] at hk1
  obtain ⟨hg, hk1⟩ := hk1.of_ok
  obtain ⟨k2, p2, h⟩ := bind_eq_ok.1 h
  obtain ⟨k2', p2', h'⟩ := bind_eq_ok.1 h'
  have hk2 := edgeStage_rel (on := c.copyEdges) (flags := c.splineFlags) hw hb
    (fun i hi j hj h => (hz i hi j hj h.1).imp id fun hc => by
      obtain ⟨t, ht, t1, t2⟩ := hc
      rw [BitVec.getLsbD_or, Bool.or_eq_true] at t2
      rcases t2 with t2 | t2
      · exact ⟨t, ht, t1, t2⟩
      · exact (h.2 ⟨t, ht, t1, t2⟩).elim) hk1
  rw [p2, p2'] at hk2
  obtain ⟨hq, sw, sb, _, hk2⟩ := hk2.of_ok
  rw [← hq] at h'
  by_cases hbad : k2.2.2.2 = true
  · rw [if_pos hbad] at h h'
    rw [← Except.ok.inj h, ← Except.ok.inj h']
    exact ⟨hg, fun o wt o' wt' h => by cases h⟩
  · rw [if_neg hbad] at h h'
    obtain ⟨k3, p3, h⟩ := bind_eq_ok.1 h
    obtain ⟨k3', p3', h'⟩ := bind_eq_ok.1 h'
    have hk3 := splineStage_rel (x := x) sw (fun i hi j hj h => h.2) hk2
    rw [p3, p3'] at hk3
    have hk3 := hk3.of_ok
    have hu : ∀ {o : SEObj} {k : Work} {gg : σ} {r : Outcome × σ},
        (if (pmaskFraction k.pmask g).geq c.maxMaskedFraction then
          (pure (.unused o HIGH_MASKED_FRAC, gg) : Except Err (Outcome × σ))
        else match o.setInterp k.image k.noises k.pmask with
          | (_, some e) => throw e
          | (o', none) => do
            let psf ← attr o'.psf
            let wt ← buildCoaddWeight x.fwhm c.coaddingWeight w psf
            pure (.used o' wt, gg)) = .ok r →
        r.2 = gg ∧ ∀ u wt, r.1 = .used u wt → u.image = some k.image ∧ u.noises = some k.noises ∧
          ObjFix o u ∧ ∃ psf, o.psf = some psf ∧ buildCoaddWeight x.fwhm c.coaddingWeight w psf = .ok wt := by
      intro o k gg r h
      split at h
      · rw [← Except.ok.inj h]; exact ⟨rfl, fun u wt h => by cases h⟩
      · split at h
        · cases h
        · rename_i o2 ho2
          obtain ⟨psf, hp1, h⟩ := bind_eq_ok.1 h
          obtain ⟨wt, hw1, h⟩ := bind_eq_ok.1 h
          rw [← Except.ok.inj h]
          obtain ⟨s1, s2, _⟩ := setInterp_ok ho2
          refine ⟨rfl, fun u wt' h => ?_⟩
          cases h
          have hfx := setInterp_fix ho2
          rw [attr_ok, ← hfx.psf] at hp1
          exact ⟨s1, s2, hfx, psf, hp1, hw1⟩
    cases k3 with
    | none =>
      cases k3' with
      | none =>
        rw [← Except.ok.inj h, ← Except.ok.inj h']
        exact ⟨hg, fun o wt o' wt' h => by cases h⟩
      | some _ => exact hk3.elim
    | some k =>
      cases k3' with
      | none => exact hk3.elim
      | some k' =>
        obtain ⟨f1, f2⟩ := hu h
        obtain ⟨f1', f2'⟩ := hu h'
        refine ⟨by rw [f1, f1', hg], fun u wt u' wt' hr hr' => ?_⟩
        obtain ⟨t1, t2, t3, psf, t4, t5⟩ := f2 _ _ hr
        obtain ⟨t1', t2', t3', psf', t4', t5'⟩ := f2' _ _ hr'
        rw [← hf.psf, t4] at t4'
        cases t4'
        rw [t5] at t5'
        cases t5'
        refine ⟨rfl, t3.symm.trans (hf.trans t3'), ?_⟩
        exact ⟨_, _, _, _, t1, t1', t2, t2', hk3.image, hk3.noises⟩

/-! ### the loop body -/

/-- Two candidates that differ only in `Z`; `w` and `b` are the weight and the bit mask. -/
structure CandR (n : Nat) (Z : Nat → Nat → Prop) (w : Img ℚ) (b : Img (BitVec 32)) (k k' : Cand) :
    Prop where
  src : k'.src = { k.src with reads := k'.src.reads }
  psfFlag : k.psfFlag = k'.psfFlag
  fix : ObjFix k.obj k'.obj
  vals : ValR n Z k.obj k'.obj
  weight : k.obj.weight = some w
  bmask : k.obj.bmask = some b
  weight_sq : w.Sq n
  bmask_sq : b.Sq n

theorem carries_mono {a a' f : BitVec 32} (h : ∀ k < 32, a.getLsbD k = true → a'.getLsbD k = true)
    (hc : Carries a f) : Carries a' f := by
  obtain ⟨t, ht, h1, h2⟩ := hc
  exact ⟨t, ht, h t ht h1, h2⟩

variable {k k' : Cand}

theorem CandR.gaia (h : CandR n Z w b k k') : seGaiaMask c k'.src k'.obj = seGaiaMask c k.src k.obj := by
  unfold seGaiaMask SEObj.mapImage
  have h1 : k'.src.toCoadd = k.src.toCoadd := by rw [h.src]
  rw [h1, h.fix.boxSize, h.fix.xStart, h.fix.yStart]

/-- What symmetrisation does to the weight and the bit mask. -/
theorem symm_facts (hw : w.Sq n) (hb : b.Sq n) {wb : Img ℚ × Img (BitVec 32)} {flags : BitVec 32}
    (h : symmetrizeSlice x.rotate c.symmetrize g flags w b = .ok wb) :
    wb.1.Sq n ∧ wb.2.Sq n ∧ ∀ i < n, ∀ j < n,
      (w.px i j ≤ 0 → wb.1.px i j ≤ 0) ∧ ∀ f, Carries (b.px i j) f → Carries (wb.2.px i j) f := by
  obtain ⟨w', b', h1, a1, a2, a3, a4, h2⟩ := C19_only_adds_masking x.rotate c.symmetrize g flags w b
    (hw.1.trans hw.2.symm) (hb.1.trans hb.2.symm)
  rw [h] at h1
  cases h1
  refine ⟨⟨a1.trans hw.1, a2.trans hw.2⟩, ⟨a3.trans hb.1, a4.trans hb.2⟩, fun i hi j hj => ?_⟩
  obtain ⟨q1, q2⟩ := h2 i (by rw [hb.1]; exact hi) j (by rw [hb.1]; exact hj)
  refine ⟨fun h => ?_, fun f hc => carries_mono (fun k hk => (q2 k hk).1) hc⟩
  rcases q1 with q | q
  · simp only; rw [q]; exact h
  · simp only; rw [q]

theorem processCand_rel (h : CandR n Z w b k k')
    (hz : ∀ i < n, ∀ j < n, Z i j → Carries (b.px i j) c.noiseFlags ∨
      (c.copyEdges = false ∧ Carries (b.px i j) c.splineFlags)) :
    ExR (fun r r' => r.2 = r'.2 ∧ OutR n r.1 r'.1) (processCand x c k rng)
      (processCand x c k' rng) := by
  unfold processCand
  simp only
  rw [h.gaia (c := c), ← h.fix.weight, ← h.fix.bmask, h.weight, h.bmask]
  simp only [attr_some, ok_bind]
  refine ExR.same fun ga _ => ExR.same fun wb hwb => ExR.same fun edge _ => ?_
  obtain ⟨s1, s2, s3⟩ := symm_facts h.weight_sq h.bmask_sq hwb
  rw [h.psfFlag]
  have hfix : ObjFix { k.obj with weight := some wb.1, bmask := some wb.2 }
      { k'.obj with weight := some wb.1, bmask := some wb.2 } :=
    ⟨h.fix.xStart, h.fix.yStart, h.fix.boxSize, rfl, rfl, h.fix.psf, h.fix.psfXStart,
      h.fix.psfYStart, h.fix.psfBoxSize⟩
  split
  · exact .ok ⟨rfl, rfl, hfix⟩
  · refine interpolateCand_rel s1 s2 rfl hfix h.vals fun i hi j hj hzz => ?_
    exact (hz i hi j hj hzz).imp ((s3 i hi j hj).2 _) fun h => ⟨h.1, (s3 i hi j hj).2 _ h.2⟩

theorem processCand_vals (h : CandR n Z w b k k')
    (hz : ∀ i < n, ∀ j < n, Z i j → Unusable w b (c.splineFlags ||| c.noiseFlags) (i, j))
    {r r' : Outcome × σ} (hr : processCand x c k rng = .ok r)
    (hr' : processCand x c k' rng = .ok r') : r.2 = r'.2 ∧ OutV n r.1 r'.1 := by
  unfold processCand at hr hr'
  simp only at hr hr'
  rw [h.gaia (c := c), ← h.fix.weight, ← h.fix.bmask, h.weight, h.bmask] at hr'
  rw [h.weight, h.bmask] at hr
  simp only [attr_some, ok_bind] at hr hr'
  obtain ⟨ga, hga, hr⟩ := bind_eq_ok.1 hr
  obtain ⟨ga', hga', hr'⟩ := bind_eq_ok.1 hr'
  rw [hga] at hga'
  cases hga'
  obtain ⟨wb, hwb, hr⟩ := bind_eq_ok.1 hr
  obtain ⟨wb', hwb', hr'⟩ := bind_eq_ok.1 hr'
  rw [hwb] at hwb'
  cases hwb'
  obtain ⟨ed, hed, hr⟩ := bind_eq_ok.1 hr
  obtain ⟨ed', hed', hr'⟩ := bind_eq_ok.1 hr'
  rw [hed] at hed'
  cases hed'
  obtain ⟨s1, s2, s3⟩ := symm_facts h.weight_sq h.bmask_sq hwb
  rw [← h.psfFlag] at hr'
  split at hr
  · rename_i hc
    rw [if_pos hc] at hr'
    rw [← Except.ok.inj hr, ← Except.ok.inj hr']
    exact ⟨rfl, fun o wt o' wt' h => by cases h⟩
  · rename_i hc
    rw [if_neg hc] at hr'
    refine interpolateCand_vals (Z := Z) s1 s2 ?_ ?_ (fun i hi j hj hzz => ?_) hr hr'
    · exact ⟨h.fix.xStart, h.fix.yStart, h.fix.boxSize, rfl, rfl, h.fix.psf, h.fix.psfXStart,
        h.fix.psfYStart, h.fix.psfBoxSize⟩
    · exact h.vals
    · exact (hz i hi j hj hzz).imp (s3 i hi j hj).1 ((s3 i hi j hj).2 _)

end Pizza
