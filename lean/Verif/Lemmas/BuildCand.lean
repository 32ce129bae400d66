import Verif.Lemmas.BuildStages

/-! What the processing of one candidate amounts to. -/

namespace Pizza

theorem noiseBit : (BMASK_NOISE_INTERP).getLsbD = fun j => decide (j = 28) := by
  funext j
  simp only [BMASK_NOISE_INTERP, BitVec.getLsbD_twoPow]
  by_cases h : j = 28 <;> simp [h, eq_comm]

theorem splineBit : (BMASK_SPLINE_INTERP).getLsbD = fun j => decide (j = 27) := by
  funext j
  simp only [BMASK_SPLINE_INTERP, BitVec.getLsbD_twoPow]
  by_cases h : j = 27 <;> simp [h, eq_comm]

theorem interp_facts {A σ : Type} {x : Ext A σ} {noiseFlags splineFlags : BitVec 32} {copy : Bool}
    {im0 : Img ℚ} {ns0 : List (Img ℚ)} {w : Img ℚ} {b : Img (BitVec 32)} {rng : σ} {n : Nat}
    (hn : 1 ≤ n) (hw : w.Sq n) (hb : b.Sq n) (hi : im0.Sq n) {k1 : Work × σ}
    {k2 : Work × Img ℚ × Img (BitVec 32) × Bool} {k3 : Option Work}
    (h1 : noiseInterp x noiseFlags im0 ns0 w b rng = .ok k1)
    (h2 : edgeStage copy splineFlags k1.1 w b = .ok k2)
    (h3 : splineStage x splineFlags k2.1 k2.2.1 k2.2.2.1 = .ok k3) :
    (k3 = none ∧ TooMuchBad n k2.2.1 k2.2.2.1 splineFlags) ∨
    ∃ k, k3 = some k ∧ ¬ TooMuchBad n k2.2.1 k2.2.2.1 splineFlags ∧
      InterpFacts n noiseFlags splineFlags copy im0 ns0 w b k2.2.1 k2.2.2.1 k.image k.noises
        k.pmask := by
  obtain ⟨a1, a2, a3, a4⟩ := noiseInterp_ok h1
  have i1 : k1.1.image.Sq n := ⟨a1.1.trans hi.1, a1.2.trans hi.2⟩
  have p1 : k1.1.pmask.Sq n := ⟨a2.1.trans hb.1, a2.2.trans hb.2⟩
  obtain ⟨e1, e2, e3, e4, e5, e6, e7, e8, e9, e10⟩ := edgeStage_ok hw hb p1 i1 hn h2
  rcases splineStage_ok e2 e4 e6 h3 with h | ⟨k, q1, q2, q3, q4, q5, q6⟩
  · exact .inl h
  · right
    refine ⟨k, q1, q2, ?_⟩
    -- the two bits of the final mask
    have bits : ∀ r < n, ∀ c < n,
        (∀ j, (k.pmask.px r c).getLsbD j = true → j = 27 ∨ j = 28) ∧
        ((k.pmask.px r c).getLsbD 28 = true ↔ Carries (b.px r c) noiseFlags) ∧
        ((k.pmask.px r c).getLsbD 27 = true ↔
          ¬ (k2.1.image.px r c = k1.1.image.px r c ∧ SameAt k1.1.noises k2.1.noises r c) ∨
          (k2.2.1.px r c < 0 ∨ Carries (k2.2.2.1.px r c) splineFlags ∨
            ¬ (k.image.px r c = k2.1.image.px r c ∧ SameAt k2.1.noises k.noises r c))) := by
      intro r hr c hc
      have s1 : (∀ j, (k1.1.pmask.px r c).getLsbD j = true ↔ j = 28 ∧ Carries (b.px r c) noiseFlags) := by
        intro j
        obtain ⟨f1, f2⟩ := a4 r (by rw [hb.1]; exact hr) c (by rw [hb.2]; exact hc)
        by_cases hf : Carries (b.px r c) noiseFlags
        · rw [f1 hf, noiseBit]; simp [hf]
        · rw [(f2 hf).1]; simp [hf]
      have or27 : ∀ v : BitVec 32, ∀ j, (v ||| BMASK_SPLINE_INTERP).getLsbD j = true ↔
          v.getLsbD j = true ∨ j = 27 := by
        intro v j
        rw [BitVec.getLsbD_or, Bool.or_eq_true, splineBit]; simp
      have s2 : ∀ j, (k2.1.pmask.px r c).getLsbD j = true ↔
          (j = 28 ∧ Carries (b.px r c) noiseFlags) ∨ (j = 27 ∧
          ¬ (k2.1.image.px r c = k1.1.image.px r c ∧ SameAt k1.1.noises k2.1.noises r c)) := by
        intro j
        obtain ⟨f1, f2, _⟩ := e10 r hr c hc
        by_cases hf : (k2.1.image.px r c = k1.1.image.px r c ∧ SameAt k1.1.noises k2.1.noises r c)
        · rw [f1 hf, s1]; simp [hf]
        · rw [f2 hf, or27, s1]; simp [hf]
      have s3 : ∀ j, (k.pmask.px r c).getLsbD j = true ↔
          ((j = 28 ∧ Carries (b.px r c) noiseFlags) ∨ (j = 27 ∧
          ¬ (k2.1.image.px r c = k1.1.image.px r c ∧ SameAt k1.1.noises k2.1.noises r c))) ∨
          (j = 27 ∧ (k2.2.1.px r c < 0 ∨ Carries (k2.2.2.1.px r c) splineFlags ∨
            ¬ (k.image.px r c = k2.1.image.px r c ∧ SameAt k2.1.noises k.noises r c))) := by
        intro j
        obtain ⟨_, f1, f2⟩ := q6 r hr c hc
        by_cases hf : (k2.2.1.px r c < 0 ∨ Carries (k2.2.2.1.px r c) splineFlags ∨
            ¬ (k.image.px r c = k2.1.image.px r c ∧ SameAt k2.1.noises k.noises r c))
        · rw [f1 hf, or27, s2]; simp only [hf, and_true]
        · rw [f2 hf, s2]; simp only [hf, and_false, or_false]
      refine ⟨fun j hj => ?_, ?_, ?_⟩
      · rcases (s3 j).1 hj with (⟨h, _⟩ | ⟨h, _⟩) | ⟨h, _⟩ <;> omega
      · rw [s3]; simp
      · rw [s3]; simp
    refine ⟨q3, q5, sameShapes_trans a3 (sameShapes_trans e5 q4), fun r hr c hc => (bits r hr c hc).1,
      fun r hr c hc => (bits r hr c hc).2.1, ?_, ?_, ?_⟩
    · intro r hr c hc hal
      rw [(bits r hr c hc).2.1, (bits r hr c hc).2.2]
      by_contra hno
      push Not at hno
      obtain ⟨⟨u1, _, _, u2⟩, u3⟩ := hno
      obtain ⟨_, v1, v2⟩ := (a4 r (by rw [hb.1]; exact hr) c (by rw [hb.2]; exact hc)).2 u3
      rcases hal with h | h
      · exact h (u2.1.trans (u1.1.trans v1))
      · exact h (sameAt_trans v2 (sameAt_trans u1.2 u2.2))
    · intro r hr c hc h
      rw [(bits r hr c hc).2.2]
      rcases h with h | h
      · exact .inr (.inl h)
      · exact .inr (.inr (.inl h))
    · intro r hr c hc h
      rw [(bits r hr c hc).2.2] at h
      rcases h with h | h | h | h
      · right
        by_contra hno
        apply h
        apply (e10 r hr c hc).2.2
        by_cases hcp : copy = true
        · right
          intro e he
          exact hno ⟨hcp, e, he⟩
        · left; simpa using hcp
      · left; exact .inl h.le
      · left; exact .inr h
      · left
        by_contra hu
        exact h ((q6 r hr c hc).1 hu)


/-- The outcome of a candidate that passed the initial cuts. -/
def Late {A σ : Type} (x : Ext A σ) (c : BuildCfg A) (n : Nat) (g : Option (Img Bool)) (o : SEObj)
    (im0 : Img ℚ) (ns0 : List (Img ℚ)) (w : Img ℚ) (b : Img (BitVec 32)) (out : Outcome) : Prop :=
  ∃ w' b', AfterCopy c.copyEdges c.splineFlags w b w' b' ∧ w'.Sq n ∧ b'.Sq n ∧
    ((FullEdge w' b' c.splineFlags ∧ out = .unused o FULL_EDGE_MASKED) ∨
     (¬ FullEdge w' b' c.splineFlags ∧
      ((TooMuchBad n w' b' c.splineFlags ∧ out = .unused o HIGH_INTERP_MASKED_FRAC) ∨
       (¬ TooMuchBad n w' b' c.splineFlags ∧
        ∃ im ns pm q, InterpFacts n c.noiseFlags c.splineFlags c.copyEdges im0 ns0 w b w' b' im ns pm ∧
          IsFraction n g (fun p => pm.px p.1 p.2 ≠ 0) q ∧
          ((c.maxMaskedFraction ≤ q ∧ out = .unused o HIGH_MASKED_FRAC) ∨
           (q < c.maxMaskedFraction ∧ ∃ o' wt psf, out = .used o' wt ∧
              o.setInterp im ns pm = (o', none) ∧ o'.image = some im ∧ o'.noises = some ns ∧
              o'.pmask = some pm ∧ o'.weight = o.weight ∧ o'.bmask = o.bmask ∧ o'.psf = o.psf ∧
              o.psf = some psf ∧ o'.boxSize = o.boxSize ∧ o'.xStart = o.xStart ∧
              o'.yStart = o.yStart ∧
              buildCoaddWeight x.fwhm c.coaddingWeight w psf = .ok wt))))))

theorem setInterp_ok {o o' : SEObj} {im : Img ℚ} {ns : List (Img ℚ)} {pm : Img (BitVec 32)}
    (h : o.setInterp im ns pm = (o', none)) :
    o'.image = some im ∧ o'.noises = some ns ∧ o'.pmask = some pm ∧ o'.weight = o.weight ∧
      o'.bmask = o.bmask ∧ o'.psf = o.psf ∧ o'.boxSize = o.boxSize ∧ o'.xStart = o.xStart ∧
      o'.yStart = o.yStart := by
  unfold SEObj.setInterp at h
  split at h
  · cases h
  · split at h
    · cases h
    · split at h
      · cases h
      · have := congrArg Prod.fst h
        simp only at this
        subst this
        exact ⟨rfl, rfl, rfl, rfl, rfl, rfl, rfl, rfl, rfl⟩

theorem interpolateCand_ok {A σ : Type} {x : Ext A σ} {c : BuildCfg A} {g : Option (Img Bool)}
    {o : SEObj} {w : Img ℚ} {b : Img (BitVec 32)} {rng : σ} {n : Nat} (hn : 1 ≤ n)
    (hw : w.Sq n) (hb : b.Sq n) {im0 : Img ℚ} {ns0 : List (Img ℚ)} (ho : o.image = some im0)
    (hns : o.noises = some ns0) (hi : im0.Sq n) (hg : ∀ m, g = some m → m.Sq n)
    (hcut : ¬ CutEdge c w b)
    {out : Outcome × σ} (h : interpolateCand x c g o w b rng = .ok out) :
    Late x c n g o im0 ns0 w b out.1 := by
  unfold interpolateCand at h
  rw [ho, hns] at h
  simp only [attr_some, ok_bind] at h
  obtain ⟨k1, h1, h⟩ := bind_eq_ok.1 h
  obtain ⟨k2, h2, h⟩ := bind_eq_ok.1 h
  obtain ⟨a1, a2, a3, a4⟩ := noiseInterp_ok h1
  have i1 : k1.1.image.Sq n := ⟨a1.1.trans hi.1, a1.2.trans hi.2⟩
  have p1 : k1.1.pmask.Sq n := ⟨a2.1.trans hb.1, a2.2.trans hb.2⟩
  obtain ⟨e1, e2, e3, e4, e5, e6, e7, e8, e9, e10⟩ := edgeStage_ok hw hb p1 i1 hn h2
  refine ⟨k2.2.1, k2.2.2.1, e1, e2, e3, ?_⟩
  have hfe : k2.2.2.2 = true ↔ FullEdge k2.2.1 k2.2.2.1 c.splineFlags := by
    by_cases hcp : c.copyEdges = true
    · exact e7 hcp
    · have hcp' : c.copyEdges = false := by simpa using hcp
      rw [e8 hcp', (e1.2.1 hcp').1, (e1.2.1 hcp').2]
      simp only [Bool.false_eq_true, false_iff]
      exact fun hf => hcut ⟨hcp', hf⟩
  by_cases hbad : k2.2.2.2 = true
  · left
    rw [if_pos hbad] at h
    exact ⟨hfe.1 hbad, by rw [← Except.ok.inj h]⟩
  · right
    refine ⟨fun hf => hbad (hfe.2 hf), ?_⟩
    rw [if_neg hbad] at h
    obtain ⟨k3, h3, h⟩ := bind_eq_ok.1 h
    rcases interp_facts hn hw hb hi h1 h2 h3 with ⟨rfl, htm⟩ | ⟨k, rfl, htm, hf⟩
    · left
      exact ⟨htm, by rw [← Except.ok.inj h]⟩
    · right
      refine ⟨htm, k.image, k.noises, k.pmask, ?_⟩
      obtain ⟨q, hq1, hq2⟩ := pmaskFraction_eq hf.pm_sq hn hg
      refine ⟨q, hf, hq2, ?_⟩
      simp only [hq1] at h
      by_cases hq : c.maxMaskedFraction ≤ q
      · left
        rw [if_pos (geq_fin.2 hq)] at h
        exact ⟨hq, by rw [← Except.ok.inj h]⟩
      · right
        rw [if_neg (by rw [geq_fin]; exact hq)] at h
        refine ⟨not_le.1 hq, ?_⟩
        split at h
        · cases h
        · rename_i o' ho'
          obtain ⟨psf, h4, h⟩ := bind_eq_ok.1 h
          obtain ⟨wt, h5, h⟩ := bind_eq_ok.1 h
          obtain ⟨b1, b2, b3, b4, b5, b6, b7, b8, b9⟩ := setInterp_ok ho'
          refine ⟨o', wt, psf, by rw [← Except.ok.inj h], ho', b1, b2, b3, b4, b5, b6, ?_, b7, b8, b9, h5⟩
          rw [attr_ok, b6] at h4
          exact h4

/-- The bits of the word of the initial cuts. -/
theorem skipFlagWord_bits (e f m p : Bool) (j : Nat) :
    (skipFlagWord e f m p).getLsbD j = true ↔
      (j = 0 ∧ e = true) ∨ (j = 1 ∧ f = true) ∨ (j = 2 ∧ m = true) ∨ (j = 5 ∧ p = true) := by
  have t : ∀ k < 32, (BitVec.twoPow 32 k).getLsbD j = decide (j = k) := by
    intro k hk
    rw [BitVec.getLsbD_twoPow]
    by_cases h : j = k <;> simp [h, hk, eq_comm]
  cases e <;> cases f <;> cases m <;> cases p <;>
    simp [skipFlagWord, FULL_EDGE_MASKED, SLICE_HAS_FLAGS, HIGH_MASKED_FRAC, BAD_PSF_MODEL, t, or_assoc]

theorem processCand_ok {A σ : Type} {x : Ext A σ} {c : BuildCfg A} {k : Cand} {rng : σ} {n : Nat}
    (hn : 1 ≤ n) (hk : PrepFacts c n k) (hs : k.src.WellShaped) {out : Outcome × σ}
    (h : processCand x c k rng = .ok out) :
    ∃ d w0 g w b o, k.src.ReadsAs c d ∧ k.obj.weight = some w0 ∧
      (c.rejectOutliers = false → w0 = d.weight) ∧
      SeesGaia c k.src d g ∧
      symmetrizeSlice x.rotate c.symmetrize g (c.splineFlags ||| c.noiseFlags) w0 d.bmask
        = .ok (w, b) ∧ w0.Sq n ∧ d.bmask.Sq n ∧ d.image.Sq n ∧ w.Sq n ∧ b.Sq n ∧
      o = { k.obj with weight := some w, bmask := some b } ∧
      k.obj.image = some d.image ∧ k.obj.noises = some d.noises ∧
      (((CutEdge c w b ∨ CutFlags c n b ∨ CutFraction c n g w b ∨ k.psfFlag = true) ∧
        out.2 = rng ∧ ∃ f, out.1 = .unused o f ∧ ∀ j, f.getLsbD j = true ↔
          (j = 0 ∧ CutEdge c w b) ∨ (j = 1 ∧ CutFlags c n b) ∨ (j = 2 ∧ CutFraction c n g w b) ∨
          (j = 5 ∧ k.psfFlag = true)) ∨
       (¬ (CutEdge c w b ∨ CutFlags c n b ∨ CutFraction c n g w b ∨ k.psfFlag = true) ∧
        Late x c n g o d.image d.noises w b out.1)) := by
  obtain ⟨d, w0, d1, d2, d3, d4, d5, d6, d7, d8, d9, d10, d11⟩ := hk.data
  obtain ⟨s1, s2, s3, s4⟩ := d9 hs
  unfold processCand at h
  simp only at h
  obtain ⟨g, h1, h⟩ := bind_eq_ok.1 h
  rw [d4, d5] at h
  simp only [attr_some, ok_bind] at h
  obtain ⟨⟨w, b⟩, h2, h⟩ := bind_eq_ok.1 h
  obtain ⟨skipEdge, h3, h⟩ := bind_eq_ok.1 h
  obtain ⟨g1, g2⟩ := seGaiaMask_ok d6 d7 d8 h1
  have hg : ∀ m, g = some m → m.Sq n := by
    intro m hm; have := g2 m hm; rwa [d10] at this
  have hsym : w.Sq n ∧ b.Sq n := by
    obtain ⟨w', b', e, e1, e2, e3, e4, _⟩ := C19_only_adds_masking x.rotate c.symmetrize g
      (c.splineFlags ||| c.noiseFlags) w0 d.bmask (s2.1.trans s2.2.symm) (s3.1.trans s3.2.symm)
    rw [h2] at e
    cases e
    exact ⟨⟨e1.trans s2.1, e2.trans s2.2⟩, ⟨e3.trans s3.1, e4.trans s3.2⟩⟩
  obtain ⟨hw, hb⟩ := hsym
  refine ⟨d, w0, g, w, b, _, d1, d4, d11, g1, h2, s2, s3, s1, hw, hb, rfl, d2, d3, ?_⟩
  unfold edgeCut at h3
  have cE : skipEdge = true ↔ CutEdge c w b := by
    by_cases hcp : c.copyEdges = true
    · rw [if_pos hcp] at h3
      have := Except.ok.inj h3
      subst this
      simp [CutEdge, hcp]
    · rw [if_neg hcp] at h3
      rw [fullEdge_iff hw hb hn h3]
      simp [CutEdge, hcp]
  have cF : sliceHasFlags b c.badImageFlags = true ↔ CutFlags c n b := by
    rw [C14_has_flags_iff, hb.1, hb.2]; rfl
  have cM : (computeMaskedFraction w b (c.splineFlags ||| c.noiseFlags) g).geq c.maxMaskedFraction
      = true ↔ CutFraction c n g w b := by
    obtain ⟨q, q1, q2⟩ := maskedFraction_eq (bmask := b) (flags := c.splineFlags ||| c.noiseFlags)
      (g := g) hw hn
    rw [q1, geq_fin]
    constructor
    · intro hq; exact ⟨q, q2, hq⟩
    · rintro ⟨q', h', hq⟩; rwa [isFraction_unique q2 h']
  have cAll : (skipEdge || sliceHasFlags b c.badImageFlags ||
      (computeMaskedFraction w b (c.splineFlags ||| c.noiseFlags) g).geq c.maxMaskedFraction ||
      k.psfFlag) = true ↔
      (CutEdge c w b ∨ CutFlags c n b ∨ CutFraction c n g w b ∨ k.psfFlag = true) := by
    rw [Bool.or_eq_true, Bool.or_eq_true, Bool.or_eq_true, cE, cF, cM, or_assoc, or_assoc]
  by_cases hcut : (CutEdge c w b ∨ CutFlags c n b ∨ CutFraction c n g w b ∨ k.psfFlag = true)
  · left
    rw [if_pos (cAll.2 hcut)] at h
    have := Except.ok.inj h
    subst this
    refine ⟨hcut, rfl, _, rfl, fun j => ?_⟩
    rw [skipFlagWord_bits, cE, cF, cM]
  · right
    rw [if_neg (mt cAll.1 hcut)] at h
    refine ⟨hcut, interpolateCand_ok (o := { k.obj with weight := some w, bmask := some b }) hn hw hb
      (by exact d2) (by exact d3) s1 hg (fun hE => hcut (.inl hE)) h⟩

end Pizza
