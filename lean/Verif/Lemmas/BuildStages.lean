import Verif.Lemmas.BuildInputs
import Verif.Spec.BuildOutcome
import Verif.Props.Flags

/-! Facts about the stages of processing one candidate. -/

namespace Pizza

theorem fullEdge_iff {weight : Img ℚ} {bmask : Img (BitVec 32)} {flags : BitVec 32} {n : Nat} {v : Bool}
    (hw : weight.Sq n) (hb : bmask.Sq n) (hn : 1 ≤ n)
    (h : sliceFullEdgeMasked weight bmask flags = .ok v) :
    v = true ↔ FullEdge weight bmask flags := by
  obtain ⟨v', h1, h2⟩ := C13_full_edge_iff weight bmask flags
    ⟨hb.1.trans hw.1.symm, hb.2.trans hw.2.symm⟩ (by have := hw.1; omega) (by have := hw.2; omega)
  rw [h] at h1
  cases h1
  exact h2

theorem isFraction_unique {n : Nat} {g : Option (Img Bool)} {P : Nat × Nat → Prop} {q q' : ℚ}
    (h : IsFraction n g P q) (h' : IsFraction n g P q') : q = q' := by
  obtain ⟨a, b, h1, h2, h3⟩ := h
  obtain ⟨a', b', k1, k2, k3⟩ := h'
  have e1 : a = a' := Finset.ext fun p => by rw [h1, k1]
  have e2 : b = b' := Finset.ext fun p => by rw [h2, k2]
  subst e1 e2
  rcases h3 with ⟨h3, h4⟩ | ⟨h3, h4⟩ <;> rcases k3 with ⟨k3, k4⟩ | ⟨k3, k4⟩
  · rw [h4, k4]
  · omega
  · omega
  · rw [h4, k4]

theorem maskedFraction_eq {weight : Img ℚ} {bmask : Img (BitVec 32)} {flags : BitVec 32} {n : Nat}
    {g : Option (Img Bool)} (hw : weight.Sq n) (hn : 1 ≤ n) :
    ∃ q, computeMaskedFraction weight bmask flags g = .fin q ∧
      IsFraction n g (Unusable weight bmask flags) q := by
  obtain ⟨h1, h2⟩ := C15_value weight bmask flags g
  rw [hw.1, hw.2] at h1 h2
  by_cases h : ∃ p, Counted n n g p
  · obtain ⟨bad, all, a1, a2, a3, a4⟩ := h1 h
    exact ⟨_, a4, all, bad, a1, a2, .inl ⟨a3, rfl⟩⟩
  · have hg : g ≠ none := by
      rintro rfl
      exact h ⟨(0, 0), hn, hn, by simp⟩
    refine ⟨1, by rw [h2 h, if_neg hg], ∅, ∅, ?_, ?_, .inr ⟨rfl, rfl⟩⟩
    · intro p; simp only [Finset.notMem_empty, false_iff]; exact fun hp => h ⟨p, hp⟩
    · intro p; simp only [Finset.notMem_empty, false_iff]; exact fun hp => h ⟨p, hp.1⟩

theorem pmaskFraction_eq {pmask : Img (BitVec 32)} {n : Nat} {g : Option (Img Bool)}
    (hp : pmask.Sq n) (hn : 1 ≤ n) (hg : ∀ m, g = some m → m.Sq n) :
    ∃ q, pmaskFraction pmask g = .fin q ∧
      IsFraction n g (fun p => pmask.px p.1 p.2 ≠ 0) q := by
  have hc : ∀ (P : Nat → Nat → Bool) (p : Nat × Nat),
      p ∈ (pixels n n).filter (fun q => P q.1 q.2 = true) ↔ p.1 < n ∧ p.2 < n ∧ P p.1 p.2 = true := by
    intro P p; simp [mem_pixels, and_assoc]
  cases g with
  | none =>
    have h0 : n * n ≠ 0 := Nat.mul_ne_zero (by omega) (by omega)
    have hcard : (pixels n n).card = n * n := by simp [pixels]
    refine ⟨((countPix n n fun r c => decide (pmask.px r c ≠ 0) : Nat) : ℚ) / ((n * n : Nat) : ℚ),
      ?_, pixels n n, (pixels n n).filter (fun q => decide (pmask.px q.1 q.2 ≠ 0) = true), ?_, ?_, ?_⟩
    · unfold pmaskFraction
      simp only [hp.1, hp.2]
      rw [if_neg h0]
    · intro p; simp [mem_pixels, Counted]
    · intro p; rw [hc fun r c => decide (pmask.px r c ≠ 0)]; simp [Counted, and_assoc]
    · left; rw [hcard]; exact ⟨Nat.pos_of_ne_zero h0, rfl⟩
  | some m =>
    have hm := hg m rfl
    by_cases hall : (allLt m.nrow fun r => allLt m.ncol fun c => m.px r c) = true
    · refine ⟨1, ?_, ∅, ∅, ?_, ?_, .inr ⟨rfl, rfl⟩⟩
      · unfold pmaskFraction; simp only; rw [if_pos hall]
      · intro p
        simp only [Finset.notMem_empty, false_iff]
        rintro ⟨h1, h2, h3⟩
        simp only [allLt_iff] at hall
        have := hall p.1 (by rw [hm.1]; exact h1) p.2 (by rw [hm.2]; exact h2)
        rw [h3 m rfl] at this; cases this
      · intro p
        simp only [Finset.notMem_empty, false_iff]
        rintro ⟨⟨h1, h2, h3⟩, _⟩
        simp only [allLt_iff] at hall
        have := hall p.1 (by rw [hm.1]; exact h1) p.2 (by rw [hm.2]; exact h2)
        rw [h3 m rfl] at this; cases this
    · refine ⟨_, by unfold pmaskFraction; simp only; rw [if_neg hall], 
        (pixels n n).filter (fun q => (!m.px q.1 q.2) = true),
        (pixels n n).filter (fun q => (decide (pmask.px q.1 q.2 ≠ 0) && !m.px q.1 q.2) = true),
        ?_, ?_, ?_⟩
      · intro p; rw [hc fun r c => !m.px r c]; simp [Counted]
      · intro p
        rw [hc fun r c => decide (pmask.px r c ≠ 0) && !m.px r c]
        simp [Counted]
        tauto
      · left
        constructor
        · rw [Finset.card_pos]
          simp only [allLt_iff] at hall
          push Not at hall
          obtain ⟨r, hr, c, hc', h⟩ := hall
          rw [hm.1] at hr; rw [hm.2] at hc'
          exact ⟨(r, c), (hc (fun r c => !m.px r c) _).2 ⟨hr, hc', by simpa using h⟩⟩
        · rw [hp.1, hp.2, hm.1, hm.2]; rfl

theorem geq_fin {q m : ℚ} : (Flt.fin q).geq m = true ↔ m ≤ q := by
  simp [Flt.geq]

theorem seGaiaMask_ok {A : Type} {c : BuildCfg A} {s : Src} {o : SEObj} {d : SESlice}
    {g : Option (Img Bool)} (hb : o.boxSize = some d.boxSize) (hx : o.xStart = some d.xStart)
    (hy : o.yStart = some d.yStart) (h : seGaiaMask c s o = .ok g) :
    SeesGaia c s d g ∧ ∀ m, g = some m → m.Sq d.boxSize.toNat := by
  unfold seGaiaMask at h
  split at h
  · rename_i m hm
    obtain ⟨f, hf, h⟩ := bind_eq_ok.1 h
    obtain ⟨m', h1, h⟩ := bind_eq_ok.1 h
    have := Except.ok.inj h
    subst this
    unfold SEObj.mapImage at h1
    rw [hb, hx, hy] at h1
    refine ⟨.inr ⟨m, m', f, hm, rfl, hf, h1⟩, ?_⟩
    intro m2 h2
    cases h2
    simp only at h1
    obtain ⟨_, _, h1⟩ := bind_eq_ok.1 h1
    obtain ⟨_, _, h1⟩ := bind_eq_ok.1 h1
    rw [← Except.ok.inj h1]
    exact ⟨rfl, rfl⟩
  · rename_i hm
    have := Except.ok.inj h
    subst this
    exact ⟨.inl ⟨hm, rfl⟩, by simp⟩

/-! ### noise interpolation -/

theorem sameAt_refl (as : List (Img ℚ)) (r c : Nat) : SameAt as as r c :=
  List.forall₂_same.2 fun _ _ => rfl

theorem forall₂_trans {α β γ : Type} {P : α → β → Prop} {Q : β → γ → Prop} {R : α → γ → Prop}
    (hR : ∀ a b c, P a b → Q b c → R a c) {l1 : List α} {l2 : List β} {l3 : List γ}
    (h1 : List.Forall₂ P l1 l2) (h2 : List.Forall₂ Q l2 l3) : List.Forall₂ R l1 l3 := by
  induction h1 generalizing l3 with
  | nil => cases h2; exact .nil
  | cons h _ ih => cases h2 with | cons h' t' => exact .cons (hR _ _ _ h h') (ih t')

theorem sameAt_trans {as bs cs : List (Img ℚ)} {r c : Nat} (h : SameAt as bs r c)
    (h' : SameAt bs cs r c) : SameAt as cs r c :=
  forall₂_trans (fun _ _ _ h1 h2 => h2.trans h1) h h'

theorem sameShapes_refl (as : List (Img ℚ)) : SameShapes as as :=
  List.forall₂_same.2 fun _ _ => ⟨rfl, rfl⟩

theorem sameShapes_trans {as bs cs : List (Img ℚ)} (h : SameShapes as bs) (h' : SameShapes bs cs) :
    SameShapes as cs :=
  forall₂_trans (fun _ _ _ h1 h2 => ⟨h2.1.trans h1.1, h2.2.trans h1.2⟩) h h'

theorem noiseFill_facts {A σ : Type} (x : Ext A σ) (wgt : Img ℚ) (msk : Nat → Nat → Bool)
    (l : List (Img ℚ)) (rng : σ) :
    SameShapes l (noiseFill x wgt msk l rng).1 ∧
      ∀ r c, msk r c = false → SameAt l (noiseFill x wgt msk l rng).1 r c := by
  induction l generalizing rng with
  | nil => exact ⟨.nil, fun _ _ _ => .nil⟩
  | cons a l ih =>
    refine ⟨.cons ⟨rfl, rfl⟩ (ih _).1, fun r c h => .cons ?_ ((ih _).2 r c h)⟩
    simp [Img.putWhere, h]

theorem noiseInterp_ok {A σ : Type} {x : Ext A σ} {flags : BitVec 32} {image : Img ℚ}
    {noises : List (Img ℚ)} {weight : Img ℚ} {bmask : Img (BitVec 32)} {rng : σ} {out : Work × σ}
    (h : noiseInterp x flags image noises weight bmask rng = .ok out) :
    (out.1.image.nrow = image.nrow ∧ out.1.image.ncol = image.ncol) ∧
    (out.1.pmask.nrow = bmask.nrow ∧ out.1.pmask.ncol = bmask.ncol) ∧
    SameShapes noises out.1.noises ∧
    ∀ r < bmask.nrow, ∀ c < bmask.ncol,
      (Carries (bmask.px r c) flags → out.1.pmask.px r c = BMASK_NOISE_INTERP) ∧
      (¬ Carries (bmask.px r c) flags → out.1.pmask.px r c = 0 ∧
        out.1.image.px r c = image.px r c ∧ SameAt noises out.1.noises r c) := by
  unfold noiseInterp at h
  simp only at h
  split at h
  · obtain ⟨top, _, h⟩ := bind_eq_ok.1 h
    have := Except.ok.inj h
    subst this
    refine ⟨⟨rfl, rfl⟩, ⟨rfl, rfl⟩, (noiseFill_facts _ _ _ _ _).1, fun r hr c hc => ⟨fun hf => ?_, fun hf => ?_⟩⟩
    · have := (hasFlag_iff (bmask.px r c) flags).2 hf
      simp [Img.orWhere, this]
    · have hff : hasFlag (bmask.px r c) flags = false := by
        rw [Bool.eq_false_iff, Ne, hasFlag_iff]; exact hf
      refine ⟨by simp [Img.orWhere, hff], by simp [Img.putWhere, hff], ?_⟩
      exact (noiseFill_facts _ _ _ _ _).2 r c hff
  · rename_i hn
    have := Except.ok.inj h
    subst this
    refine ⟨⟨rfl, rfl⟩, ⟨rfl, rfl⟩, sameShapes_refl _, fun r hr c hc => ⟨fun hf => ?_, fun _ => ⟨rfl, rfl, sameAt_refl _ _ _⟩⟩⟩
    exact absurd ((anyPix_iff _ _ _).2 ⟨r, hr, c, hc, (hasFlag_iff _ _).2 hf⟩) hn

/-! ### edges -/

theorem changed_false {a b : Img ℚ} {as bs : List (Img ℚ)} {r c : Nat} (hl : as.length = bs.length) :
    changed a b as bs r c = false ↔ a.px r c = b.px r c ∧ SameAt bs as r c := by
  unfold changed SameAt
  rw [Bool.or_eq_false_iff, decide_eq_false_iff_not, not_not]
  refine and_congr_right fun _ => ?_
  induction as generalizing bs with
  | nil => cases bs with
    | nil => simp
    | cons => simp at hl
  | cons u as ih => cases bs with
    | nil => simp at hl
    | cons v bs =>
      simp only [List.zipWith_cons_cons, List.any_cons, Bool.or_eq_false_iff, List.forall₂_cons, id,
        decide_eq_false_iff_not, not_not]
      rw [ih (by simpa using hl)]

theorem edgeStage_ok {on : Bool} {flags : BitVec 32} {k : Work} {w : Img ℚ} {b : Img (BitVec 32)}
    {n : Nat} (hw : w.Sq n) (hb : b.Sq n) (hk : k.pmask.Sq n) (hki : k.image.Sq n) (hn : 1 ≤ n)
    {out : Work × Img ℚ × Img (BitVec 32) × Bool} (h : edgeStage on flags k w b = .ok out) :
    AfterCopy on flags w b out.2.1 out.2.2.1 ∧ out.2.1.Sq n ∧ out.2.2.1.Sq n ∧
    out.1.image.Sq n ∧ SameShapes k.noises out.1.noises ∧ out.1.pmask.Sq n ∧
    (on = true → (out.2.2.2 = true ↔ FullEdge out.2.1 out.2.2.1 flags)) ∧
    (on = false → out.2.2.2 = false) ∧
    (on = true → RepairOf w b flags k.image out.1.image ∧
      List.Forall₂ (RepairOf w b flags) k.noises out.1.noises) ∧
    (∀ r < n, ∀ c < n,
      (out.1.image.px r c = k.image.px r c ∧ SameAt k.noises out.1.noises r c →
        out.1.pmask.px r c = k.pmask.px r c) ∧
      (¬ (out.1.image.px r c = k.image.px r c ∧ SameAt k.noises out.1.noises r c) →
        out.1.pmask.px r c = k.pmask.px r c ||| BMASK_SPLINE_INTERP) ∧
      (on = false ∨ (∀ e, ¬ Repaired w b flags e r c) →
        out.1.image.px r c = k.image.px r c ∧ SameAt k.noises out.1.noises r c)) := by
  unfold edgeStage at h
  split at h
  · rename_i hon
    obtain ⟨st, h1, h⟩ := bind_eq_ok.1 h
    obtain ⟨bad, h2, h⟩ := bind_eq_ok.1 h
    have := Except.ok.inj h
    subst this
    have hn2 : 2 ≤ w.nrow ∧ 2 ≤ w.ncol := by
      by_contra hne
      rw [C25_too_small _ _ _ _ _ (by omega)] at h1
      cases h1
    obtain ⟨st', e1, e2, e3, e4, e5, _⟩ := C25_copy_edges k.image k.noises w b flags hn2.1 hn2.2
    rw [h1] at e1
    cases e1
    have sw : st.weight.Sq n := ⟨e5.1.trans hw.1, e5.2.1.trans hw.2⟩
    have sb : st.bmask.Sq n := ⟨e4.1.trans hb.1, e4.2.1.trans hb.2⟩
    have hl : k.noises.length = st.noises.length := e3.length_eq
    refine ⟨⟨fun _ => ⟨e5, e4⟩, by simp [hon], fun _ => hn2⟩, sw, sb, ⟨e2.1.trans hki.1, e2.2.1.trans hki.2⟩,
      e3.imp fun a b h => ⟨h.1, h.2.1⟩, hk, fun _ => fullEdge_iff sw sb hn h2, by simp [hon],
      fun _ => ⟨e2, e3⟩, fun r hr c hc => ⟨?_, ?_, ?_⟩⟩
    · rintro ⟨q1, q2⟩
      have : changed k.image st.image k.noises st.noises r c = false := by
        rw [changed_false hl]
        exact ⟨q1.symm, q2.flip.imp fun a b h => h.symm⟩
      simp [Img.orWhere, this]
    · intro q
      have : changed k.image st.image k.noises st.noises r c = true := by
        rw [← Bool.not_eq_false, changed_false hl]
        rintro ⟨q1, q2⟩
        exact q ⟨q1.symm, q2.flip.imp fun a b h => h.symm⟩
      simp [Img.orWhere, this]
    · rintro (q | q)
      · rw [hon] at q; cases q
      · refine ⟨(e2.2.2 r (by rw [hw.1]; exact hr) c (by rw [hw.2]; exact hc)).2 q,
          e3.imp fun a b h => (h.2.2 r (by rw [hw.1]; exact hr) c (by rw [hw.2]; exact hc)).2 q⟩
  · rename_i hon
    have := Except.ok.inj h
    subst this
    refine ⟨⟨by simp [hon], fun _ => ⟨rfl, rfl⟩, by simp [hon]⟩, hw, hb, hki, sameShapes_refl _, hk, by simp [hon],
      fun _ => rfl, by simp [hon], fun r hr c hc => ⟨fun _ => rfl, ?_, fun _ => ⟨rfl, sameAt_refl _ _ _⟩⟩⟩
    exact fun q => absurd ⟨rfl, sameAt_refl _ _ _⟩ q

/-! ### spline interpolation -/

theorem splineStage_ok {A σ : Type} {x : Ext A σ} {flags : BitVec 32} {k : Work} {w : Img ℚ}
    {b : Img (BitVec 32)} {n : Nat} (hw : w.Sq n) (hki : k.image.Sq n) (hkp : k.pmask.Sq n)
    {out : Option Work} (h : splineStage x flags k w b = .ok out) :
    (out = none ∧ TooMuchBad n w b flags) ∨
    ∃ k', out = some k' ∧ ¬ TooMuchBad n w b flags ∧ k'.image.Sq n ∧
      SameShapes k.noises k'.noises ∧ k'.pmask.Sq n ∧
      (∀ r < n, ∀ c < n,
        (¬ Unusable w b flags (r, c) →
          k'.image.px r c = k.image.px r c ∧ SameAt k.noises k'.noises r c) ∧
        (w.px r c < 0 ∨ Carries (b.px r c) flags ∨
            ¬ (k'.image.px r c = k.image.px r c ∧ SameAt k.noises k'.noises r c) →
          k'.pmask.px r c = k.pmask.px r c ||| BMASK_SPLINE_INTERP) ∧
        (¬ (w.px r c < 0 ∨ Carries (b.px r c) flags ∨
            ¬ (k'.image.px r c = k.image.px r c ∧ SameAt k.noises k'.noises r c)) →
          k'.pmask.px r c = k.pmask.px r c)) := by
  unfold splineStage at h
  obtain ⟨res, h1, h⟩ := bind_eq_ok.1 h
  set m := badMaskOf w b flags with hm
  have hmask : IsBadMask w b flags m := ⟨rfl, rfl, fun p _ => badMaskOf_iff w b flags p⟩
  have hmr : m.nrow = n := hw.1
  have hmc : m.ncol = n := hw.2
  obtain ⟨o1, o2, o3⟩ := C21_outcome (σ := Unit) x.interp (fun s _ _ => ([], s)) k.image k.noises w b
    flags none (9 / 10) 4 1 m hmask _ rfl
  rw [h1] at o1 o2 o3
  have bad : ∀ p, p ∈ (Finset.range m.nrow ×ˢ Finset.range m.ncol).filter
      (fun p => m.px p.1 p.2 = true) ↔ p.1 < n ∧ p.2 < n ∧ Unusable w b flags p := by
    intro p
    rw [Finset.mem_filter, Finset.mem_product, Finset.mem_range, Finset.mem_range, hmr, hmc,
      and_assoc, badMaskOf_iff]
  have tm : TooMuchBad n w b flags ↔ ((∃ p, BadAt m p) ∧
      ((¬ ∃ p, GoodAt m p) ∨ (numTrue m : ℚ) / (m.nrow * m.ncol : Nat) > 9 / 10)) := by
    rw [← numTrue_pos, ← numTrue_lt, not_not, hmr, hmc]
    constructor
    · rintro ⟨B, hB, h1, h2⟩
      have : B = (Finset.range m.nrow ×ˢ Finset.range m.ncol).filter
          (fun p => m.px p.1 p.2 = true) := Finset.ext fun p => by rw [hB, bad]
      subst this
      exact ⟨h1, h2⟩
    · rintro ⟨h1, h2⟩
      exact ⟨_, bad, h1, h2⟩
  -- the result in the success case
  have key : ∀ im ns, res.1 = some (im, ns) →
      (im.Sq n ∧ SameShapes k.noises ns ∧ ∀ r < n, ∀ c < n, ¬ Unusable w b flags (r, c) →
        im.px r c = k.image.px r c ∧ SameAt k.noises ns r c) →
      ∃ k', out = some k' ∧ k'.image.Sq n ∧
      SameShapes k.noises k'.noises ∧ k'.pmask.Sq n ∧
      (∀ r < n, ∀ c < n,
        (¬ Unusable w b flags (r, c) →
          k'.image.px r c = k.image.px r c ∧ SameAt k.noises k'.noises r c) ∧
        (w.px r c < 0 ∨ Carries (b.px r c) flags ∨
            ¬ (k'.image.px r c = k.image.px r c ∧ SameAt k.noises k'.noises r c) →
          k'.pmask.px r c = k.pmask.px r c ||| BMASK_SPLINE_INTERP) ∧
        (¬ (w.px r c < 0 ∨ Carries (b.px r c) flags ∨
            ¬ (k'.image.px r c = k.image.px r c ∧ SameAt k.noises k'.noises r c)) →
          k'.pmask.px r c = k.pmask.px r c)) := by
    rintro im ns hr ⟨f1, f2, f3⟩
    rw [hr] at h
    have := Except.ok.inj h
    subst this
    refine ⟨_, rfl, f1, f2, hkp, fun r hr c hc => ⟨f3 r hr c hc, ?_⟩⟩
    have hch : (decide (w.px r c < 0) || hasFlag (b.px r c) flags ||
        changed im k.image ns k.noises r c) = true ↔
        (w.px r c < 0 ∨ Carries (b.px r c) flags ∨
          ¬ (im.px r c = k.image.px r c ∧ SameAt k.noises ns r c)) := by
      rw [Bool.or_eq_true, Bool.or_eq_true, decide_eq_true_eq, hasFlag_iff, or_assoc,
        ← changed_false (a := im) (b := k.image) f2.length_eq.symm, Bool.not_eq_false]
    constructor
    · intro q
      simp only [Img.orWhere]
      rw [if_pos (hch.2 q)]
    · intro q
      simp only [Img.orWhere]
      rw [if_neg (mt hch.1 q)]
  by_cases hb : ∃ p, BadAt m p
  · by_cases hg : (¬ ∃ p, GoodAt m p) ∨ (numTrue m : ℚ) / (m.nrow * m.ncol : Nat) > 9 / 10
    · left
      have := Except.ok.inj (o2 hb hg)
      rw [this] at h
      exact ⟨(Except.ok.inj h).symm, tm.2 ⟨hb, hg⟩⟩
    · right
      rw [not_or, not_not, not_lt] at hg
      obtain ⟨G, hG, ⟨im, ns, e, q1, q2⟩ | ⟨e, he, _⟩⟩ := o3 hb hg.1 hg.2
      · obtain ⟨k', r1, r2⟩ := key im ns (by rw [Except.ok.inj e]) (by
          have shape : ∀ a o, InterpolatedFrom x.interp m G a o → (o.nrow = a.nrow ∧ o.ncol = a.ncol) ∧
              ∀ r < n, ∀ c < n, ¬ Unusable w b flags (r, c) → o.px r c = a.px r c := by
            rintro a o ⟨f, hf, s1, s2, s3⟩
            refine ⟨⟨s1, s2⟩, fun r hr c hc hu => ?_⟩
            refine (s3 (r, c)).2 ⟨⟨hmr.symm ▸ hr, hmc.symm ▸ hc⟩, ?_⟩
            rw [Bool.eq_false_iff]
            exact fun hbad => hu ((badMaskOf_iff w b flags (r, c)).1 hbad)
          refine ⟨⟨(shape _ _ q1).1.1.trans hki.1, (shape _ _ q1).1.2.trans hki.2⟩,
            q2.imp fun a o h => (shape a o h).1, fun r hr c hc hu =>
              ⟨(shape _ _ q1).2 r hr c hc hu, q2.imp fun a o h => (shape a o h).2 r hr c hc hu⟩⟩)
        refine ⟨k', r1, ?_, r2⟩
        rw [tm]; rintro ⟨_, h⟩
        rcases h with h | h
        · exact h hg.1
        · exact absurd hg.2 (not_le.2 h)
      · cases he
  · right
    have := Except.ok.inj (o1 hb)
    obtain ⟨k', r1, r2⟩ := key k.image k.noises (by rw [this])
      ⟨hki, sameShapes_refl _, fun r hr c hc _ => ⟨rfl, sameAt_refl _ _ _⟩⟩
    refine ⟨k', r1, ?_, r2⟩
    rw [tm]; exact fun h => hb h.1

end Pizza
