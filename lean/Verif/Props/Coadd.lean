import Verif.Spec.Coadd
import Verif.Lemmas.SEObject
import Mathlib.Algebra.BigOperators.Field
import Mathlib.Algebra.Order.BigOperators.Group.List
import Mathlib.Tactic.FieldSimp

/-!
Properties C54-C56: `_coadd_slice_inputs`.
-/

namespace Pizza

theorem addScaled_ok {a b s : Img ℚ} {w : ℚ} :
    addScaled a b w = .ok s ↔ (b.nrow = a.nrow ∧ b.ncol = a.ncol) ∧
      s = ⟨a.nrow, a.ncol, fun r c => a.px r c + b.px r c * w⟩ := by
  unfold addScaled
  split
  · rename_i h; simp [h, eq_comm]
  · rename_i h
    simp [h]

theorem orInto_ok {a b s : Img (BitVec 32)} :
    orInto a b = .ok s ↔ (b.nrow = a.nrow ∧ b.ncol = a.ncol) ∧
      s = ⟨a.nrow, a.ncol, fun r c => a.px r c ||| b.px r c⟩ := by
  unfold orInto
  split
  · rename_i h; simp [h, eq_comm]
  · rename_i h
    simp [h]

/-- The noise fields after one step. -/
theorem addNoises_ok {w : ℚ} {l m s : List (Img ℚ)} : addNoises w l m = .ok s ↔
    s.length = l.length ∧ ∀ (i : Nat) a, l[i]? = some a → ∃ b, m[i]? = some b ∧
      (b.nrow = a.nrow ∧ b.ncol = a.ncol) ∧
      s[i]? = some ⟨a.nrow, a.ncol, fun r c => a.px r c + b.px r c * w⟩ := by
  induction l generalizing m s with
  | nil =>
    unfold addNoises
    constructor
    · intro h; rw [← Except.ok.inj h]; simp
    · rintro ⟨h, _⟩; rw [List.length_nil, List.length_eq_zero_iff] at h; rw [h]
  | cons a l ih =>
    cases m with
    | nil =>
      unfold addNoises
      constructor
      · intro h; cases h
      · rintro ⟨_, h⟩
        obtain ⟨b, hb, _⟩ := h 0 a rfl
        cases hb
    | cons b m =>
      unfold addNoises
      constructor
      · intro h
        obtain ⟨x, h1, h⟩ := bind_eq_ok.1 h
        obtain ⟨t, h2, h⟩ := bind_eq_ok.1 h
        have := Except.ok.inj h
        subst this
        obtain ⟨h3, h4⟩ := ih.1 h2
        obtain ⟨h5, rfl⟩ := addScaled_ok.1 h1
        refine ⟨by simp [h3], ?_⟩
        intro i a' ha
        cases i with
        | zero => cases ha; exact ⟨b, rfl, h5, rfl⟩
        | succ i => exact h4 i a' ha
      · rintro ⟨h1, h2⟩
        obtain ⟨b', hb, h3, h4⟩ := h2 0 a rfl
        cases hb
        cases s with
        | nil => cases h4
        | cons x t =>
          simp only [List.getElem?_cons_zero, Option.some.injEq] at h4
          have ht : addNoises w l m = .ok t := by
            apply ih.2
            refine ⟨by simpa using h1, fun i a' ha => ?_⟩
            exact h2 (i + 1) a' ha
          rw [addScaled_ok.2 ⟨h3, h4⟩, ok_bind, ht, ok_bind]; rfl

/-- The accumulated arrays after a list of epochs, pixel by pixel. -/
structure Stacked (box psfBox nNoise : Nat) (ps : List (EpochData × ℚ)) (st : Stacks) : Prop where
  image : st.image.nrow = box ∧ st.image.ncol = box ∧
    ∀ r c, st.image.px r c = (ps.map fun p => p.2 * p.1.image.px r c).sum
  frac : st.interpFrac.nrow = box ∧ st.interpFrac.ncol = box ∧
    ∀ r c, st.interpFrac.px r c = (ps.map fun p => p.2 * clipFrac (p.1.interpFrac.px r c)).sum
  psf : st.psf.nrow = psfBox ∧ st.psf.ncol = psfBox ∧
    ∀ r c, st.psf.px r c = (ps.map fun p => p.2 * (p.1.psf.px r c).getD 0).sum
  bmask : st.bmask.nrow = box ∧ st.bmask.ncol = box ∧
    ∀ r c j, (st.bmask.px r c).getLsbD j = true ↔ ∃ p ∈ ps, (p.1.pmask.px r c).getLsbD j = true
  ormask : st.ormask.nrow = box ∧ st.ormask.ncol = box ∧
    ∀ r c j, (st.ormask.px r c).getLsbD j = true ↔ ∃ p ∈ ps, (p.1.bmask.px r c).getLsbD j = true
  noises : st.noises.length = nNoise ∧ ∀ i < nNoise, ∃ a, st.noises[i]? = some a ∧ a.nrow = box ∧
    a.ncol = box ∧ ∀ r c, a.px r c =
      (ps.map fun p => p.2 * ((p.1.noises[i]?).elim 0 fun b => b.px r c)).sum

theorem stackStep_ok {box psfBox nNoise : Nat} {ps : List (EpochData × ℚ)} {st : Stacks}
    (h : Stacked box psfBox nNoise ps st) (d : EpochData) (w : ℚ) :
    ((∃ st', stackStep st d w = .ok st') ↔ d.Fits box psfBox nNoise) ∧
    ∀ st', stackStep st d w = .ok st' → Stacked box psfBox nNoise (ps ++ [(d, w)]) st' := by
  have main : ∀ st', stackStep st d w = .ok st' →
      d.Fits box psfBox nNoise ∧ Stacked box psfBox nNoise (ps ++ [(d, w)]) st' := by
    intro st' hs
    unfold stackStep at hs
    obtain ⟨im, h1, hs⟩ := bind_eq_ok.1 hs
    obtain ⟨ns, h2, hs⟩ := bind_eq_ok.1 hs
    obtain ⟨fr, h3, hs⟩ := bind_eq_ok.1 hs
    obtain ⟨pf, h4, hs⟩ := bind_eq_ok.1 hs
    obtain ⟨om, h5, hs⟩ := bind_eq_ok.1 hs
    obtain ⟨bm, h6, hs⟩ := bind_eq_ok.1 hs
    have := Except.ok.inj hs
    subst this
    obtain ⟨i1, i2, i3⟩ := h.image
    obtain ⟨f1, f2, f3⟩ := h.frac
    obtain ⟨p1, p2, p3⟩ := h.psf
    obtain ⟨b1, b2, b3⟩ := h.bmask
    obtain ⟨o1, o2, o3⟩ := h.ormask
    obtain ⟨n1, n2⟩ := h.noises
    obtain ⟨g1, rfl⟩ := addScaled_ok.1 h1
    obtain ⟨g3, rfl⟩ := addScaled_ok.1 h3
    obtain ⟨g4, rfl⟩ := addScaled_ok.1 h4
    obtain ⟨g5, rfl⟩ := orInto_ok.1 h5
    obtain ⟨g6, rfl⟩ := orInto_ok.1 h6
    obtain ⟨h2, h2'⟩ := addNoises_ok.1 h2
    refine ⟨⟨⟨g1.1.trans i1, g1.2.trans i2⟩, ⟨g3.1.trans f1, g3.2.trans f2⟩,
      ⟨g4.1.trans p1, g4.2.trans p2⟩, ⟨g5.1.trans o1, g5.2.trans o2⟩, ⟨g6.1.trans b1, g6.2.trans b2⟩, ?_⟩, ?_⟩
    · intro i hi
      obtain ⟨a, a1, a2, a3, _⟩ := n2 i hi
      obtain ⟨b, c1, c2, _⟩ := h2' i a a1
      exact ⟨b, c1, c2.1.trans a2, c2.2.trans a3⟩
    · refine ⟨⟨i1, i2, fun r c => ?_⟩, ⟨f1, f2, fun r c => ?_⟩, ⟨p1, p2, fun r c => ?_⟩,
        ⟨b1, b2, fun r c j => ?_⟩, ⟨o1, o2, fun r c j => ?_⟩, h2.trans n1, fun i hi => ?_⟩
      · simp [i3, mul_comm]
      · simp [f3, mul_comm, Img.map]
      · simp [p3, mul_comm, Img.map]
      · simp only [BitVec.getLsbD_or, Bool.or_eq_true, b3, List.mem_append, List.mem_singleton]
        constructor
        · rintro (⟨p, hp, hp'⟩ | hd)
          · exact ⟨p, .inl hp, hp'⟩
          · exact ⟨(d, w), .inr rfl, hd⟩
        · rintro ⟨p, hp | rfl, hp'⟩
          · exact .inl ⟨p, hp, hp'⟩
          · exact .inr hp'
      · simp only [BitVec.getLsbD_or, Bool.or_eq_true, o3, List.mem_append, List.mem_singleton]
        constructor
        · rintro (⟨p, hp, hp'⟩ | hd)
          · exact ⟨p, .inl hp, hp'⟩
          · exact ⟨(d, w), .inr rfl, hd⟩
        · rintro ⟨p, hp | rfl, hp'⟩
          · exact .inl ⟨p, hp, hp'⟩
          · exact .inr hp'
      · obtain ⟨a, a1, a2, a3, a4⟩ := n2 i hi
        obtain ⟨b, c1, c2, c3⟩ := h2' i a a1
        refine ⟨_, c3, a2, a3, fun r c => ?_⟩
        simp [a4, c1, mul_comm]
  refine ⟨⟨fun ⟨st', hs⟩ => (main st' hs).1, ?_⟩, fun st' hs => (main st' hs).2⟩
  rintro ⟨d1, d2, d3, d4, d5, d6⟩
  have hn : ∃ ns, addNoises w st.noises d.noises = .ok ns := by
    obtain ⟨n1, n2⟩ := h.noises
    refine ⟨List.zipWith (fun a b => ⟨a.nrow, a.ncol, fun r c => a.px r c + b.px r c * w⟩) st.noises d.noises,
      addNoises_ok.2 ⟨?_, ?_⟩⟩
    · rw [List.length_zipWith, n1, Nat.min_eq_left]
      by_contra hlt
      obtain ⟨a, ha, _⟩ := d6 d.noises.length (by omega)
      rw [List.getElem?_eq_none (le_refl _)] at ha
      cases ha
    · intro i a ha
      have hi : i < nNoise := by
        rw [← n1]; exact (List.getElem?_eq_some_iff.1 ha).1
      obtain ⟨b, hb, hb1, hb2⟩ := d6 i hi
      obtain ⟨a', ha', ha1, ha2, _⟩ := n2 i hi
      rw [ha] at ha'
      cases ha'
      refine ⟨b, hb, ⟨hb1.trans ha1.symm, hb2.trans ha2.symm⟩, ?_⟩
      rw [List.getElem?_zipWith, ha, hb]
  obtain ⟨ns, hn⟩ := hn
  unfold stackStep
  rw [addScaled_ok.2 ⟨⟨d1.1.trans h.image.1.symm, d1.2.trans h.image.2.1.symm⟩, rfl⟩, ok_bind, hn, ok_bind,
    addScaled_ok (b := d.interpFrac.map clipFrac) |>.2 ⟨⟨d2.1.trans h.frac.1.symm, d2.2.trans h.frac.2.1.symm⟩, rfl⟩, ok_bind,
    addScaled_ok (b := d.psf.map fun v => v.getD 0) |>.2 ⟨⟨d3.1.trans h.psf.1.symm, d3.2.trans h.psf.2.1.symm⟩, rfl⟩, ok_bind,
    orInto_ok.2 ⟨⟨d4.1.trans h.ormask.1.symm, d4.2.trans h.ormask.2.1.symm⟩, rfl⟩, ok_bind,
    orInto_ok.2 ⟨⟨d5.1.trans h.bmask.1.symm, d5.2.trans h.bmask.2.1.symm⟩, rfl⟩, ok_bind]
  exact ⟨_, rfl⟩

theorem stackAll_ok {box psfBox nNoise : Nat} {ps : List (EpochData × ℚ)} {st : Stacks}
    (h : Stacked box psfBox nNoise ps st) (l : List (EpochData × ℚ)) :
    ((∃ st', stackAll st (l.map fun p => (.ok p.1, p.2)) = .ok st') ↔
      ∀ p ∈ l, p.1.Fits box psfBox nNoise) ∧
    ∀ st', stackAll st (l.map fun p => (.ok p.1, p.2)) = .ok st' →
      Stacked box psfBox nNoise (ps ++ l) st' := by
  induction l generalizing ps st with
  | nil =>
    refine ⟨⟨fun _ => by simp, fun _ => ⟨st, rfl⟩⟩, fun st' hs => ?_⟩
    rw [← Except.ok.inj hs, List.append_nil]; exact h
  | cons p l ih =>
    obtain ⟨d, w⟩ := p
    obtain ⟨s1, s2⟩ := stackStep_ok h d w
    simp only [List.map_cons]
    unfold stackAll
    rw [ok_bind]
    constructor
    · constructor
      · rintro ⟨st', hs⟩
        obtain ⟨st1, h1, h2⟩ := bind_eq_ok.1 hs
        intro p hp
        rcases List.mem_cons.1 hp with rfl | hp
        · exact s1.1 ⟨_, h1⟩
        · exact (ih (s2 _ h1)).1.1 ⟨_, h2⟩ p hp
      · intro hf
        obtain ⟨st1, h1⟩ := s1.2 (hf (d, w) (by simp))
        rw [h1, ok_bind]
        exact (ih (s2 _ h1)).1.2 fun p hp => hf p (by simp [hp])
    · intro st' hs
      obtain ⟨st1, h1, h2⟩ := bind_eq_ok.1 hs
      have := (ih (s2 _ h1)).2 st' h2
      rwa [List.append_assoc] at this

theorem stackAll_inv {st st' : Stacks} {l : List (Except Err EpochData × ℚ)}
    (h : stackAll st l = .ok st') : ∃ ps : List (EpochData × ℚ), l = ps.map fun p => (.ok p.1, p.2) := by
  induction l generalizing st with
  | nil => exact ⟨[], rfl⟩
  | cons p l ih =>
    obtain ⟨d, w⟩ := p
    unfold stackAll at h
    obtain ⟨d', h1, h⟩ := bind_eq_ok.1 h
    obtain ⟨st1, h2, h⟩ := bind_eq_ok.1 h
    obtain ⟨ps, rfl⟩ := ih h
    exact ⟨(d', w) :: ps, by simp [h1]⟩

theorem stacked_zero (box psfBox nExtra : Nat) : Stacked box psfBox (nExtra + 1) []
    ⟨zerosImg box, zerosImg box, List.replicate (nExtra + 1) (zerosImg box), zerosImg psfBox,
      zerosMask box, zerosMask box⟩ := by
  refine ⟨⟨rfl, rfl, fun _ _ => rfl⟩, ⟨rfl, rfl, fun _ _ => rfl⟩, ⟨rfl, rfl, fun _ _ => rfl⟩,
    ⟨rfl, rfl, fun _ _ _ => ?_⟩, ⟨rfl, rfl, fun _ _ _ => ?_⟩, by simp, fun i hi => ?_⟩
  · simp [zerosMask]
  · simp [zerosMask]
  · refine ⟨zerosImg box, ?_, rfl, rfl, fun _ _ => rfl⟩
    rw [List.getElem?_replicate, if_pos hi]

/-- The epochs with normalised weights. -/
def normed (ps : List (EpochData × ℚ)) : List (EpochData × ℚ) :=
  ps.map fun p => (p.1, p.2 / (ps.map Prod.snd).sum)

theorem sum_normed (ps : List (EpochData × ℚ)) (f : EpochData → ℚ) :
    ((normed ps).map fun p => p.2 * f p.1).sum = wMean ps f := by
  unfold normed wMean
  generalize (ps.map Prod.snd).sum = S
  induction ps with
  | nil => simp
  | cons p l ih =>
    simp only [List.map_cons, List.sum_cons, List.map_map] at ih ⊢
    rw [ih]; ring

/-- The runs that succeed, and their outcome. -/
theorem coadd_ok {box psfBox nExtra : Nat} {data : List (Except Err EpochData)} {weights : List ℚ}
    {out : Coadd} (h : coaddSliceInputs box psfBox nExtra data weights = .ok out) :
    ∃ ps : List (EpochData × ℚ), ps ≠ [] ∧ data = ps.map (fun p => .ok p.1) ∧ weights = ps.map Prod.snd ∧
      (∀ p ∈ ps, p.1.Fits box psfBox (nExtra + 1)) ∧ ∃ st n0 ns,
      Stacked box psfBox (nExtra + 1) (normed ps) st ∧ st.noises = n0 :: ns ∧
      out = ⟨st.image, st.bmask, st.ormask, st.noises, st.psf,
        ⟨n0.nrow, n0.ncol, fun _ _ => invVar n0⟩, st.interpFrac⟩ := by
  unfold coaddSliceInputs at h
  simp only at h
  split at h
  · cases h
  · rename_i hlen
    split at h
    · cases h
    · rename_i hne
      obtain ⟨st, h1, h⟩ := bind_eq_ok.1 h
      obtain ⟨n0, h2, h⟩ := bind_eq_ok.1 h
      have := Except.ok.inj h
      subst this
      simp only [ne_eq, not_not, List.length_map] at hlen
      obtain ⟨qs, hq⟩ := stackAll_inv h1
      have e1 : data = qs.map fun p => .ok p.1 := by
        have := congrArg (List.map Prod.fst) hq
        rwa [List.map_fst_zip (by simp [hlen]), List.map_map] at this
      have e2 : weights.map (· / weights.sum) = qs.map Prod.snd := by
        have := congrArg (List.map Prod.snd) hq
        rwa [List.map_snd_zip (by simp [hlen]), List.map_map] at this
      have hql : qs.length = weights.length := by
        have := congrArg List.length e2
        simpa using this.symm
      let ps : List (EpochData × ℚ) := (qs.map Prod.fst).zip weights
      have p1 : ps.map Prod.fst = qs.map Prod.fst := List.map_fst_zip (by simp [hql])
      have p2 : ps.map Prod.snd = weights := List.map_snd_zip (by simp [hql])
      have p3 : normed ps = qs := by
        unfold normed
        rw [p2]
        apply List.ext_getElem
        · simp [ps, hql]
        · intro i hi hi'
          have := congrArg (fun l => l[i]?) e2
          simp only [List.getElem?_map, List.getElem?_eq_getElem hi', Option.map_some] at this
          have hw : i < weights.length := by omega
          rw [List.getElem?_eq_getElem hw] at this
          simp only [Option.map_some, Option.some.injEq] at this
          simp only [List.getElem_map, ps, List.getElem_zip]
          rw [this]
      have hall := stackAll_ok (stacked_zero box psfBox nExtra) qs
      rw [hq] at h1
      refine ⟨ps, ?_, ?_, p2.symm, ?_, st, n0, st.noises.tail, ?_, ?_, rfl⟩
      · intro hp
        apply hne
        rw [hp] at p1
        rw [e1]
        simp at p1
        simp [p1]
      · rw [e1]
        have : (fun p : EpochData × ℚ => (Except.ok p.1 : Except Err EpochData)) = Except.ok ∘ Prod.fst := rfl
        rw [this, ← List.map_map, ← p1, List.map_map]
      · intro p hp
        have hm : p.1 ∈ ps.map Prod.fst := List.mem_map_of_mem hp
        rw [p1] at hm
        obtain ⟨q, hq1, hq2⟩ := List.mem_map.1 hm
        rw [← hq2]
        exact hall.1.1 ⟨st, h1⟩ q hq1
      · rw [p3]
        exact hall.2 st h1
      · cases hn : st.noises with
        | nil => rw [hn] at h2; cases h2
        | cons a l => rw [hn] at h2; rw [← Except.ok.inj h2]; rfl

/-- C54: a bit of the coadd masks is set iff it is set in some epoch. -/
theorem C54_masks (box psfBox nExtra : Nat) (data : List (Except Err EpochData)) (weights : List ℚ)
    (out : Coadd) (h : coaddSliceInputs box psfBox nExtra data weights = .ok out) :
    (out.ormask.nrow = box ∧ out.ormask.ncol = box ∧ out.bmask.nrow = box ∧ out.bmask.ncol = box) ∧
    ∀ r < box, ∀ c < box, ∀ j,
      ((out.ormask.px r c).getLsbD j = true ↔
        ∃ d : EpochData, .ok d ∈ data ∧ (d.bmask.px r c).getLsbD j = true) ∧
      ((out.bmask.px r c).getLsbD j = true ↔
        ∃ d : EpochData, .ok d ∈ data ∧ (d.pmask.px r c).getLsbD j = true) := by
  obtain ⟨ps, _, rfl, _, _, st, n0, ns, hst, _, rfl⟩ := coadd_ok h
  obtain ⟨o1, o2, o3⟩ := hst.ormask
  obtain ⟨b1, b2, b3⟩ := hst.bmask
  have key : ∀ Q : EpochData → Prop, (∃ p ∈ normed ps, Q p.1) ↔
      ∃ d : EpochData, .ok d ∈ ps.map (fun p => (Except.ok p.1 : Except Err EpochData)) ∧ Q d := by
    intro Q
    constructor
    · rintro ⟨p, hp, hq⟩
      obtain ⟨p', hp', rfl⟩ := List.mem_map.1 hp
      exact ⟨p'.1, List.mem_map.2 ⟨p', hp', rfl⟩, hq⟩
    · rintro ⟨d, hd, hq⟩
      obtain ⟨p', hp', he⟩ := List.mem_map.1 hd
      rw [← Except.ok.inj he] at hq
      exact ⟨_, List.mem_map.2 ⟨p', hp', rfl⟩, hq⟩
  refine ⟨⟨o1, o2, b1, b2⟩, fun r _ c _ j => ⟨?_, ?_⟩⟩
  · rw [o3, key fun d => (d.bmask.px r c).getLsbD j = true]
  · rw [b3, key fun d => (d.pmask.px r c).getLsbD j = true]

/-- The values a coadd must have, in terms of the epochs and their weights. -/
structure IsMeanOf (box psfBox nExtra : Nat) (ps : List (EpochData × ℚ)) (out : Coadd) : Prop where
  shape : (out.image.nrow = box ∧ out.image.ncol = box) ∧
    (out.interpFrac.nrow = box ∧ out.interpFrac.ncol = box) ∧
    (out.psf.nrow = psfBox ∧ out.psf.ncol = psfBox) ∧ out.noises.length = nExtra + 1
  image : ∀ r < box, ∀ c < box, out.image.px r c = wMean ps fun d => d.image.px r c
  frac : ∀ r < box, ∀ c < box,
    out.interpFrac.px r c = wMean ps fun d => min |d.interpFrac.px r c| 1
  psf : ∀ r < psfBox, ∀ c < psfBox, out.psf.px r c = wMean ps fun d => (d.psf.px r c).getD 0
  noises : ∀ i < nExtra + 1, ∃ a, out.noises[i]? = some a ∧ a.nrow = box ∧ a.ncol = box ∧
    ∀ r < box, ∀ c < box, a.px r c = wMean ps fun d => (d.noises[i]?).elim 0 fun b => b.px r c

theorem isMeanOf_stacked {box psfBox nExtra : Nat} {ps : List (EpochData × ℚ)} {st : Stacks}
    (hst : Stacked box psfBox (nExtra + 1) (normed ps) st) (wt : Img Flt) :
    IsMeanOf box psfBox nExtra ps ⟨st.image, st.bmask, st.ormask, st.noises, st.psf, wt, st.interpFrac⟩ := by
  obtain ⟨i1, i2, i3⟩ := hst.image
  obtain ⟨f1, f2, f3⟩ := hst.frac
  obtain ⟨p1, p2, p3⟩ := hst.psf
  obtain ⟨n1, n2⟩ := hst.noises
  refine ⟨⟨⟨i1, i2⟩, ⟨f1, f2⟩, ⟨p1, p2⟩, n1⟩, fun r _ c _ => ?_, fun r _ c _ => ?_, fun r _ c _ => ?_,
    fun i hi => ?_⟩
  · simp only [i3]; exact sum_normed ps fun d => d.image.px r c
  · simp only [f3]
    have : ∀ v, clipFrac v = min |v| 1 := fun v => by
      unfold clipFrac; rw [max_eq_left (abs_nonneg v)]
    simp only [this]
    exact sum_normed ps fun d => min |d.interpFrac.px r c| 1
  · simp only [p3]; exact sum_normed ps fun d => (d.psf.px r c).getD 0
  · obtain ⟨a, a1, a2, a3, a4⟩ := n2 i hi
    refine ⟨a, a1, a2, a3, fun r _ c _ => ?_⟩
    rw [a4]; exact sum_normed ps fun d => (d.noises[i]?).elim 0 fun b => b.px r c

/-- C55: the coadd is the weighted mean of the epochs (non-finite PSF pixels count as 0). -/
theorem C55_mean (box psfBox nExtra : Nat) (ps : List (EpochData × ℚ)) (out : Coadd)
    (_hs : (ps.map Prod.snd).sum ≠ 0)
    (h : coaddSliceInputs box psfBox nExtra (ps.map fun p => .ok p.1) (ps.map Prod.snd) = .ok out) :
    IsMeanOf box psfBox nExtra ps out := by
  obtain ⟨ps', _, e1, e2, _, st, n0, ns, hst, _, rfl⟩ := coadd_ok h
  have : ps' = ps := by
    have hl : ps.length = ps'.length := by simpa using congrArg List.length e2
    apply List.ext_getElem hl.symm
    intro i h1 h2
    have a1 := congrArg (fun l => l[i]?) e1
    have a2 := congrArg (fun l => l[i]?) e2
    simp only [List.getElem?_map, List.getElem?_eq_getElem h1, List.getElem?_eq_getElem h2,
      Option.map_some, Option.some.injEq, Except.ok.injEq] at a1 a2
    exact (Prod.ext a1 a2).symm
  subst this
  exact isMeanOf_stacked hst _

/-- C55: the coadd exists iff there is an epoch and all epochs have the expected shapes. -/
theorem C55_succeeds (box psfBox nExtra : Nat) (ps : List (EpochData × ℚ)) :
    (∃ out, coaddSliceInputs box psfBox nExtra (ps.map fun p => .ok p.1) (ps.map Prod.snd) = .ok out) ↔
      ps ≠ [] ∧ ∀ p ∈ ps, p.1.Fits box psfBox (nExtra + 1) := by
  constructor
  · rintro ⟨out, h⟩
    obtain ⟨ps', hne, e1, e2, hf, _⟩ := coadd_ok h
    have hl : ps.length = ps'.length := by simpa using congrArg List.length e2
    constructor
    · rintro rfl
      rw [List.length_nil] at hl
      exact hne (List.length_eq_zero_iff.1 hl.symm)
    · intro p hp
      have hm : (Except.ok p.1 : Except Err EpochData) ∈ ps'.map fun p => .ok p.1 := by
        rw [← e1]; exact List.mem_map.2 ⟨p, hp, rfl⟩
      obtain ⟨q, hq, he⟩ := List.mem_map.1 hm
      rw [← Except.ok.inj he]
      exact hf q hq
  · rintro ⟨hne, hf⟩
    have hz : (ps.map fun p => (Except.ok p.1 : Except Err EpochData)).zip
        ((ps.map Prod.snd).map (· / (ps.map Prod.snd).sum)) =
        (normed ps).map fun p => (.ok p.1, p.2) := by
      unfold normed
      apply List.ext_getElem <;> simp
    have hall := stackAll_ok (stacked_zero box psfBox nExtra) (normed ps)
    obtain ⟨st, hst⟩ := hall.1.2 (by
      intro p hp
      obtain ⟨q, hq, rfl⟩ := List.mem_map.1 hp
      exact hf q hq)
    obtain ⟨n1, n2⟩ := (hall.2 st hst).noises
    cases hns : st.noises with
    | nil => rw [hns] at n1; simp at n1
    | cons a l =>
      unfold coaddSliceInputs
      simp only
      rw [if_neg (by simp), if_neg (by simpa using hne), hz, hst, ok_bind, hns]
      exact ⟨_, rfl⟩

theorem wMean_perm {ps qs : List (EpochData × ℚ)} (h : ps.Perm qs) (f : EpochData → ℚ) :
    wMean ps f = wMean qs f := by
  unfold wMean
  rw [(h.map _).sum_eq, (h.map Prod.snd).sum_eq]

/-- C55: rescaling all weights changes nothing. -/
theorem C55_scale (box psfBox nExtra : Nat) (data : List (Except Err EpochData)) (weights : List ℚ)
    (k : ℚ) (hk : k ≠ 0) :
    coaddSliceInputs box psfBox nExtra data (weights.map (k * ·)) =
      coaddSliceInputs box psfBox nExtra data weights := by
  have : ((weights.map (k * ·)).map (· / (weights.map (k * ·)).sum)) =
      weights.map (· / weights.sum) := by
    rw [List.sum_map_mul_left, List.map_map, List.map_id']
    apply List.map_congr_left
    intro w _
    simp only [Function.comp_apply]
    exact mul_div_mul_left w _ hk
  unfold coaddSliceInputs
  simp only [this]

/-- C55: the order of the epochs does not matter. -/
theorem C55_order (box psfBox nExtra : Nat) (ps qs : List (EpochData × ℚ)) (hp : ps.Perm qs)
    (hs : (ps.map Prod.snd).sum ≠ 0) (out : Coadd)
    (h : coaddSliceInputs box psfBox nExtra (ps.map fun p => .ok p.1) (ps.map Prod.snd) = .ok out) :
    ∃ out', coaddSliceInputs box psfBox nExtra (qs.map fun p => .ok p.1) (qs.map Prod.snd) = .ok out' ∧
      IsMeanOf box psfBox nExtra ps out' ∧ out'.ormask.Eqv out.ormask ∧ out'.bmask.Eqv out.bmask := by
  obtain ⟨hne, hf⟩ := (C55_succeeds box psfBox nExtra ps).1 ⟨out, h⟩
  obtain ⟨out', h'⟩ := (C55_succeeds box psfBox nExtra qs).2
    ⟨fun e => hne (by rw [e] at hp; exact hp.eq_nil), fun p hq => hf p (hp.mem_iff.2 hq)⟩
  refine ⟨out', h', ?_, ?_, ?_⟩
  · have := C55_mean box psfBox nExtra qs out' (by rwa [← (hp.map Prod.snd).sum_eq]) h'
    obtain ⟨m1, m2, m3, m4, m5⟩ := this
    refine ⟨m1, ?_, ?_, ?_, ?_⟩
    · intro r hr c hc; rw [m2 r hr c hc, wMean_perm hp]
    · intro r hr c hc; rw [m3 r hr c hc, wMean_perm hp]
    · intro r hr c hc; rw [m4 r hr c hc, wMean_perm hp]
    · intro i hi
      obtain ⟨a, a1, a2, a3, a4⟩ := m5 i hi
      exact ⟨a, a1, a2, a3, fun r hr c hc => by rw [a4 r hr c hc, wMean_perm hp]⟩
  all_goals
    obtain ⟨s1, s2⟩ := C54_masks _ _ _ _ _ _ h
    obtain ⟨s1', s2'⟩ := C54_masks _ _ _ _ _ _ h'
    have hmem : ∀ d : EpochData, (Except.ok d : Except Err EpochData) ∈ (qs.map fun p => .ok p.1) ↔
        Except.ok d ∈ (ps.map fun p => (.ok p.1 : Except Err EpochData)) := fun d =>
      (hp.map fun p => (.ok p.1 : Except Err EpochData)).mem_iff.symm
  · refine ⟨by rw [s1.1, s1'.1], by rw [s1.2.1, s1'.2.1], fun r hr c hc => ?_⟩
    apply BitVec.eq_of_getLsbD_eq
    intro j _
    rw [s1'.1] at hr; rw [s1'.2.1] at hc
    rw [Bool.eq_iff_iff, (s2 r hr c hc j).1, (s2' r hr c hc j).1]
    simp only [hmem]
  · refine ⟨by rw [s1.2.2.1, s1'.2.2.1], by rw [s1.2.2.2, s1'.2.2.2], fun r hr c hc => ?_⟩
    apply BitVec.eq_of_getLsbD_eq
    intro j _
    rw [s1'.2.2.1] at hr; rw [s1'.2.2.2] at hc
    rw [Bool.eq_iff_iff, (s2 r hr c hc j).2, (s2' r hr c hc j).2]
    simp only [hmem]

theorem wMean_bounds {ps : List (EpochData × ℚ)} {f : EpochData → ℚ} {lo hi : ℚ}
    (hw : ∀ p ∈ ps, 0 ≤ p.2) (hs : 0 < (ps.map Prod.snd).sum)
    (hf : ∀ p ∈ ps, lo ≤ f p.1 ∧ f p.1 ≤ hi) : lo ≤ wMean ps f ∧ wMean ps f ≤ hi := by
  have key : ∀ l : List (EpochData × ℚ), (∀ p ∈ l, 0 ≤ p.2) → (∀ p ∈ l, lo ≤ f p.1 ∧ f p.1 ≤ hi) →
      lo * (l.map Prod.snd).sum ≤ (l.map fun p => p.2 * f p.1).sum ∧
      (l.map fun p => p.2 * f p.1).sum ≤ hi * (l.map Prod.snd).sum := by
    intro l
    induction l with
    | nil => simp
    | cons p l ih =>
      intro h1 h2
      obtain ⟨i1, i2⟩ := ih (fun q hq => h1 q (by simp [hq])) (fun q hq => h2 q (by simp [hq]))
      obtain ⟨k1, k2⟩ := h2 p (by simp)
      have k0 := h1 p (by simp)
      simp only [List.map_cons, List.sum_cons]
      constructor <;> nlinarith
  obtain ⟨h1, h2⟩ := key ps hw hf
  unfold wMean
  exact ⟨(le_div_iff₀ hs).2 h1, (div_le_iff₀ hs).2 h2⟩

/-- C55: with positive weights every coadd pixel is between the smallest and largest epoch value. -/
theorem C55_between (box psfBox nExtra : Nat) (ps : List (EpochData × ℚ)) (out : Coadd)
    (hw : ∀ p ∈ ps, 0 < p.2)
    (h : coaddSliceInputs box psfBox nExtra (ps.map fun p => .ok p.1) (ps.map Prod.snd) = .ok out)
    (r c : Nat) (lo hi : ℚ) :
    (r < box → c < box → (∀ p ∈ ps, lo ≤ p.1.image.px r c ∧ p.1.image.px r c ≤ hi) →
      lo ≤ out.image.px r c ∧ out.image.px r c ≤ hi) ∧
    (r < psfBox → c < psfBox → (∀ p ∈ ps, lo ≤ (p.1.psf.px r c).getD 0 ∧ (p.1.psf.px r c).getD 0 ≤ hi) →
      lo ≤ out.psf.px r c ∧ out.psf.px r c ≤ hi) ∧
    (∀ i < nExtra + 1, r < box → c < box →
      (∀ p ∈ ps, ∀ b, p.1.noises[i]? = some b → lo ≤ b.px r c ∧ b.px r c ≤ hi) →
      ∀ a, out.noises[i]? = some a → lo ≤ a.px r c ∧ a.px r c ≤ hi) := by
  obtain ⟨hne, hf⟩ := (C55_succeeds box psfBox nExtra ps).1 ⟨out, h⟩
  have hs : 0 < (ps.map Prod.snd).sum := by
    apply List.sum_pos
    · intro x hx; obtain ⟨p, hp, rfl⟩ := List.mem_map.1 hx; exact hw p hp
    · simpa using hne
  have hw' : ∀ p ∈ ps, 0 ≤ p.2 := fun p hp => (hw p hp).le
  obtain ⟨_, m2, _, m4, m5⟩ := C55_mean box psfBox nExtra ps out hs.ne' h
  refine ⟨fun hr hc hb => ?_, fun hr hc hb => ?_, fun i hi hr hc hb a ha => ?_⟩
  · rw [m2 r hr c hc]; exact wMean_bounds hw' hs hb
  · rw [m4 r hr c hc]; exact wMean_bounds hw' hs hb
  · obtain ⟨a', a1, _, _, a4⟩ := m5 i hi
    rw [ha] at a1
    cases a1
    rw [a4 r hr c hc]
    apply wMean_bounds hw' hs
    intro p hp
    obtain ⟨b, hb1, _⟩ := (hf p hp).2.2.2.2.2 i hi
    rw [hb1]
    exact hb p hp b hb1

/-- C55: a single epoch is returned as it is. -/
theorem C55_single (box psfBox nExtra : Nat) (d : EpochData) (w : ℚ) (hw : w ≠ 0)
    (hd : d.Fits box psfBox (nExtra + 1)) :
    ∃ out, coaddSliceInputs box psfBox nExtra [.ok d] [w] = .ok out ∧ out.image.Eqv d.image ∧
      out.psf.Eqv (d.psf.map fun v => v.getD 0) ∧ out.ormask.Eqv d.bmask ∧ out.bmask.Eqv d.pmask ∧
      out.interpFrac.Eqv (d.interpFrac.map fun v => min |v| 1) ∧
      ∀ i < nExtra + 1, ∃ a b, out.noises[i]? = some a ∧ d.noises[i]? = some b ∧ a.Eqv b := by
  have one : ∀ f, wMean [(d, w)] f = f d := by
    intro f; unfold wMean; simp [hw]
  obtain ⟨out, h⟩ := (C55_succeeds box psfBox nExtra [(d, w)]).2 ⟨by simp, by simpa using hd⟩
  obtain ⟨⟨m1, m1', m1'', _⟩, m2, m3, m4, m5⟩ := C55_mean box psfBox nExtra [(d, w)] out (by simpa using hw) h
  obtain ⟨s1, s2⟩ := C54_masks _ _ _ _ _ _ h
  obtain ⟨d1, d2, d3, d4, d5, d6⟩ := hd
  simp only [one] at m2 m3 m4 m5
  refine ⟨out, h, ?_, ?_, ?_, ?_, ?_, ?_⟩
  · exact ⟨m1.1.trans d1.1.symm, m1.2.trans d1.2.symm, fun r hr c hc =>
      m2 r (by rw [← m1.1]; exact hr) c (by rw [← m1.2]; exact hc)⟩
  · exact ⟨m1''.1.trans d3.1.symm, m1''.2.trans d3.2.symm, fun r hr c hc =>
      m4 r (by rw [← m1''.1]; exact hr) c (by rw [← m1''.2]; exact hc)⟩
  · refine ⟨s1.1.trans d4.1.symm, s1.2.1.trans d4.2.symm, fun r hr c hc => ?_⟩
    apply BitVec.eq_of_getLsbD_eq
    intro j _
    rw [Bool.eq_iff_iff, (s2 r (by rw [← s1.1]; exact hr) c (by rw [← s1.2.1]; exact hc) j).1]
    simp
  · refine ⟨s1.2.2.1.trans d5.1.symm, s1.2.2.2.trans d5.2.symm, fun r hr c hc => ?_⟩
    apply BitVec.eq_of_getLsbD_eq
    intro j _
    rw [Bool.eq_iff_iff, (s2 r (by rw [← s1.2.2.1]; exact hr) c (by rw [← s1.2.2.2]; exact hc) j).2]
    simp
  · exact ⟨m1'.1.trans d2.1.symm, m1'.2.trans d2.2.symm, fun r hr c hc =>
      m3 r (by rw [← m1'.1]; exact hr) c (by rw [← m1'.2]; exact hc)⟩
  · intro i hi
    obtain ⟨a, a1, a2, a3, a4⟩ := m5 i hi
    obtain ⟨b, b1, b2, b3⟩ := d6 i hi
    refine ⟨a, b, a1, b1, a2.trans b2.symm, a3.trans b3.symm, fun r hr c hc => ?_⟩
    rw [a4 r (by rw [← a2]; exact hr) c (by rw [← a3]; exact hc), b1]; rfl

/-! ### C56 -/

theorem values_sum (n : Nat) (f : Nat → Nat → ℚ) (g : ℚ → ℚ) :
    ((((⟨n, n, f⟩ : Img ℚ).values).map g).sum = ∑ r ∈ Finset.range n, ∑ c ∈ Finset.range n, g (f r c)) ∧
    (⟨n, n, f⟩ : Img ℚ).values.length = n * n := by
  unfold Img.values
  constructor
  · rw [List.map_flatMap]
    have inner : ∀ r, (((List.range n).map fun c => f r c).map g).sum = ∑ c ∈ Finset.range n, g (f r c) := by
      intro r
      have : ∀ m, (((List.range m).map fun c => f r c).map g).sum = ∑ c ∈ Finset.range m, g (f r c) := by
        intro m
        induction m with
        | zero => simp
        | succ m ih => rw [List.range_succ, List.map_append, List.map_append, List.sum_append, ih,
            Finset.sum_range_succ]; simp
      exact this n
    have : ∀ m, ((List.range m).flatMap fun r => ((List.range n).map fun c => f r c).map g).sum =
        ∑ r ∈ Finset.range m, ∑ c ∈ Finset.range n, g (f r c) := by
      intro m
      induction m with
      | zero => simp
      | succ m ih =>
        rw [List.range_succ, List.flatMap_append, List.sum_append, ih, Finset.sum_range_succ]
        simp only [List.flatMap_cons, List.flatMap_nil, List.append_nil]
        rw [inner]
    exact this n
  · simp

/-- C56: the masked fraction is between 0 and 1 (whatever the lanczos values are). -/
theorem C56_fraction (box psfBox nExtra : Nat) (ps : List (EpochData × ℚ)) (out : Coadd)
    (hw : ∀ p ∈ ps, 0 ≤ p.2) (hs : 0 < (ps.map Prod.snd).sum)
    (h : coaddSliceInputs box psfBox nExtra (ps.map fun p => .ok p.1) (ps.map Prod.snd) = .ok out)
    (r c : Nat) (hr : r < box) (hc : c < box) :
    0 ≤ out.interpFrac.px r c ∧ out.interpFrac.px r c ≤ 1 := by
  rw [(C55_mean box psfBox nExtra ps out hs.ne' h).frac r hr c hc]
  exact wMean_bounds hw hs fun p _ => ⟨le_min (abs_nonneg _) zero_le_one, min_le_right _ _⟩

/-- C56: the weight map is constant, the inverse of the variance of the first coadded noise field
(infinite when that is 0), and never negative. -/
theorem C56_weight (box psfBox nExtra : Nat) (data : List (Except Err EpochData)) (weights : List ℚ)
    (out : Coadd) (hb : 1 ≤ box)
    (h : coaddSliceInputs box psfBox nExtra data weights = .ok out) :
    out.weight.nrow = box ∧ out.weight.ncol = box ∧ ∃ n0 v, out.noises[0]? = some n0 ∧
      IsVariance box n0.px v ∧ 0 ≤ v ∧
      ∀ r c, out.weight.px r c = if v = 0 then .posInf else .fin (1 / v) := by
  obtain ⟨ps, _, _, _, _, st, n0, ns, hst, hn, rfl⟩ := coadd_ok h
  obtain ⟨n1, n2⟩ := hst.noises
  obtain ⟨a, a1, a2, a3, _⟩ := n2 0 (by omega)
  rw [hn] at a1
  simp only [List.getElem?_cons_zero, Option.some.injEq] at a1
  subst a1
  have hpos : (0 : ℚ) < ((box * box : Nat) : ℚ) := by
    have : 0 < box * box := Nat.mul_pos (by omega) (by omega)
    exact_mod_cast this
  obtain ⟨nr, nc, f⟩ := n0
  simp only at a2 a3
  subst a2 a3
  refine ⟨rfl, rfl, ⟨nc, nc, f⟩, npMean ((⟨nc, nc, f⟩ : Img ℚ).values.map fun x =>
    (x - npMean (⟨nc, nc, f⟩ : Img ℚ).values) ^ 2), by simp [hn], ?_, ?_, ?_⟩
  · refine ⟨npMean (⟨nc, nc, f⟩ : Img ℚ).values, ?_, ?_⟩
    · unfold npMean
      rw [(values_sum nc f id).2, div_mul_cancel₀ _ hpos.ne']
      have := (values_sum nc f id).1
      simpa using this
    · have hm : ∀ l : List ℚ, l.length = nc * nc → npMean l * ((nc * nc : Nat) : ℚ) = l.sum := by
        intro l hl
        unfold npMean
        rw [hl, div_mul_cancel₀ _ hpos.ne']
      rw [hm _ (by rw [List.length_map, (values_sum nc f id).2])]
      exact (values_sum nc f fun x => (x - npMean (⟨nc, nc, f⟩ : Img ℚ).values) ^ 2).1
  · unfold npMean
    apply div_nonneg
    · apply List.sum_nonneg
      intro x hx
      obtain ⟨y, _, rfl⟩ := List.mem_map.1 hx
      exact sq_nonneg _
    · exact Nat.cast_nonneg _
  · intro r c
    have hne : (⟨nc, nc, f⟩ : Img ℚ).values ≠ [] := by
      intro h0
      have := (values_sum nc f id).2
      rw [h0, List.length_nil] at this
      have : 0 < nc * nc := Nat.mul_pos (by omega) (by omega)
      omega
    simp only [invVar]
    rw [if_neg hne]

theorem isVariance_unique {box : Nat} (hb : 1 ≤ box) {f g : Nat → Nat → ℚ} {v w : ℚ}
    (h : ∀ r < box, ∀ c < box, f r c = g r c) (hf : IsVariance box f v) (hg : IsVariance box g w) : v = w := by
  obtain ⟨m, h1, h2⟩ := hf
  obtain ⟨m', h3, h4⟩ := hg
  have hpos : ((box * box : Nat) : ℚ) ≠ 0 := by
    have : 0 < box * box := Nat.mul_pos (by omega) (by omega)
    exact_mod_cast this.ne'
  have e1 : (∑ r ∈ Finset.range box, ∑ c ∈ Finset.range box, f r c) =
      ∑ r ∈ Finset.range box, ∑ c ∈ Finset.range box, g r c :=
    Finset.sum_congr rfl fun r hr => Finset.sum_congr rfl fun c hc =>
      h r (Finset.mem_range.1 hr) c (Finset.mem_range.1 hc)
  have hm : m = m' := mul_right_cancel₀ hpos (by rw [h1, h3, e1])
  subst hm
  apply mul_right_cancel₀ hpos
  rw [h2, h4]
  exact Finset.sum_congr rfl fun r hr => Finset.sum_congr rfl fun c hc => by
    rw [h r (Finset.mem_range.1 hr) c (Finset.mem_range.1 hc)]

/-- C55: the order of the epochs changes none of the arrays of the coadd. -/
theorem C55_order_arrays (box psfBox nExtra : Nat) (hb : 1 ≤ box) (ps qs : List (EpochData × ℚ))
    (hp : ps.Perm qs) (hs : (ps.map Prod.snd).sum ≠ 0) (out out' : Coadd)
    (h : coaddSliceInputs box psfBox nExtra (ps.map fun p => .ok p.1) (ps.map Prod.snd) = .ok out)
    (h' : coaddSliceInputs box psfBox nExtra (qs.map fun p => .ok p.1) (qs.map Prod.snd) = .ok out') :
    out'.image.Eqv out.image ∧ out'.psf.Eqv out.psf ∧ out'.interpFrac.Eqv out.interpFrac ∧
    out'.weight.Eqv out.weight ∧ out'.ormask.Eqv out.ormask ∧ out'.bmask.Eqv out.bmask ∧
    List.Forall₂ Img.Eqv out'.noises out.noises := by
  obtain ⟨o2, k1, k2, k3, k4⟩ := C55_order box psfBox nExtra ps qs hp hs out h
  rw [h'] at k1
  cases k1
  obtain ⟨⟨⟨a1, a2⟩, ⟨a3, a4⟩, ⟨a5, a6⟩, a7⟩, a8, a9, a10, a11⟩ := C55_mean box psfBox nExtra ps out hs h
  obtain ⟨⟨⟨b1, b2⟩, ⟨b3, b4⟩, ⟨b5, b6⟩, b7⟩, b8, b9, b10, b11⟩ := k2
  obtain ⟨w1, w2, n0, v, w3, w4, _, w5⟩ := C56_weight box psfBox nExtra _ _ out hb h
  obtain ⟨x1, x2, n0', v', x3, x4, _, x5⟩ := C56_weight box psfBox nExtra _ _ out' hb h'
  refine ⟨⟨by rw [a1, b1], by rw [a2, b2], fun r hr c hc => ?_⟩,
    ⟨by rw [a5, b5], by rw [a6, b6], fun r hr c hc => ?_⟩,
    ⟨by rw [a3, b3], by rw [a4, b4], fun r hr c hc => ?_⟩,
    ⟨by rw [w1, x1], by rw [w2, x2], fun r hr c hc => ?_⟩, k3, k4, ?_⟩
  · rw [b1] at hr; rw [b2] at hc; rw [a8 r hr c hc, b8 r hr c hc]
  · rw [b5] at hr; rw [b6] at hc; rw [a10 r hr c hc, b10 r hr c hc]
  · rw [b3] at hr; rw [b4] at hc; rw [a9 r hr c hc, b9 r hr c hc]
  · obtain ⟨p, p1, p2, p3, p4⟩ := a11 0 (by omega)
    obtain ⟨q, q1, q2, q3, q4⟩ := b11 0 (by omega)
    rw [w3] at p1; rw [x3] at q1
    cases p1; cases q1
    rw [w5, x5, isVariance_unique hb (fun r hr c hc => by rw [p4 r hr c hc, q4 r hr c hc]) w4 x4]
  · rw [List.forall₂_iff_get]
    refine ⟨by rw [a7, b7], fun i hi hi' => ?_⟩
    obtain ⟨p, p1, p2, p3, p4⟩ := a11 i (by omega)
    obtain ⟨q, q1, q2, q3, q4⟩ := b11 i (by omega)
    simp only [List.get_eq_getElem]
    rw [List.getElem?_eq_getElem hi'] at p1
    rw [List.getElem?_eq_getElem hi] at q1
    cases p1; cases q1
    refine ⟨by rw [p2, q2], by rw [p3, q3], fun r hr c hc => ?_⟩
    rw [q2] at hr; rw [q3] at hc
    rw [p4 r hr c hc, q4 r hr c hc]

/-- C56: writing the masked fraction and the weight never raises the negative-value error. -/
theorem C56_written (box psfBox nExtra : Nat) (ps : List (EpochData × ℚ)) (out : Coadd)
    (hw : ∀ p ∈ ps, 0 ≤ p.2) (hs : 0 < (ps.map Prod.snd).sum)
    (h : coaddSliceInputs box psfBox nExtra (ps.map fun p => .ok p.1) (ps.map Prod.snd) = .ok out) :
    writeCheck true (out.interpFrac.map Flt.fin) = .ok () ∧ writeCheck true out.weight = .ok () := by
  have hsh := (C55_mean box psfBox nExtra ps out hs.ne' h).shape.2.1
  constructor
  · unfold writeCheck
    rw [if_neg]
    rw [Bool.true_and, anyPix_iff]
    rintro ⟨r, hr, c, hc, hneg⟩
    have := (C56_fraction box psfBox nExtra ps out hw hs h r c (by rw [← hsh.1]; exact hr)
      (by rw [← hsh.2]; exact hc)).1
    simp only [Flt.isNeg, Img.map, decide_eq_true_eq] at hneg
    linarith
  · unfold writeCheck
    rw [if_neg]
    rw [Bool.true_and, anyPix_iff]
    rintro ⟨r, hr, c, hc, hneg⟩
    by_cases hb : 1 ≤ box
    · obtain ⟨_, _, n0, v, _, _, hv, hpx⟩ := C56_weight box psfBox nExtra _ _ out hb h
      rw [hpx] at hneg
      split at hneg
      · simp [Flt.isNeg] at hneg
      · simp only [Flt.isNeg, decide_eq_true_eq] at hneg
        have : 0 ≤ 1 / v := by positivity
        linarith
    · obtain ⟨ps', _, _, _, _, st, n0, ns, hst, hn, rfl⟩ := coadd_ok h
      obtain ⟨n1, n2⟩ := hst.noises
      obtain ⟨a, a1, a2, a3, _⟩ := n2 0 (by omega)
      rw [hn] at a1
      simp only [List.getElem?_cons_zero, Option.some.injEq] at a1
      subst a1
      simp only at hr
      omega

/-- C56: the refusal is exact: an image of a checked extension is refused if and only if one of its pixels
is below 0, a finite number or minus infinity (a NaN is not below 0); other extensions are never refused. -/
theorem C56_refuses (checked : Bool) (im : Img Flt) :
    (writeCheck checked im = .error .runtimeError ↔
      checked = true ∧ ∃ r, r < im.nrow ∧ ∃ c, c < im.ncol ∧
        (im.px r c = .negInf ∨ ∃ q : ℚ, q < 0 ∧ im.px r c = .fin q)) ∧
    (writeCheck checked im = .ok () ∨ writeCheck checked im = .error .runtimeError) := by
  have key : ∀ f : Flt, f.isNeg = true ↔ (f = .negInf ∨ ∃ q : ℚ, q < 0 ∧ f = .fin q) := by
    intro f
    cases f <;> simp [Flt.isNeg]
  unfold writeCheck
  have e := anyPix_iff im.nrow im.ncol fun r c => (im.px r c).isNeg
  simp only [key] at e
  constructor
  · rw [← e]
    cases checked <;> cases h : anyPix im.nrow im.ncol fun r c => (im.px r c).isNeg <;> simp
  · split
    · exact .inr rfl
    · exact .inl rfl

/-- Minus infinity in one pixel of the weight map is refused. -/
example : writeCheck true ⟨1, 2, fun _ c => if c = 1 then .negInf else .fin 3⟩ = .error .runtimeError :=
  (C56_refuses true _).1.2 ⟨rfl, 0, by decide, 1, by decide, .inl rfl⟩

/-- An epoch: 2 x 2, one noise field, a non-finite PSF pixel, ringing in the masked fraction. -/
def exEpoch (v : ℚ) (m : BitVec 32) : EpochData :=
  ⟨⟨2, 2, fun _ _ => v⟩, [⟨2, 2, fun r _ => v + r⟩], ⟨2, 2, fun _ _ => -(3 / 2)⟩,
    ⟨1, 1, fun _ _ => none⟩, ⟨2, 2, fun _ _ => m⟩, ⟨2, 2, fun _ _ => 0⟩⟩

/-- The hypotheses of C54-C56 are met by two epochs with weights 1 and 3. -/
example : (∃ out, coaddSliceInputs 2 1 0 ([(exEpoch 4 1, (1 : ℚ)), (exEpoch 8 2, 3)].map fun p => .ok p.1)
      ([(exEpoch 4 1, (1 : ℚ)), (exEpoch 8 2, 3)].map Prod.snd) = .ok out) ∧
    (∀ p ∈ [(exEpoch 4 1, (1 : ℚ)), (exEpoch 8 2, 3)], 0 < p.2) ∧
    0 < ([(exEpoch 4 1, (1 : ℚ)), (exEpoch 8 2, 3)].map Prod.snd).sum := by
  refine ⟨(C55_succeeds 2 1 0 _).2 ⟨by simp, ?_⟩, by simp, by norm_num⟩
  intro p hp
  have : ∃ v m, p.1 = exEpoch v m := by
    simp only [List.mem_cons, List.not_mem_nil, or_false] at hp
    rcases hp with rfl | rfl <;> exact ⟨_, _, rfl⟩
  obtain ⟨v, m, hv⟩ := this
  rw [hv]
  refine ⟨⟨rfl, rfl⟩, ⟨rfl, rfl⟩, ⟨rfl, rfl⟩, ⟨rfl, rfl⟩, ⟨rfl, rfl⟩, fun i hi => ?_⟩
  have : i = 0 := by omega
  subst this
  exact ⟨_, rfl, rfl, rfl⟩

/-- Two epochs with weights 1 and 3. -/
def exEpochs : List (EpochData × ℚ) := [(exEpoch 4 1, 1), (exEpoch 8 2, 3)]

theorem exEpochs_out : ∃ out, coaddSliceInputs 2 1 0 (exEpochs.map fun p => .ok p.1)
    (exEpochs.map Prod.snd) = .ok out := by
  refine (C55_succeeds 2 1 0 exEpochs).2 ⟨by simp [exEpochs], fun p hp => ?_⟩
  have : ∃ v m, p.1 = exEpoch v m := by
    simp only [exEpochs, List.mem_cons, List.not_mem_nil, or_false] at hp
    rcases hp with rfl | rfl <;> exact ⟨_, _, rfl⟩
  obtain ⟨v, m, hv⟩ := this
  rw [hv]
  refine ⟨⟨rfl, rfl⟩, ⟨rfl, rfl⟩, ⟨rfl, rfl⟩, ⟨rfl, rfl⟩, ⟨rfl, rfl⟩, fun i hi => ?_⟩
  have : i = 0 := by omega
  subst this
  exact ⟨_, rfl, rfl, rfl⟩

theorem exEpochs_sum : 0 < (exEpochs.map Prod.snd).sum := by norm_num [exEpochs]

theorem exEpochs_pos : ∀ p ∈ exEpochs, 0 < p.2 := by simp [exEpochs]

/-- `C54_masks`, `C55_mean`, `C55_between`, `C56_fraction`, `C56_weight` and `C56_written` for these
epochs: the coadd exists, it is the weighted mean, its pixels lie between those of the epochs, and it may
be written. -/
example : ∃ out, IsMeanOf 2 1 0 exEpochs out ∧ out.ormask.nrow = 2 ∧
    (4 ≤ out.image.px 0 1 ∧ out.image.px 0 1 ≤ 8) ∧ out.interpFrac.px 1 1 ≤ 1 ∧ out.weight.ncol = 2 ∧
    writeCheck true out.weight = .ok () := by
  obtain ⟨out, h⟩ := exEpochs_out
  have hw : ∀ p ∈ exEpochs, 0 ≤ p.2 := fun p hp => (exEpochs_pos p hp).le
  exact ⟨out, C55_mean 2 1 0 exEpochs out exEpochs_sum.ne' h, (C54_masks 2 1 0 _ _ out h).1.1,
    (C55_between 2 1 0 exEpochs out exEpochs_pos h 0 1 4 8).1 (by omega) (by omega)
      (by simp only [exEpochs, List.mem_cons, List.not_mem_nil, or_false]
          rintro p (rfl | rfl) <;> norm_num [exEpoch]),
    (C56_fraction 2 1 0 exEpochs out hw exEpochs_sum h 1 1 (by omega) (by omega)).2,
    (C56_weight 2 1 0 _ _ out (by omega) h).2.1, (C56_written 2 1 0 exEpochs out hw exEpochs_sum h).2⟩

/-- `C55_scale`: weights in other units. -/
example := C55_scale 2 1 0 [.ok (exEpoch 4 1), .error .runtimeError] [1, 3] 10 (by norm_num)

/-- `C55_order` and `C55_order_arrays`: the two epochs the other way round. -/
example : ∃ out out' : Coadd, coaddSliceInputs 2 1 0 (exEpochs.reverse.map fun p => .ok p.1)
      (exEpochs.reverse.map Prod.snd) = .ok out' ∧ out'.image.Eqv out.image ∧ out'.weight.Eqv out.weight := by
  obtain ⟨out, h⟩ := exEpochs_out
  obtain ⟨out', h', -⟩ := C55_order 2 1 0 exEpochs _ (List.reverse_perm _).symm exEpochs_sum.ne' out h
  obtain ⟨h1, -, -, h4, -⟩ := C55_order_arrays 2 1 0 (by omega) exEpochs _ (List.reverse_perm _).symm
    exEpochs_sum.ne' out out' h h'
  exact ⟨out, out', h', h1, h4⟩

/-- `C55_single`: one epoch. -/
example := C55_single 2 1 0 (exEpoch 4 1) 7 (by norm_num)
  ⟨⟨rfl, rfl⟩, ⟨rfl, rfl⟩, ⟨rfl, rfl⟩, ⟨rfl, rfl⟩, ⟨rfl, rfl⟩, fun i hi => by
    have : i = 0 := by omega
    subst this
    exact ⟨_, rfl, rfl, rfl⟩⟩

end Pizza
