import Verif.Props.Combine
import Verif.Spec.Looser
import Verif.Spec.MoreMasked

/-! C125: masking more never brings an SE image in. -/

namespace Pizza

section
variable {A σ : Type}

theorem MoreBits.carries {b b' : Img (BitVec 32)} (h : MoreBits b b') {flags : BitVec 32} {r j : Nat} (hr : r < b.nrow)
    (hj : j < b.ncol) (hc : Carries (b.px r j) flags) : Carries (b'.px r j) flags := by
  obtain ⟨k, k1, k2, k3⟩ := hc
  exact ⟨k, k1, h.2.2 r hr j hj k k1 k2, k3⟩

theorem MoreZeros.le {w w' : Img ℚ} (h : MoreZeros w w') {r j : Nat} (hr : r < w.nrow) (hj : j < w.ncol)
    (hc : w.px r j ≤ 0) : w'.px r j ≤ 0 := by
  rcases h.2.2 r hr j hj with e | e <;> rw [e]
  exact hc

theorem MoreZeros.zero {w w' : Img ℚ} (h : MoreZeros w w') {r j : Nat} (hr : r < w.nrow) (hj : j < w.ncol)
    (hc : w.px r j = 0) : w'.px r j = 0 := by
  rcases h.2.2 r hr j hj with e | e <;> rw [e]
  exact hc

/-! ### symmetrising -/

theorem anyPix_mono {n m : Nat} {f g : Nat → Nat → Bool} (h : ∀ r < n, ∀ j < m, f r j = true → g r j = true)
    (hf : anyPix n m f = true) : anyPix n m g = true := by
  rw [anyPix_iff] at hf ⊢
  obtain ⟨r, hr, j, hj, h1⟩ := hf
  exact ⟨r, hr, j, hj, h r hr j hj h1⟩

theorem symWeight_zero {x : Ext A σ} (hx : x.RotatesMore) {w w' : Img ℚ} (h : MoreZeros w w') (hsq : w.nrow = w.ncol)
    (angle : Option A) (g : Option (Img Bool)) {o o' : Img ℚ} (ho : symmetrizeWeight x.rotate w angle g = .ok o)
    (ho' : symmetrizeWeight x.rotate w' angle g = .ok o') {r j : Nat} (hr : r < w.nrow) (hj : j < w.ncol)
    (hz : o.px r j = 0) : o'.px r j = 0 := by
  have hsq' : w'.nrow = w'.ncol := by rw [h.1, h.2.1, hsq]
  cases angle with
  | none =>
    obtain ⟨o1, e1, -, -, e2⟩ := C17_weight_iff x.rotate w g hsq
    obtain ⟨o2, e3, -, -, e4⟩ := C17_weight_iff x.rotate w' g hsq'
    cases ho.symm.trans e1
    cases ho'.symm.trans e3
    rw [e4 r (by rw [h.1]; exact hr) j (by rw [h.1, hsq]; exact hj)]
    rw [e2 r hr j (by rw [hsq]; exact hj)] at hz
    by_cases hc : ∃ r' c', (r' < w.nrow ∧ c' < w.nrow ∧ CarriedTo w.nrow r' c' r j) ∧ w.px r' c' = 0 ∧ ¬ Protected g r' c'
    · obtain ⟨r', c', ⟨h1, h2, h3⟩, h4, h5⟩ := hc
      rw [if_pos]
      exact ⟨r', c', ⟨by rw [h.1]; exact h1, by rw [h.1]; exact h2, by rw [h.1]; exact h3⟩,
        h.zero h1 (by rw [← hsq]; exact h2) h4, h5⟩
    · rw [if_neg hc] at hz
      split
      · rfl
      · exact h.zero hr hj hz
  | some a =>
    unfold symmetrizeWeight at ho ho'
    rw [if_neg (not_not.2 hsq)] at ho
    rw [if_neg (not_not.2 hsq')] at ho'
    simp only [] at ho ho'
    rw [h.1, h.2.1] at ho'
    have base : ∀ r < w.nrow, ∀ j < w.ncol, (decide (w.px r j = 0) && symAllowed g r j) = true →
        (decide (w'.px r j = 0) && symAllowed g r j) = true := by
      intro r hr j hj h1
      rw [Bool.and_eq_true, decide_eq_true_eq] at h1 ⊢
      exact ⟨h.zero hr hj h1.1, h1.2⟩
    have keep : w.px r j = 0 → o'.px r j = 0 := by
      intro hz
      have := h.zero hr hj hz
      split at ho'
      · split at ho'
        · cases ho'
          show (if _ then (0 : ℚ) else w'.px r j) = 0
          rw [this]
          split <;> rfl
        · cases ho'
          exact this
      · cases ho'
        exact this
    split at ho
    · rename_i ha
      split at ho
      · rename_i hb
        cases ho
        rw [if_pos (anyPix_mono base ha)] at ho'
        have rot : ∀ r < w.nrow, ∀ j < w.ncol,
            decide ((x.rotate a ⟨w.nrow, w.ncol, fun r c => if (decide (w.px r c = 0) && symAllowed g r c) = true
              then 1 else 0⟩).px r j > 0) = true →
            decide ((x.rotate a ⟨w.nrow, w.ncol, fun r c => if (decide (w'.px r c = 0) && symAllowed g r c) = true
              then 1 else 0⟩).px r j > 0) = true := by
          intro r hr j hj h1
          rw [decide_eq_true_eq] at h1 ⊢
          refine hx a ⟨w.nrow, w.ncol, fun r c => if (decide (w.px r c = 0) && symAllowed g r c) = true then 1 else 0⟩
            ⟨w.nrow, w.ncol, fun r c => if (decide (w'.px r c = 0) && symAllowed g r c) = true then 1 else 0⟩ rfl rfl
            (fun r hr j hj => ?_) r hr j hj h1
          show (if _ then (1 : ℚ) else 0) ≤ if _ then 1 else 0
          split
          · rename_i h2
            rw [if_pos (base r hr j hj h2)]
          · split <;> norm_num
        rw [if_pos (anyPix_mono rot hb)] at ho'
        have hz : (if _ then (0 : ℚ) else w.px r j) = 0 := hz
        split at hz
        · rename_i h3
          cases ho'
          show (if _ then (0 : ℚ) else w'.px r j) = 0
          rw [if_pos (rot r hr j hj h3)]
        · exact keep hz
      · cases ho
        exact keep hz
    · cases ho
      exact keep hz

theorem symBmask_bit {x : Ext A σ} (hx : x.RotatesMore) {b b' : Img (BitVec 32)} (h : MoreBits b b')
    (hsq : b.nrow = b.ncol) (angle : Option A) (g : Option (Img Bool)) (f : Option (BitVec 32)) {o o' : Img (BitVec 32)}
    (ho : symmetrizeBmask x.rotate b angle g f = .ok o) (ho' : symmetrizeBmask x.rotate b' angle g f = .ok o')
    {r j k : Nat} (hr : r < b.nrow) (hj : j < b.ncol) (hk : k < 32) (hz : (o.px r j).getLsbD k = true) :
    (o'.px r j).getLsbD k = true := by
  have hsq' : b'.nrow = b'.ncol := by rw [h.1, h.2.1, hsq]
  have hj' : j < b.nrow := by rw [hsq]; exact hj
  cases angle with
  | none =>
    obtain ⟨o1, e1, -, -, e2⟩ := C16_bmask_iff x.rotate b g f hsq
    obtain ⟨o2, e3, -, -, e4⟩ := C16_bmask_iff x.rotate b' g f hsq'
    cases ho.symm.trans e1
    cases ho'.symm.trans e3
    rw [e4 r (by rw [h.1]; exact hr) j (by rw [h.1]; exact hj') k hk]
    rcases (e2 r hr j hj' k hk).1 hz with h1 | ⟨r', c', ⟨h1, h2, h3⟩, h4, h5, h6⟩
    · exact .inl (h.2.2 r hr j hj k hk h1)
    · refine .inr ⟨r', c', ⟨by rw [h.1]; exact h1, by rw [h.1]; exact h2, by rw [h.1]; exact h3⟩,
        h.2.2 r' h1 c' (by rw [← hsq]; exact h2) k hk h4, h5, h6⟩
  | some a =>
    obtain ⟨o1, e1, e2⟩ := C19_angle_bits x.rotate b a g f hsq
    obtain ⟨o2, e3, e4⟩ := C19_angle_bits x.rotate b' a g f hsq'
    cases ho.symm.trans e1
    cases ho'.symm.trans e3
    obtain ⟨i1, ⟨n1, m1, p1⟩, q1⟩ := e2 r hr j hj' k hk
    obtain ⟨i2, ⟨n2, m2, p2⟩, q2⟩ := e4 r (by rw [h.1]; exact hr) j (by rw [h.1]; exact hj') k hk
    rw [q2]
    rcases q1.1 hz with h1 | ⟨h1, ⟨i, hi, jj, hjj, h2, h3⟩, h4⟩
    · exact .inl (h.2.2 r hr j hj k hk h1)
    · refine .inr ⟨h1, ⟨i, by rw [h.1]; exact hi, jj, by rw [h.1]; exact hjj,
        h.2.2 i hi jj (by rw [← hsq]; exact hjj) k hk h2, h3⟩, ?_⟩
      refine hx a i1 i2 (by rw [n1, n2, h.1]) (by rw [m1, m2, h.2.1]) (fun u hu v hv => ?_) r (by rw [n1]; exact hr) j
        (by rw [m1]; exact hj) h4
      rw [n1] at hu
      rw [m1] at hv
      by_cases hc : (b.px u v).getLsbD k = true ∧ ¬ Protected g u v
      · rw [(p1 u v).1 hc, (p2 u v).1 ⟨h.2.2 u hu v hv k hk hc.1, hc.2⟩]
      · rw [(p1 u v).2 hc]
        by_cases hd : (b'.px u v).getLsbD k = true ∧ ¬ Protected g u v
        · rw [(p2 u v).1 hd]
          norm_num
        · rw [(p2 u v).2 hd]

theorem sym_more {x : Ext A σ} (hx : x.RotatesMore) {w w' : Img ℚ} {b b' : Img (BitVec 32)} (hw : MoreZeros w w')
    (hb : MoreBits b b') (hsw : w.nrow = w.ncol) (hsb : b.nrow = b.ncol) (cfg : SymCfg A) (g : Option (Img Bool))
    (flags : BitVec 32) {o o' : Img ℚ × Img (BitVec 32)}
    (ho : symmetrizeSlice x.rotate cfg g flags w b = .ok o) (ho' : symmetrizeSlice x.rotate cfg g flags w' b' = .ok o') :
    MoreZeros o.1 o'.1 ∧ MoreBits o.2 o'.2 := by
  have hsw' : w'.nrow = w'.ncol := by rw [hw.1, hw.2.1, hsw]
  have hsb' : b'.nrow = b'.ncol := by rw [hb.1, hb.2.1, hsb]
  have more : ∀ {v v' u u' : Img ℚ}, MoreZeros v v' → u.nrow = v.nrow → u.ncol = v.ncol → u'.nrow = v'.nrow →
      u'.ncol = v'.ncol → (∀ r < v.nrow, ∀ j < v.ncol, u.px r j = 0 ∨ u.px r j = v.px r j) →
      (∀ r < v.nrow, ∀ j < v.ncol, u'.px r j = 0 ∨ u'.px r j = v'.px r j) →
      (∀ r < v.nrow, ∀ j < v.ncol, u.px r j = 0 → u'.px r j = 0) → MoreZeros u u' := by
    intro v v' u u' h0 h1 h2 h3 h4 h5 h6 h7
    refine ⟨by rw [h3, h1, h0.1], by rw [h4, h2, h0.2.1], fun r hr j hj => ?_⟩
    rw [h1] at hr
    rw [h2] at hj
    rcases h6 r hr j hj with e | e
    · exact .inr e
    · rcases h0.2.2 r hr j hj with e' | e'
      · rcases h5 r hr j hj with e'' | e''
        · exact .inr (h7 r hr j hj e'')
        · exact .inl (by rw [e, e', e''])
      · exact .inr (by rw [e, e'])
  cases cfg with
  | off =>
    cases ho
    cases ho'
    exact ⟨hw, hb⟩
  | plain =>
    unfold symmetrizeSlice at ho ho'
    obtain ⟨p, p1, ho⟩ := bind_eq_ok.1 ho
    obtain ⟨q, q1, ho⟩ := bind_eq_ok.1 ho
    obtain ⟨p', p1', ho'⟩ := bind_eq_ok.1 ho'
    obtain ⟨q', q1', ho'⟩ := bind_eq_ok.1 ho'
    cases ho
    cases ho'
    obtain ⟨o1, e1, e2, e3, -⟩ := C16_bmask_iff x.rotate b g (some flags) hsb
    obtain ⟨o2, e4, e5, e6, -⟩ := C16_bmask_iff x.rotate b' g (some flags) hsb'
    cases p1.symm.trans e1
    cases p1'.symm.trans e4
    obtain ⟨o3, f1, f2, f3, -⟩ := C17_weight_iff x.rotate w g hsw
    obtain ⟨o4, f4, f5, f6, -⟩ := C17_weight_iff x.rotate w' g hsw'
    cases q1.symm.trans f1
    cases q1'.symm.trans f4
    refine ⟨more hw f2 f3 f5 f6 (fun r _ j _ => ((C17_never_increases x.rotate w none g).2 q q1 r j).symm)
      (fun r _ j _ => ((C17_never_increases x.rotate w' none g).2 q' q1' r j).symm)
      (fun r hr j hj => symWeight_zero hx hw hsw none g q1 q1' hr hj), ?_⟩
    refine ⟨by rw [e5, e2, hb.1], by rw [e6, e3, hb.2.1], fun r hr j hj k hk hbit => ?_⟩
    exact symBmask_bit hx hb hsb none g (some flags) p1 p1' (by rw [← e2]; exact hr) (by rw [← e3]; exact hj) hk hbit
  | angles l =>
    obtain ⟨w1, b1, e1, e2, e3, e4, e5, e6, e7⟩ := C19_angle_list x.rotate l g flags w b hsw hsb
    obtain ⟨w2, b2, f1, f2, f3, f4, f5, f6, f7⟩ := C19_angle_list x.rotate l g flags w' b' hsw' hsb'
    cases ho.symm.trans e1
    cases ho'.symm.trans f1
    refine ⟨more hw e2 e3 f2 f3 (fun r _ j _ => by rw [e7]; split <;> simp) (fun r _ j _ => by rw [f7]; split <;> simp)
      (fun r hr j hj hz => ?_), ?_⟩
    · rw [e7] at hz
      rw [f7]
      split at hz
      · rename_i hc
        obtain ⟨a, ha, wr, h1, h2⟩ := hc
        split
        · rfl
        · rename_i hn
          exfalso
          apply hn
          cases hq : symmetrizeWeight x.rotate w' a g with
          | error e =>
            exfalso
            unfold symmetrizeWeight at hq
            rw [if_neg (not_not.2 hsw')] at hq
            simp only [] at hq
            split at hq <;> (repeat' split at hq) <;> cases hq
          | ok wr' => exact ⟨a, ha, wr', hq, symWeight_zero hx hw hsw a g h1 hq hr hj h2⟩
      · split
        · rfl
        · exact hw.zero hr hj hz
    · refine ⟨by rw [f4, e4, hb.1], by rw [f5, e5, hb.2.1], fun r hr j hj k hk hbit => ?_⟩
      have hr' : r < b.nrow := by rw [← e4]; exact hr
      have hj' : j < b.ncol := by rw [← e5]; exact hj
      rw [f6]
      rcases (e6 r j k).1 hbit with h1 | ⟨a, ha, br, h1, h2⟩
      · exact .inl (hb.2.2 r hr' j hj' k hk h1)
      · obtain ⟨br', h3, -⟩ := C19_single_angle_only_adds x.rotate b' a g (some flags) hsb'
        exact .inr ⟨a, ha, br', h3, symBmask_bit hx hb hsb a g (some flags) h1 h3 hr' hj' hk h2⟩

/-! ### the cuts -/

theorem fraction_mono {n : Nat} {g : Option (Img Bool)} {P Q : Nat × Nat → Prop} (h : ∀ p, p.1 < n → p.2 < n → P p → Q p)
    {a b : ℚ} (ha : IsFraction n g P a) (hb : IsFraction n g Q b) : a ≤ b := by
  obtain ⟨all, bad, h1, h2, h3⟩ := ha
  obtain ⟨all', bad', h1', h2', h3'⟩ := hb
  have he : all' = all := by
    ext p
    rw [h1, h1']
  have hsub : bad ⊆ bad' := by
    intro p hp
    rw [h2] at hp
    rw [h2']
    exact ⟨hp.1, h p hp.1.1 hp.1.2.1 hp.2⟩
  rcases h3 with ⟨h3, rfl⟩ | ⟨h3, rfl⟩
  · rcases h3' with ⟨h3', rfl⟩ | ⟨h3', rfl⟩
    · rw [he]
      exact div_le_div_of_nonneg_right (by exact_mod_cast Finset.card_le_card hsub) (by positivity)
    · rw [he] at h3'
      omega
  · rcases h3' with ⟨h3', rfl⟩ | ⟨h3', rfl⟩
    · rw [he] at h3'
      omega
    · exact le_refl _

open Classical in
theorem fraction_exists (n : Nat) (g : Option (Img Bool)) (P : Nat × Nat → Prop) : ∃ q, IsFraction n g P q := by
  set all := ((Finset.range n ×ˢ Finset.range n).filter fun p => Counted n n g p)
  have h1 : ∀ p, p ∈ all ↔ Counted n n g p := by
    intro p
    simp only [all, Finset.mem_filter, Finset.mem_product, Finset.mem_range]
    exact ⟨fun h => h.2, fun h => ⟨⟨h.1, h.2.1⟩, h⟩⟩
  have h2 : ∀ p, p ∈ all.filter P ↔ Counted n n g p ∧ P p := by
    intro p
    rw [Finset.mem_filter, h1]
  rcases Nat.eq_zero_or_pos all.card with h | h
  · exact ⟨1, all, _, h1, h2, .inr ⟨h, rfl⟩⟩
  · exact ⟨_, all, _, h1, h2, .inl ⟨h, rfl⟩⟩

theorem unusable_more {n : Nat} {w w' : Img ℚ} {b b' : Img (BitVec 32)} (hw : w.Sq n) (hb : b.Sq n) (h : MoreZeros w w')
    (h' : MoreBits b b') {flags : BitVec 32} (p : Nat × Nat) (h1 : p.1 < n) (h2 : p.2 < n)
    (hu : Unusable w b flags p) : Unusable w' b' flags p := by
  rcases hu with hu | hu
  · exact .inl (h.le (by rw [hw.1]; exact h1) (by rw [hw.2]; exact h2) hu)
  · exact .inr (h'.carries (by rw [hb.1]; exact h1) (by rw [hb.2]; exact h2) hu)

theorem fullEdge_more {n : Nat} {w w' : Img ℚ} {b b' : Img (BitVec 32)} (hw : w.Sq n) (hb : b.Sq n) (h : MoreZeros w w')
    (h' : MoreBits b b') {flags : BitVec 32} (he : FullEdge w b flags) : FullEdge w' b' flags := by
  have on : ∀ (e : Edge) r j, e.On w.nrow w.ncol r j → r < n ∧ j < n := by
    intro e r j h
    rw [hw.1, hw.2] at h
    cases e <;> simp only [Edge.On] at h <;> omega
  rcases he with ⟨e, he⟩ | ⟨e, he⟩
  · refine .inl ⟨e, fun r j hrj => ?_⟩
    rw [h.1, h.2.1] at hrj
    obtain ⟨h1, h2⟩ := on e r j hrj
    exact h.le (by rw [hw.1]; exact h1) (by rw [hw.2]; exact h2) (he r j hrj)
  · refine .inr ⟨e, fun r j hrj => ?_⟩
    rw [h.1, h.2.1] at hrj
    obtain ⟨h1, h2⟩ := on e r j hrj
    exact h'.carries (by rw [hb.1]; exact h1) (by rw [hb.2]; exact h2) (he r j hrj)

open Classical in
theorem tooMuchBad_more {n : Nat} {w w' : Img ℚ} {b b' : Img (BitVec 32)} (hw : w.Sq n) (hb : b.Sq n)
    (h : MoreZeros w w') (h' : MoreBits b b') {flags : BitVec 32} (ht : TooMuchBad n w b flags) :
    TooMuchBad n w' b' flags := by
  obtain ⟨bad, h1, h2, h3⟩ := ht
  have hm : ∀ p, p ∈ ((Finset.range n ×ˢ Finset.range n).filter fun p => Unusable w' b' flags p) ↔
      p.1 < n ∧ p.2 < n ∧ Unusable w' b' flags p := by
    intro p
    simp only [Finset.mem_filter, Finset.mem_product, Finset.mem_range, and_assoc]
  generalize (Finset.range n ×ˢ Finset.range n).filter (fun p => Unusable w' b' flags p) = bad' at hm
  have hsub : bad ⊆ bad' := by
    intro p hp
    rw [h1] at hp
    rw [hm]
    exact ⟨hp.1, hp.2.1, unusable_more hw hb h h' p hp.1 hp.2.1 hp.2.2⟩
  have hle := Finset.card_le_card hsub
  refine ⟨bad', hm, by omega, ?_⟩
  rcases h3 with h3 | h3
  · left
    have : bad' ⊆ Finset.range n ×ˢ Finset.range n := by
      intro p hp
      rw [hm] at hp
      simp only [Finset.mem_product, Finset.mem_range]
      exact ⟨hp.1, hp.2.1⟩
    have := Finset.card_le_card this
    rw [Finset.card_product, Finset.card_range] at this
    omega
  · right
    refine lt_of_lt_of_le h3 (div_le_div_of_nonneg_right (by exact_mod_cast hle) (by positivity))

theorem initialCut_more {c : BuildCfg A} {s s' : Src} {g : Option (Img Bool)} {w w' : Img ℚ} {b b' : Img (BitVec 32)}
    (hp : s'.psfFlag = s.psfFlag) (hw : w.Sq (sliceSide c)) (hb : b.Sq (sliceSide c)) (h : MoreZeros w w')
    (h' : MoreBits b b') (hi : InitialCut c s g w b) : InitialCut c s' g w' b' := by
  rcases hi with ⟨h1, h2⟩ | ⟨r, hr, j, hj, h2⟩ | ⟨q, h1, h2⟩ | h1
  · exact .inl ⟨h1, fullEdge_more hw hb h h' h2⟩
  · exact .inr (.inl ⟨r, hr, j, hj, h'.carries (by rw [hb.1]; exact hr) (by rw [hb.2]; exact hj) h2⟩)
  · obtain ⟨q', hq⟩ := fraction_exists (sliceSide c) g (Unusable w' b' (c.splineFlags ||| c.noiseFlags))
    exact .inr (.inr (.inl ⟨q', hq, h2.trans (fraction_mono (unusable_more hw hb h h') h1 hq)⟩))
  · exact .inr (.inr (.inr (by rw [hp, h1])))

theorem Carries.or_left {a b c : BitVec 32} (h : Carries a b) : Carries a (b ||| c) := by
  obtain ⟨k, h1, h2, h3⟩ := h
  exact ⟨k, h1, h2, by rw [BitVec.getLsbD_or, h3, Bool.true_or]⟩

theorem Carries.or_right {a b c : BitVec 32} (h : Carries a c) : Carries a (b ||| c) := by
  obtain ⟨k, h1, h2, h3⟩ := h
  exact ⟨k, h1, h2, by rw [BitVec.getLsbD_or, h3, Bool.or_true]⟩

/-! ### copying of edges -/

/-- Copying of edges makes no pixel bad. -/
theorem copy_le {on : Bool} {flags : BitVec 32} {n : Nat} {w w' : Img ℚ} {b b' : Img (BitVec 32)} (hw : w.Sq n)
    (h : AfterCopy on flags w b w' b') {r j : Nat} (hr : r < n) (hj : j < n) :
    (w'.px r j ≤ 0 → w.px r j ≤ 0) ∧ (Carries (b'.px r j) flags → Carries (b.px r j) flags) := by
  cases on with
  | false =>
    obtain ⟨rfl, rfl⟩ := h.2.1 rfl
    exact ⟨id, id⟩
  | true =>
    obtain ⟨h1, h2⟩ := h.1 rfl
    obtain ⟨a1, a2⟩ := h1.2.2 r (by rw [hw.1]; exact hr) j (by rw [hw.2]; exact hj)
    obtain ⟨b1, b2⟩ := h2.2.2 r (by rw [hw.1]; exact hr) j (by rw [hw.2]; exact hj)
    by_cases hrep : ∃ e, Repaired w b flags e r j
    · obtain ⟨e, he⟩ := hrep
      rw [a1 e he, b1 e he]
      exact ⟨fun hu => absurd (.inl hu) he.2.2, fun hu => absurd (.inr hu) he.2.2⟩
    · have hno : ∀ e, ¬ Repaired w b flags e r j := fun e he => hrep ⟨e, he⟩
      rw [a2 hno, b2 hno]
      exact ⟨id, id⟩

/-- Weights and masks with the same pixels are the same after copying of edges. -/
theorem copy_same {flags : BitVec 32} {n : Nat} {w w' v v' : Img ℚ} {b b' y y' : Img (BitVec 32)} (hw : w.Sq n)
    (hv : v.Sq n) (hs : ∀ r < n, ∀ j < n, v.px r j = w.px r j ∧ y.px r j = b.px r j)
    (h : AfterCopy true flags w b w' b') (h' : AfterCopy true flags v y v' y') :
    ∀ r < n, ∀ j < n, v'.px r j = w'.px r j ∧ y'.px r j = b'.px r j := by
  obtain ⟨h1, h2⟩ := h.1 rfl
  obtain ⟨h1', h2'⟩ := h'.1 rfl
  have h3 := h.2.2 rfl
  have hu : ∀ p : Nat × Nat, p.1 < n → p.2 < n → (Unusable v y flags p ↔ Unusable w b flags p) := by
    intro p p1 p2
    unfold Unusable
    rw [(hs p.1 p1 p.2 p2).1, (hs p.1 p1 p.2 p2).2]
  have hin : ∀ (e : Edge) r j, e.On w.nrow w.ncol r j →
      (e.Inner w.nrow w.ncol r j).1 < n ∧ (e.Inner w.nrow w.ncol r j).2 < n := by
    intro e r j he
    have := inner_inRange w h3.1 h3.2 e r j he
    rw [hw.1, hw.2] at this ⊢
    exact this
  have hrep : ∀ (e : Edge) r j, Repaired v y flags e r j ↔ Repaired w b flags e r j := by
    intro e r j
    have hbad : EdgeBad v y flags e ↔ EdgeBad w b flags e := by
      unfold EdgeBad
      simp only [hw.1, hw.2, hv.1, hv.2]
      exact forall_congr' fun r => forall_congr' fun j => forall_congr' fun he => hu (r, j) he.1 he.2.1
    unfold Repaired
    rw [hbad, hv.1, hv.2]
    constructor
    · rintro ⟨a1, a2, a3⟩
      have a1' : e.On w.nrow w.ncol r j := by rw [hw.1, hw.2]; exact a1
      refine ⟨a1', a2, fun q => a3 ?_⟩
      have := hin e r j a1'
      rw [hw.1, hw.2] at this q
      exact (hu _ this.1 this.2).2 q
    · rintro ⟨a1, a2, a3⟩
      have := hin e r j a1
      rw [hw.1, hw.2] at this a1 a3
      exact ⟨a1, a2, fun q => a3 ((hu _ this.1 this.2).1 q)⟩
  intro r hr j hj
  obtain ⟨a1, a2⟩ := h1.2.2 r (by rw [hw.1]; exact hr) j (by rw [hw.2]; exact hj)
  obtain ⟨b1, b2⟩ := h2.2.2 r (by rw [hw.1]; exact hr) j (by rw [hw.2]; exact hj)
  obtain ⟨a1', a2'⟩ := h1'.2.2 r (by rw [hv.1]; exact hr) j (by rw [hv.2]; exact hj)
  obtain ⟨b1', b2'⟩ := h2'.2.2 r (by rw [hv.1]; exact hr) j (by rw [hv.2]; exact hj)
  by_cases hq : ∃ e, Repaired w b flags e r j
  · obtain ⟨e, he⟩ := hq
    have := hin e r j he.1
    rw [a1 e he, b1 e he, a1' e ((hrep e r j).2 he), b1' e ((hrep e r j).2 he), hv.1, hv.2]
    rw [hw.1, hw.2] at this ⊢
    exact hs _ this.1 _ this.2
  · have hno : ∀ e, ¬ Repaired w b flags e r j := fun e he => hq ⟨e, he⟩
    rw [a2 hno, b2 hno, a2' fun e he => hno e ((hrep e r j).1 he), b2' fun e he => hno e ((hrep e r j).1 he)]
    exact hs r hr j hj

theorem fullEdge_mono {n : Nat} {w w' : Img ℚ} {b b' : Img (BitVec 32)} (hw : w.Sq n) (hw' : w'.Sq n) {flags : BitVec 32}
    (h : ∀ r < n, ∀ j < n, (w.px r j ≤ 0 → w'.px r j ≤ 0) ∧ (Carries (b.px r j) flags → Carries (b'.px r j) flags))
    (he : FullEdge w b flags) : FullEdge w' b' flags := by
  have on : ∀ (e : Edge) r j, e.On w'.nrow w'.ncol r j → r < n ∧ j < n ∧ e.On w.nrow w.ncol r j := by
    intro e r j h
    refine ⟨hw'.1 ▸ h.1, hw'.2 ▸ h.2.1, ?_⟩
    rw [hw.1, hw.2]
    rw [hw'.1, hw'.2] at h
    exact h
  rcases he with ⟨e, he⟩ | ⟨e, he⟩
  · exact .inl ⟨e, fun r j hrj => (h r (on e r j hrj).1 j (on e r j hrj).2.1).1 (he r j (on e r j hrj).2.2)⟩
  · exact .inr ⟨e, fun r j hrj => (h r (on e r j hrj).1 j (on e r j hrj).2.1).2 (he r j (on e r j hrj).2.2)⟩

open Classical in
theorem tooMuchBad_mono {n : Nat} {w w' : Img ℚ} {b b' : Img (BitVec 32)} {flags : BitVec 32}
    (h : ∀ r < n, ∀ j < n, (w.px r j ≤ 0 → w'.px r j ≤ 0) ∧ (Carries (b.px r j) flags → Carries (b'.px r j) flags))
    (ht : TooMuchBad n w b flags) : TooMuchBad n w' b' flags := by
  obtain ⟨bad, h1, h2, h3⟩ := ht
  have hm : ∀ p, p ∈ ((Finset.range n ×ˢ Finset.range n).filter fun p => Unusable w' b' flags p) ↔
      p.1 < n ∧ p.2 < n ∧ Unusable w' b' flags p := by
    intro p
    simp only [Finset.mem_filter, Finset.mem_product, Finset.mem_range, and_assoc]
  generalize (Finset.range n ×ˢ Finset.range n).filter (fun p => Unusable w' b' flags p) = bad' at hm
  have hsub : bad ⊆ bad' := by
    intro p hp
    rw [h1] at hp
    rw [hm]
    exact ⟨hp.1, hp.2.1, hp.2.2.imp (h _ hp.1 _ hp.2.1).1 (h _ hp.1 _ hp.2.1).2⟩
  have hle := Finset.card_le_card hsub
  refine ⟨bad', hm, by omega, ?_⟩
  rcases h3 with h3 | h3
  · left
    have : bad' ⊆ Finset.range n ×ˢ Finset.range n := by
      intro p hp
      rw [hm] at hp
      simp only [Finset.mem_product, Finset.mem_range]
      exact ⟨hp.1, hp.2.1⟩
    have := Finset.card_le_card this
    rw [Finset.card_product, Finset.card_range] at this
    omega
  · right
    refine lt_of_lt_of_le h3 (div_le_div_of_nonneg_right (by exact_mod_cast hle) (by positivity))

/-- A candidate that passes the initial cut on the masked fraction also passes the second. -/
theorem retest {c : BuildCfg A} {g : Option (Img Bool)} {w w' : Img ℚ} {b b' : Img (BitVec 32)} (hw : w.Sq (sliceSide c))
    {im0 im : Img ℚ} {ns0 ns : List (Img ℚ)} {pm : Img (BitVec 32)} (ha : AfterCopy c.copyEdges c.splineFlags w b w' b')
    (hf : InterpFacts (sliceSide c) c.noiseFlags c.splineFlags c.copyEdges im0 ns0 w b w' b' im ns pm) {q : ℚ}
    (hq : IsFraction (sliceSide c) g (fun p => pm.px p.1 p.2 ≠ 0) q) (hm : c.maxMaskedFraction ≤ q) :
    CutFraction c (sliceSide c) g w b := by
  obtain ⟨q', hq'⟩ := fraction_exists (sliceSide c) g (Unusable w b (c.splineFlags ||| c.noiseFlags))
  refine ⟨q', hq', hm.trans (fraction_mono (fun p h1 h2 hp => ?_) hq hq')⟩
  obtain ⟨k, hk⟩ : ∃ k, (pm.px p.1 p.2).getLsbD k = true := by
    by_contra hn
    push Not at hn
    apply hp
    apply BitVec.eq_of_getLsbD_eq
    intro i _
    rw [Bool.eq_false_iff.2 (hn i)]
    simp
  rcases hf.only p.1 h1 p.2 h2 k hk with rfl | rfl
  · have hu : Unusable w b c.splineFlags (p.1, p.2) := by
      rcases hf.sound p.1 h1 p.2 h2 hk with hu | ⟨-, e, hu⟩
      · exact hu.imp (copy_le hw ha h1 h2).1 (copy_le hw ha h1 h2).2
      · exact repaired_unusable hu
    rcases hu with hu | hu
    · exact .inl hu
    · exact .inr hu.or_left
  · exact .inr ((hf.noise p.1 h1 p.2 h2).1 hk).or_right

/-! ### one candidate -/

theorem pySliceIdx_le (n : Nat) (i : ℤ) : pySliceIdx n i ≤ n := by
  unfold pySliceIdx
  split <;> omega

theorem slice_rel {α : Type} {R : α → α → Prop} {a a' : Img α} (h1 : a'.nrow = a.nrow) (h2 : a'.ncol = a.ncol)
    (h : ∀ r < a.nrow, ∀ j < a.ncol, R (a.px r j) (a'.px r j)) (r0 r1 c0 c1 : ℤ) :
    (a'.slice r0 r1 c0 c1).nrow = (a.slice r0 r1 c0 c1).nrow ∧ (a'.slice r0 r1 c0 c1).ncol = (a.slice r0 r1 c0 c1).ncol ∧
      ∀ r < (a.slice r0 r1 c0 c1).nrow, ∀ j < (a.slice r0 r1 c0 c1).ncol,
        R ((a.slice r0 r1 c0 c1).px r j) ((a'.slice r0 r1 c0 c1).px r j) := by
  unfold Img.slice
  simp only []
  rw [h1, h2]
  refine ⟨rfl, rfl, fun r hr j hj => h _ ?_ _ ?_⟩
  · have := pySliceIdx_le a.nrow r1
    omega
  · have := pySliceIdx_le a.ncol c1
    omega

theorem reads_more {c : BuildCfg A} {s s' : Src} (h : MoreMasked s s') {d d' : SESlice} (hd : s.ReadsAs c d)
    (hd' : s'.ReadsAs c d') : MoreZeros d.weight d'.weight ∧ MoreBits d.bmask d'.bmask ∧ d'.xStart = d.xStart ∧
      d'.yStart = d.yStart ∧ d'.boxSize = d.boxSize := by
  obtain ⟨col, row, im, bkg, bm, wt, ns, p, -, -, hb, hw, -, hs⟩ := hd
  obtain ⟨col', row', im', bkg', bm', wt', ns', p', -, -, hb', hw', -, hs'⟩ := hd'
  rw [h.pos, p] at p'
  cases p'
  rw [h.scale] at hs'
  unfold setSlice at hs hs'
  simp only [] at hs hs'
  split at hs
  · cases hs
  · rename_i hbox
    rw [if_neg hbox] at hs'
    cases hs
    cases hs'
    obtain ⟨b1, b2, b3⟩ := h.bits _ _ hb hb'
    obtain ⟨w1, w2, w3⟩ := h.weight _ _ hw hw'
    refine ⟨?_, ?_, rfl, rfl, rfl⟩
    · obtain ⟨e1, e2, e3⟩ := slice_rel (R := fun u v : ℚ => v = u ∨ v = 0) w1 w2 w3 _ _ _ _
      refine ⟨e1, e2, fun r hr j hj => ?_⟩
      rcases e3 r hr j hj with e | e
      · exact .inl (by simp only [Img.map]; rw [e])
      · exact .inr (by simp only [Img.map]; rw [e, zero_div])
    · exact slice_rel (R := fun u v : BitVec 32 => ∀ k < 32, u.getLsbD k = true → v.getLsbD k = true) b1 b2 b3 _ _ _ _

theorem gaia_more {c : BuildCfg A} {s s' : Src} (h : MoreMasked s s') {d d' : SESlice} (hx : d'.xStart = d.xStart)
    (hy : d'.yStart = d.yStart) (hb : d'.boxSize = d.boxSize) {g g' : Option (Img Bool)} (hg : SeesGaia c s d g)
    (hg' : SeesGaia c s' d' g') : g' = g := by
  rcases hg with ⟨h1, rfl⟩ | ⟨m, m', f, h1, rfl, h2, h3⟩
  · rcases hg' with ⟨-, rfl⟩ | ⟨m, m', f, h1', -⟩
    · rfl
    · rw [h1] at h1'
      cases h1'
  · rcases hg' with ⟨h1', -⟩ | ⟨n, n', f', h1', rfl, h2', h3'⟩
    · rw [h1] at h1'
      cases h1'
    · rw [h1] at h1'
      cases h1'
      rw [h.toCoadd, h2] at h2'
      cases h2'
      rw [hx, hy, hb, h3] at h3'
      cases h3'
      rfl

/-- A candidate that is used with more masked is used with less masked. -/
theorem cand_more {x : Ext A σ} (hx : x.RotatesMore) {c : BuildCfg A} (hro : c.rejectOutliers = false)
    (hce : c.copyEdges = false) (hn : 1 ≤ sliceSide c) {k k' : Cand} (hk : PrepFacts c (sliceSide c) k)
    (hk' : PrepFacts c (sliceSide c) k') (hs : k.src.WellShaped) (hs' : k'.src.WellShaped)
    (h : MoreMasked k.src k'.src) {r r' u u' : σ} {o : Outcome} {q : SEObj} {wt : ℚ}
    (ho : processCand x c k r = .ok (o, u)) (ho' : processCand x c k' r' = .ok (.used q wt, u')) :
    ∃ q wt, o = .used q wt := by
  obtain ⟨d, w0, g, w, b, e, a1, a2, a3, a4, a5, a6⟩ := epoch_facts rfl hn hk hs rfl ho
  obtain ⟨d', w0', g', w', b', e', a1', a2', a3', a4', a5', a6'⟩ := epoch_facts rfl hn hk' hs' rfl ho'
  obtain ⟨m1, m2, m3, m4, m5⟩ := reads_more h a1.reads a1'.reads
  cases gaia_more h m3 m4 m5 a1.gaia a1'.gaia
  have t1 := a1.sym
  have t2 := a1'.sym
  rw [a1.weight hro] at t1
  rw [a1'.weight hro] at t2
  have hsq : d.weight.nrow = d.weight.ncol ∧ d.bmask.nrow = d.bmask.ncol := by
    obtain ⟨d2, v, f1, -, -, -, -, -, -, -, f2, -, f3⟩ := hk.data
    cases readsAs_unique a1.reads f1
    obtain ⟨-, f4, f5, -⟩ := f2 hs
    rw [f3 hro] at f4
    exact ⟨by rw [f4.1, f4.2], by rw [f5.1, f5.2]⟩
  obtain ⟨z1, z2⟩ := sym_more hx m1 m2 hsq.1 hsq.2 c.symmetrize _ _ t1 t2
  rcases a6' with ⟨-, -, f, a7, -⟩ | ⟨n1, -, v', v2', l1', -, -, l2'⟩
  · cases a7
  rcases a6 with ⟨n2, -⟩ | ⟨n2, -, v, v2, l1, -, -, l2⟩
  · exact absurd (initialCut_more h.psf a4 a5 z1 z2 n2) n1
  obtain ⟨rfl, rfl⟩ := l1'.2.1 hce
  have l1c := l1
  obtain ⟨rfl, rfl⟩ := l1.2.1 hce
  rcases l2 with ⟨c1, -⟩ | ⟨-, ⟨c1, -⟩ | ⟨-, im, ns, pm, fr, c2, c3, ⟨c4, -⟩ | ⟨-, o', wt', psf, c5, -⟩⟩⟩
  · exact absurd (.inl ⟨hce, c1⟩) n2
  · rcases l2' with ⟨-, c2⟩ | ⟨-, ⟨-, c2⟩ | ⟨c2, -⟩⟩
    · cases c2
    · cases c2
    · exact absurd (tooMuchBad_more a4 a5 z1 z2 c1) c2
  · exact absurd (.inr (.inr (.inl (retest a4 l1c c2 c3 c4)))) n2
  · exact ⟨o', wt', c5⟩

/-! ### looser cuts -/

theorem LooserCuts.side {c c' : BuildCfg A} (h : LooserCuts c c') : sliceSide c' = sliceSide c := by
  rw [h.rest]
  rfl

theorem LooserCuts.refl (c : BuildCfg A) : LooserCuts c c := ⟨rfl, le_refl _, le_refl _, fun _ _ h => h, id⟩

/-- A candidate that is cut at the beginning with looser cuts is cut with the stricter ones. -/
theorem initialCut_loose {c c' : BuildCfg A} (hl : LooserCuts c c') {n : Nat} {g : Option (Img Bool)} {w w' : Img ℚ}
    {b b' : Img (BitVec 32)} {p p' : Prop} (hp : p' → p) (hw : w.Sq n) (hw' : w'.Sq n)
    (hs : ∀ r < n, ∀ j < n, w'.px r j = w.px r j ∧ b'.px r j = b.px r j)
    (h : CutEdge c' w' b' ∨ CutFlags c' n b' ∨ CutFraction c' n g w' b' ∨ p') :
    CutEdge c w b ∨ CutFlags c n b ∨ CutFraction c n g w b ∨ p := by
  have hsp : c'.splineFlags = c.splineFlags := by rw [hl.rest]
  have hno : c'.noiseFlags = c.noiseFlags := by rw [hl.rest]
  rcases h with ⟨h1, h2⟩ | ⟨r, hr, j, hj, k, k1, k2, k3⟩ | ⟨q, h1, h2⟩ | h
  · refine .inl ⟨?_, ?_⟩
    · cases hc : c.copyEdges with
      | false => rfl
      | true => rw [hl.edges hc] at h1; cases h1
    · rw [hsp] at h2
      refine fullEdge_mono hw' hw (fun r hr j hj => ?_) h2
      rw [(hs r hr j hj).1, (hs r hr j hj).2]
      exact ⟨id, id⟩
  · rw [(hs r hr j hj).2] at k2
    exact .inr (.inl ⟨r, hr, j, hj, k, k1, k2, hl.flags k k1 k3⟩)
  · refine .inr (.inr (.inl ?_))
    obtain ⟨q', hq'⟩ := fraction_exists n g (Unusable w b (c.splineFlags ||| c.noiseFlags))
    refine ⟨q', hq', (hl.fraction.trans h2).trans (fraction_mono (fun p p1 p2 hu => ?_) h1 hq')⟩
    unfold Unusable at hu ⊢
    rw [(hs p.1 p1 p.2 p2).1, (hs p.1 p1 p.2 p2).2, hsp, hno] at hu
    exact hu
  · exact .inr (.inr (.inr (hp h)))

/-- A candidate that is used in the end is used with looser cuts. -/
theorem late_loose {x : Ext A σ} {c c' : BuildCfg A} (hl : LooserCuts c c') {g : Option (Img Bool)} {w w' : Img ℚ}
    {b b' : Img (BitVec 32)} (hw : w.Sq (sliceSide c)) (hw' : w'.Sq (sliceSide c))
    (hs : ∀ r < sliceSide c, ∀ j < sliceSide c, w'.px r j = w.px r j ∧ b'.px r j = b.px r j) {o o' : SEObj}
    {im im' : Img ℚ} {ns ns' : List (Img ℚ)} {q : SEObj} {wt : ℚ} {out' : Outcome}
    (h : Late x c (sliceSide c) g o im ns w b (.used q wt)) (hni : ¬ CutFraction c' (sliceSide c) g w' b')
    (h' : Late x c' (sliceSide c) g o' im' ns' w' b' out') :
    ∃ q' wt' psf psf', out' = .used q' wt' ∧ o.psf = some psf ∧ o'.psf = some psf' ∧
      buildCoaddWeight x.fwhm c.coaddingWeight w psf = .ok wt ∧
      buildCoaddWeight x.fwhm c'.coaddingWeight w' psf' = .ok wt' := by
  have hsp : c'.splineFlags = c.splineFlags := by rw [hl.rest]
  obtain ⟨v, y, l1, l2, -, l3⟩ := h
  obtain ⟨v', y', l1', l2', -, l3'⟩ := h'
  have le : ∀ r < sliceSide c, ∀ j < sliceSide c, (v'.px r j ≤ 0 → v.px r j ≤ 0) ∧
      (Carries (y'.px r j) c.splineFlags → Carries (y.px r j) c.splineFlags) := by
    intro r hr j hj
    cases hc : c.copyEdges with
    | true =>
      rw [hc] at l1
      rw [hl.edges hc, hsp] at l1'
      obtain ⟨e1, e2⟩ := copy_same hw hw' hs l1 l1' r hr j hj
      rw [e1, e2]
      exact ⟨id, id⟩
    | false =>
      rw [hc] at l1
      obtain ⟨rfl, rfl⟩ := l1.2.1 rfl
      rw [hsp] at l1'
      have := copy_le hw' l1' hr hj
      rwa [(hs r hr j hj).1, (hs r hr j hj).2] at this
  rcases l3 with ⟨-, f⟩ | ⟨n1, ⟨-, f⟩ | ⟨n2, im1, ns1, pm, fr, -, -, ⟨-, f⟩ | ⟨-, o1, wt1, psf, f, -, -, -, -, -, -, -, f2, -, -, -, f3⟩⟩⟩
  · cases f
  · cases f
  · cases f
  cases f
  rcases l3' with ⟨f, -⟩ | ⟨-, ⟨f, -⟩ | ⟨-, im2, ns2, pm2, fr2, g1, g2, ⟨g3, -⟩ | ⟨-, o2, wt2, psf2, g4, -, -, -, -, -, -, -, g5, -, -, -, g6⟩⟩⟩
  · rw [hsp] at f
    exact absurd (fullEdge_mono l2' l2 le f) n1
  · rw [hsp] at f
    exact absurd (tooMuchBad_mono le f) n2
  · refine absurd ?_ hni
    rw [← hl.side] at hw' g1 g2 ⊢
    exact retest hw' l1' g1 g2 g3
  · exact ⟨o2, wt2, psf, psf2, g4, f2, g5, f3, g6⟩

/-- With the same masks and weights a candidate is used whatever its pixels are. -/
theorem cand_same {x : Ext A σ} (hx : x.RotatesMore) {c : BuildCfg A} (hro : c.rejectOutliers = false)
    (hn : 1 ≤ sliceSide c) {k k' : Cand} (hk : PrepFacts c (sliceSide c) k)
    (hk' : PrepFacts c (sliceSide c) k') (hs : k.src.WellShaped) (hs' : k'.src.WellShaped)
    (h : MoreMasked k.src k'.src) (h' : MoreMasked k'.src k.src) {r r' u u' : σ} {o : Outcome} {q : SEObj} {wt : ℚ}
    (ho : processCand x c k r = .ok (o, u)) (ho' : processCand x c k' r' = .ok (.used q wt, u')) :
    ∃ q wt, o = .used q wt := by
  obtain ⟨d, w0, g, w, b, e, a1, a2, a3, a4, a5, a6⟩ := epoch_facts rfl hn hk hs rfl ho
  obtain ⟨d', w0', g', w', b', e', a1', a2', a3', a4', a5', a6'⟩ := epoch_facts rfl hn hk' hs' rfl ho'
  obtain ⟨m1, m2, m3, m4, m5⟩ := reads_more h a1.reads a1'.reads
  obtain ⟨m1', m2', -⟩ := reads_more h' a1'.reads a1.reads
  cases gaia_more h m3 m4 m5 a1.gaia a1'.gaia
  have t1 := a1.sym
  have t2 := a1'.sym
  rw [a1.weight hro] at t1
  rw [a1'.weight hro] at t2
  have hsq : d.weight.nrow = d.weight.ncol ∧ d.bmask.nrow = d.bmask.ncol := by
    obtain ⟨d2, v, f1, -, -, -, -, -, -, -, f2, -, f3⟩ := hk.data
    cases readsAs_unique a1.reads f1
    obtain ⟨-, f4, f5, -⟩ := f2 hs
    rw [f3 hro] at f4
    exact ⟨by rw [f4.1, f4.2], by rw [f5.1, f5.2]⟩
  obtain ⟨z1, z2⟩ := sym_more hx m1 m2 hsq.1 hsq.2 c.symmetrize _ _ t1 t2
  obtain ⟨z1', z2'⟩ := sym_more hx m1' m2' (by rw [m1.1, m1.2.1, hsq.1]) (by rw [m2.1, m2.2.1, hsq.2]) c.symmetrize _ _ t2 t1
  have same : ∀ r < sliceSide c, ∀ j < sliceSide c, w.px r j = w'.px r j ∧ b.px r j = b'.px r j := by
    intro r hr j hj
    constructor
    · rcases z1.2.2 r (by rw [a4.1]; exact hr) j (by rw [a4.2]; exact hj) with e | e
      · exact e.symm
      · rcases z1'.2.2 r (by rw [a4'.1]; exact hr) j (by rw [a4'.2]; exact hj) with e' | e'
        · exact e'
        · rw [e, e']
    · apply BitVec.eq_of_getLsbD_eq
      intro k hk
      rw [Bool.eq_iff_iff]
      exact ⟨z2.2.2 r (by rw [a5.1]; exact hr) j (by rw [a5.2]; exact hj) k hk,
        z2'.2.2 r (by rw [a5'.1]; exact hr) j (by rw [a5'.2]; exact hj) k hk⟩
  rcases a6' with ⟨-, -, f, a7, -⟩ | ⟨n1, -, l'⟩
  · cases a7
  rcases a6 with ⟨n2, -⟩ | ⟨n2, -, l⟩
  · exact absurd (initialCut_loose (.refl c) (fun e => by rw [h.psf, e]) a4' a4 same n2) n1
  · obtain ⟨q, wt, -, -, e, -⟩ := late_loose (.refl c) a4' a4 same l' (fun hf => n2 (.inr (.inr (.inl hf)))) l
    exact ⟨q, wt, e⟩

/-! ### all candidates -/

/-- An SE image that is used in the second place is used in the first. -/
def StillUsed (x : Ext A σ) (c : BuildCfg A) (Q : Src → Src → Prop) : Prop :=
  ∀ k k' : Cand, PrepFacts c (sliceSide c) k → PrepFacts c (sliceSide c) k' → k.src.WellShaped → k'.src.WellShaped →
    Q k.src k'.src → ∀ (r r' u u' : σ) (o : Outcome) (q : SEObj) (wt : ℚ), processCand x c k r = .ok (o, u) →
    processCand x c k' r' = .ok (.used q wt, u') → ∃ q wt, o = .used q wt

theorem processAll_more {x : Ext A σ} {c : BuildCfg A} {Q : Src → Src → Prop} (hQ : ∀ s s', Q s s' → MoreMasked s s')
    (step : StillUsed x c Q) {l l' : List Cand}
    (h : List.Forall₂ (fun k k' => Q k.src k'.src) l l')
    (hk : ∀ k ∈ l, PrepFacts c (sliceSide c) k ∧ k.src.WellShaped)
    (hk' : ∀ k ∈ l', PrepFacts c (sliceSide c) k ∧ k.src.WellShaped) {a a' : Inputs} {r r' : σ} {o o' : Inputs}
    (ho : processAll x c l a r = .ok o) (ho' : processAll x c l' a' r' = .ok o')
    (ha : (a'.slices.map (·.src.imageId)).Sublist (a.slices.map (·.src.imageId))) :
    (o'.slices.map (·.src.imageId)).Sublist (o.slices.map (·.src.imageId)) := by
  induction h generalizing a a' r r' with
  | nil =>
    cases ho
    cases ho'
    exact ha
  | cons h0 _ ih =>
    unfold processAll at ho ho'
    obtain ⟨⟨p, u⟩, h1, ho⟩ := bind_eq_ok.1 ho
    obtain ⟨⟨p', u'⟩, h1', ho'⟩ := bind_eq_ok.1 ho'
    refine ih (fun k hk0 => hk k (List.mem_cons_of_mem _ hk0)) (fun k hk0 => hk' k (List.mem_cons_of_mem _ hk0)) ho ho' ?_
    obtain ⟨b1, b2⟩ := hk _ List.mem_cons_self
    obtain ⟨b1', b2'⟩ := hk' _ List.mem_cons_self
    cases p' with
    | unused q f =>
      cases p with
      | unused q' f' => exact ha
      | used q' wt =>
        simp only [Inputs.add, List.map_append]
        exact ha.trans (List.sublist_append_left _ _)
    | used q wt =>
      obtain ⟨q', wt', rfl⟩ := step _ _ b1 b1' b2 b2' h0 _ _ _ _ _ _ _ h1 h1'
      simp only [Inputs.add, List.map_append, List.map_cons, List.map_nil]
      rw [(hQ _ _ h0).id]
      exact ha.append (List.Sublist.refl _)

theorem passes_more {c : BuildCfg A} {s s' : Src} (h : MoreMasked s s') : s'.Passes c ↔ s.Passes c := by
  unfold Src.Passes
  rw [h.flags, h.init, h.radec, h.pos, h.nrow, h.ncol]

open Classical in
theorem filter_more {c : BuildCfg A} {Q : Src → Src → Prop} (hQ : ∀ s s', Q s s' → MoreMasked s s') {l l' : List Src}
    (h : List.Forall₂ Q l l') :
    List.Forall₂ Q (l.filter fun s => decide (s.Passes c)) (l'.filter fun s => decide (s.Passes c)) := by
  induction h with
  | nil => exact .nil
  | @cons s s' _ _ h0 _ ih =>
    by_cases hp : s.Passes c
    · rw [List.filter_cons_of_pos (by simpa using hp), List.filter_cons_of_pos (by simpa using (passes_more (hQ _ _ h0)).2 hp)]
      exact .cons h0 ih
    · rw [List.filter_cons_of_neg (by simpa using hp),
        List.filter_cons_of_neg (by simpa using fun h => hp ((passes_more (hQ _ _ h0)).1 h))]
      exact ih

theorem build_more {x : Ext A σ} {c : BuildCfg A} (hro : c.rejectOutliers = false) {Q : Src → Src → Prop}
    (hQ : ∀ s s', Q s s' → MoreMasked s s') (step : StillUsed x c Q) {srcs srcs' : List Src}
    (h : List.Forall₂ Q srcs srcs') (hs : Sane x c srcs)
    (hs' : Sane x c srcs') {r r' : σ} {o o' : Inputs} (ho : buildSliceInputs x c srcs r = .ok o)
    (ho' : buildSliceInputs x c srcs' r' = .ok o') :
    (o'.slices.map (·.src.imageId)).Sublist (o.slices.map (·.src.imageId)) := by
  classical
  have hr : ∀ l : List Cand, rejectOutliers x c l = .ok l := by
    intro l
    unfold rejectOutliers
    rw [hro]
    rfl
  obtain ⟨ks, h1, h2⟩ := buildSliceInputs_ok hs.keeps hs.box hs.frac ho
  obtain ⟨ks', h1', h2'⟩ := buildSliceInputs_ok hs'.keeps hs'.box hs'.frac ho'
  obtain ⟨f1, f2⟩ := possibleSlices_facts hs.box hs.frac h1
  obtain ⟨f1', f2'⟩ := possibleSlices_facts hs'.box hs'.frac h1'
  have hm : List.Forall₂ (fun k k' : Cand => Q k.src k'.src) ks ks' := by
    have := filter_more (c := c) hQ h
    rw [← f1, ← f1', List.forall₂_map_left_iff, List.forall₂_map_right_iff] at this
    exact this
  rcases h2' with ⟨-, rfl⟩ | ⟨⟨k', hk', hp'⟩, cands', sl', wt', nu', fl', g1', g2', g3', g4', rfl, -⟩
  · exact List.nil_sublist _
  · rcases h2 with ⟨h2, rfl⟩ | ⟨-, cands, sl, wt, nu, fl, g1, g2, g3, g4, rfl, -⟩
    · exfalso
      obtain ⟨k, hk, hkk⟩ : ∃ k ∈ ks, Q k.src k'.src := by
        obtain ⟨j, hj, rfl⟩ := List.getElem_of_mem hk'
        have hl := hm.length_eq
        exact ⟨ks[j]'(by omega), List.getElem_mem _, hm.get (by omega) hj⟩
      have e1 := (f2 k hk).psfFlag
      have e2 := (f2' k' hk').psfFlag
      rw [(hQ _ _ hkk).psf, e1, h2 k hk, hp'] at e2
      cases e2
    · rw [hr] at g1 g1'
      cases g1
      cases g1'
      exact processAll_more (o := ⟨sl, wt, nu, fl⟩) (o' := ⟨sl', wt', nu', fl'⟩) hQ step hm
        (fun k hk => ⟨g4 k hk, hs.shape _ (mem_srcs hs h1 rfl hk)⟩)
        (fun k hk => ⟨g4' k hk, hs'.shape _ (mem_srcs hs' h1' rfl hk)⟩) g2 g2' (List.Sublist.refl _)

theorem slice_more {S : Type} {v : SliceEnv A σ S} {box psfBox : Nat} (hv : SoundEnv v box psfBox)
    (hro : v.cfg.rejectOutliers = false) {Q : Src → Src → Prop} (hQ : ∀ s s', Q s s' → MoreMasked s s')
    (step : ∀ row ∈ v.objects, ∀ gaia, StillUsed v.ext (cfgFor v row gaia) Q)
    (more : ℚ → ℚ → ℚ → ℚ → List Src) (hv' : SoundEnv { v with sources := more } box psfBox)
    (hm : ∀ ra dec raPsf decPsf, List.Forall₂ Q (v.sources ra dec raPsf decPsf) (more ra dec raPsf decPsf))
    {i seed seed' : Nat} {r r' : SliceRes Flt EpochRow} (h : coaddSingleSlice v i seed = .ok r)
    (h' : coaddSingleSlice { v with sources := more } i seed' = .ok r') :
    ((usedWeights r').map Prod.fst).Sublist ((usedWeights r).map Prod.fst) := by
  obtain ⟨row, lay, gaia, inp, g1, g2, g3, g4, g5⟩ := coaddSingleSlice_ok h
  obtain ⟨row', lay', gaia', inp', g1', g2', g3', g4', g5'⟩ := coaddSingleSlice_ok h'
  rw [show ({ v with sources := more } : SliceEnv A σ S).objects = v.objects from rfl, g1] at g1'
  cases g1'
  cases g2.symm.trans g2'
  cases g3.symm.trans (g3' : gaiaFor v row = _)
  have hr : row ∈ v.objects := List.mem_of_getElem? g1
  have x0 := hv.sane hr gaia row.ra row.dec lay.raPsf lay.decPsf
  have x1 := hv'.sane hr gaia row.ra row.dec lay.raPsf lay.decPsf
  have key := build_more (c := cfgFor v row gaia) hro hQ (step row hr gaia) (hm row.ra row.dec lay.raPsf lay.decPsf) x0 x1 g4 g4'
  have ids : ∀ {l : List ℤ} {ws : List ℚ}, ws.length = l.length → (l.zip ws).map Prod.fst = l := by
    intro l ws hl
    rw [List.map_fst_zip (by omega)]
  have u0 : usedWeights r = (inp.slices.map (·.src.imageId)).zip inp.weights :=
    used_pairs x0 hv.fwhm g4 (coaddChosen_pix g5).1
  have u1 : usedWeights r' = (inp'.slices.map (·.src.imageId)).zip inp'.weights :=
    used_pairs x1 hv.fwhm g4' (coaddChosen_pix g5').1
  rw [u0, u1, ids (l := inp'.slices.map _)
      (by rw [List.length_map]; exact (C49_weights _ _ _ _ inp' x1 (fun _ => hv.fwhm) g4').1),
    ids (by rw [List.length_map]; exact (C49_weights _ _ _ _ inp x0 (fun _ => hv.fwhm) g4).1)]
  exact key

/-- **C125** Without copying of masked edges and without rejection of outliers: with more masked no SE image is used
that was not used before. -/
theorem C125_slice {S : Type} {v : SliceEnv A σ S} {box psfBox : Nat} (hv : SoundEnv v box psfBox)
    (hx : v.ext.RotatesMore) (hro : v.cfg.rejectOutliers = false) (hce : v.cfg.copyEdges = false)
    (more : ℚ → ℚ → ℚ → ℚ → List Src) (hv' : SoundEnv { v with sources := more } box psfBox)
    (hm : ∀ ra dec raPsf decPsf, List.Forall₂ MoreMasked (v.sources ra dec raPsf decPsf) (more ra dec raPsf decPsf))
    {i seed seed' : Nat} {r r' : SliceRes Flt EpochRow} (h : coaddSingleSlice v i seed = .ok r)
    (h' : coaddSingleSlice { v with sources := more } i seed' = .ok r') :
    ((usedWeights r').map Prod.fst).Sublist ((usedWeights r).map Prod.fst) :=
  slice_more hv hro (fun _ _ h => h) (fun row hr gaia _ _ hk hk' hs hs' hq _ _ _ _ _ _ _ ho ho' =>
    cand_more hx (c := cfgFor v row gaia) hro hce
      (sliceSide_pos (hv.sane hr gaia 0 0 0 0).box (hv.sane hr gaia 0 0 0 0).frac).1 hk hk' hs hs' hq ho ho') more hv' hm h h'

theorem MoreMasked.symm {s s' : Src} (h : MoreMasked s s') (hb : s'.reads.bmask = s.reads.bmask)
    (hw : s'.reads.weight = s.reads.weight) : MoreMasked s' s :=
  ⟨h.flags.symm, h.init.symm, h.radec.symm, h.pos.symm, h.nrow.symm, h.ncol.symm, h.scale.symm, h.psf.symm,
    h.toCoadd.symm, h.id.symm, fun b b' h1 h2 => by
      rw [hb, h2] at h1
      cases h1
      exact ⟨rfl, rfl, fun _ _ _ _ _ _ h => h⟩, fun w w' h1 h2 => by
      rw [hw, h2] at h1
      cases h1
      exact ⟨rfl, rfl, fun _ _ _ _ => .inl rfl⟩⟩

theorem MoreBits.refl (b : Img (BitVec 32)) : MoreBits b b := ⟨rfl, rfl, fun _ _ _ _ _ _ h => h⟩

theorem MoreZeros.refl (w : Img ℚ) : MoreZeros w w := ⟨rfl, rfl, fun _ _ _ _ => .inl rfl⟩

theorem MoreMasked.refl (s : Src) : MoreMasked s s :=
  ⟨rfl, rfl, rfl, rfl, rfl, rfl, rfl, rfl, rfl, rfl, fun b b' h1 h2 => by
    rw [h1] at h2
    cases h2
    exact .refl b, fun w w' h1 h2 => by
    rw [h1] at h2
    cases h2
    exact .refl w⟩

/-- **C125** Which SE images are used does not depend on the values of their pixels, their noise fields or their
PSFs, other than by the flag of the PSF, also when masked edges are copied. -/
theorem C125_values {S : Type} {v : SliceEnv A σ S} {box psfBox : Nat} (hv : SoundEnv v box psfBox)
    (hx : v.ext.RotatesMore) (hro : v.cfg.rejectOutliers = false)
    (other : ℚ → ℚ → ℚ → ℚ → List Src) (hv' : SoundEnv { v with sources := other } box psfBox)
    (hm : ∀ ra dec raPsf decPsf, List.Forall₂ (fun s s' => MoreMasked s s' ∧ MoreMasked s' s)
      (v.sources ra dec raPsf decPsf) (other ra dec raPsf decPsf))
    {i seed seed' : Nat} {r r' : SliceRes Flt EpochRow} (h : coaddSingleSlice v i seed = .ok r)
    (h' : coaddSingleSlice { v with sources := other } i seed' = .ok r') :
    (usedWeights r').map Prod.fst = (usedWeights r).map Prod.fst := by
  have step : ∀ row ∈ v.objects, ∀ gaia, StillUsed v.ext (cfgFor v row gaia) fun s s' => MoreMasked s s' ∧ MoreMasked s' s :=
    fun row hr gaia _ _ hk hk' hs hs' hq _ _ _ _ _ _ _ ho ho' => cand_same hx (c := cfgFor v row gaia) hro
      (sliceSide_pos (hv.sane hr gaia 0 0 0 0).box (hv.sane hr gaia 0 0 0 0).frac).1 hk hk' hs hs' hq.1 hq.2 ho ho'
  have a := slice_more hv hro (fun _ _ h => h.1) step other hv' hm h h'
  have b := slice_more (v := { v with sources := other }) hv' hro (fun _ _ h => h.1) step v.sources hv
    (fun a b c d => List.Forall₂.flip ((hm a b c d).imp fun _ _ h => h.symm)) h' h
  exact a.antisymm b

/-! ### files -/

theorem bumpStep_more {m m' : Img (BitVec 32)} (h : MoreBits m m') (b : Bump) : MoreBits (bumpStep m b) (bumpStep m' b) := by
  refine ⟨h.1, h.2.1, fun r hr j hj k hk hb => ?_⟩
  have h0 := h.2.2 r hr j hj k hk
  revert hb
  simp only [bumpStep]
  split
  · simp only [BitVec.getLsbD_and, BitVec.getLsbD_or, Bool.and_eq_true, Bool.or_eq_true]
    rintro ⟨h1 | h1, h2⟩
    · exact ⟨.inl (h0 h1), h2⟩
    · exact ⟨.inr h1, h2⟩
  · exact h0

theorem setTapeBumps_more {m m' : Img (BitVec 32)} (h : MoreBits m m') (l : List Bump) :
    MoreBits (setTapeBumps l m) (setTapeBumps l m') := by
  unfold setTapeBumps
  induction l generalizing m m' with
  | nil => exact h
  | cons b l ih => exact ih (bumpStep_more h b)

variable {S P : Type} {w w' : ProcWorld A σ S P} {t : Tile A S P}

theorem MoreMaskedFiles.freshMask (h : MoreMaskedFiles w w' t) {e : Entry P} (he : e ∈ t.entries)
    {b b' : Img (BitVec 32)} (hb : Pizza.freshMask w t e = .ok b) (hb' : Pizza.freshMask w' t e = .ok b') :
    MoreBits b b' := by
  unfold Pizza.freshMask at hb hb'
  split at hb
  · cases hb
  · cases hb
  · rename_i m hm
    split at hb'
    · cases hb'
    · cases hb'
    · rename_i m' hm'
      have := h.mask e he m m' hm hm'
      split at hb
      · rename_i ht
        rw [if_pos ht] at hb'
        split at hb
        · rename_i n hn
          rw [hn] at hb'
          simp only [] at hb'
          cases hq : bumpsOf tapeBumps n with
          | error e => rw [hq] at hb; cases hb
          | ok l =>
            rw [hq] at hb hb'
            cases hb
            cases hb'
            exact setTapeBumps_more this l
        · cases hb
      · rename_i ht
        rw [if_neg ht] at hb'
        cases hb
        cases hb'
        exact this

theorem MoreMaskedFiles.src (h : MoreMaskedFiles w w' t) {e : Entry P} (he : e ∈ t.entries) (ra dec raPsf decPsf : ℚ) :
    MoreMasked (freshSrc w t ra dec raPsf decPsf e) (freshSrc w' t ra dec raPsf decPsf e) := by
  have hdisk : w'.disk = w.disk := by rw [h.world]
  unfold freshSrc
  rw [hdisk]
  cases hi : (seInit w.disk e.src e.offset t.wcs t.psf).out with
  | error x => exact .refl _
  | ok con =>
    refine ⟨rfl, rfl, ?_, rfl, rfl, rfl, ?_, ?_, ?_, rfl, fun b b' h1 h2 => h.freshMask he h1 h2, fun a a' h1 h2 => ?_⟩
    · show Except.ok _ = Except.ok _
      rw [h.world]
    · show w'.zpScale _ = w.zpScale _
      rw [h.world]
    · show freshFlag w' t e con.psf = freshFlag w t e con.psf
      rw [h.world]
      rfl
    · simp only []
      rw [h.world]
    · have h1 : (w.original e.weight).map Arr.asNum = .ok a := h1
      have h2 : (w'.original e.weight).map Arr.asNum = .ok a' := h2
      cases hx : w.original e.weight with
      | error x => rw [hx] at h1; cases h1
      | ok x =>
        cases hx' : w'.original e.weight with
        | error x => rw [hx'] at h2; cases h2
        | ok x' =>
          rw [hx] at h1
          rw [hx'] at h2
          cases h1
          cases h2
          exact h.weight e he x x' hx hx'

/-- **C125** The same for the files of a tile. -/
theorem C125_files {box psfBox : Nat} (h : MoreMaskedFiles w w' t) (hv : SoundEnv (freshEnv w t) box psfBox)
    (hv' : SoundEnv (freshEnv w' t) box psfBox) (hx : w.ext.RotatesMore) (hro : t.cfg.rejectOutliers = false)
    (hce : t.cfg.copyEdges = false) {i seed seed' : Nat} {r r' : SliceRes Flt EpochRow}
    (hr : coaddSingleSlice (freshEnv w t) i seed = .ok r) (hr' : coaddSingleSlice (freshEnv w' t) i seed' = .ok r') :
    ((usedWeights r').map Prod.fst).Sublist ((usedWeights r).map Prod.fst) := by
  have he : freshEnv w' t = { freshEnv w t with
      sources := fun ra dec raPsf decPsf => t.entries.map (freshSrc w' t ra dec raPsf decPsf) } := by
    unfold freshEnv
    rw [h.world]
  rw [he] at hv' hr'
  refine C125_slice hv hx hro hce _ hv' (fun ra dec raPsf decPsf => ?_) hr hr'
  show List.Forall₂ MoreMasked (t.entries.map _) (t.entries.map _)
  rw [List.forall₂_map_left_iff, List.forall₂_map_right_iff, List.forall₂_same]
  exact fun e he => h.src he ra dec raPsf decPsf

end
end Pizza
