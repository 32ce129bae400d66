import Verif.Lemmas.MaskedResample

/-! The same image and noise values from files that differ in pixels that are marked as bad. -/

namespace Pizza

variable {A σ : Type} {x : Ext A σ} {c : BuildCfg A} {rng : σ}

/-- An epoch and its weight: the same values. -/
def PairV (n : Nat) (p p' : Epoch × ℚ) : Prop := p.2 = p'.2 ∧ EpochR (UsedV n) p.1 p'.1

/-- The epochs used with their weights, all from the images `ids`. -/
structure AccOf (ids : List ℤ) (a : Inputs) : Prop where
  len : a.slices.length = a.weights.length
  mem : ∀ e ∈ a.slices, e.src.imageId ∈ ids

theorem AccOf.add {ids : List ℤ} {a : Inputs} (h : AccOf ids a) (s : Src) (r : Outcome) :
    AccOf (s.imageId :: ids) (a.add s r) := by
  cases r with
  | used o wt =>
    refine ⟨by simp [Inputs.add, h.len], fun e he => ?_⟩
    simp only [Inputs.add, List.mem_append, List.mem_singleton] at he
    rcases he with he | rfl
    · exact List.mem_cons_of_mem _ (h.mem e he)
    · exact List.mem_cons_self
  | unused o f => exact ⟨h.len, fun e he => List.mem_cons_of_mem _ (h.mem e he)⟩

theorem mem_zip_add {ids : List ℤ} {a : Inputs} (h : AccOf ids a) (s : Src) (r : Outcome)
    {p : Epoch × ℚ} (hp : p ∈ (a.add s r).slices.zip (a.add s r).weights) :
    (p ∈ a.slices.zip a.weights ∧ p.1.src.imageId ∈ ids) ∨ (p.1.src = s ∧ r = .used p.1.obj p.2) := by
  cases r with
  | used o wt =>
    simp only [Inputs.add] at hp
    rw [List.zip_append h.len, List.mem_append] at hp
    rcases hp with hp | hp
    · exact .inl ⟨hp, h.mem _ (List.of_mem_zip (a := p.1) (b := p.2) hp).1⟩
    · simp only [List.zip_cons_cons, List.zip_nil_right, List.mem_singleton] at hp
      subst hp
      exact .inr ⟨rfl, rfl⟩
  | unused o f => exact .inl ⟨hp, h.mem _ (List.of_mem_zip (a := p.1) (b := p.2) hp).1⟩

theorem processAll_vals {Z : Src → Nat → Nat → Prop} (hZ : ∀ s r j, Z s r j → Unseen c s r j)
    {l l' : List Cand} (h : List.Forall₂ (CandZ c Z) l l') {ids : List ℤ} {acc acc' : Inputs}
    (hnd : (l.map fun k => k.src.imageId).Nodup) (hdis : ∀ k ∈ l, k.src.imageId ∉ ids)
    (ha : AccOf ids acc) (ha' : AccOf ids acc')
    (hR : ∀ p ∈ acc.slices.zip acc.weights, ∀ p' ∈ acc'.slices.zip acc'.weights,
      p.1.src.imageId = p'.1.src.imageId → PairV (sliceSide c) p p') {out out' : Inputs}
    (ho : processAll x c l acc rng = .ok out) (ho' : processAll x c l' acc' rng = .ok out') :
    out.slices.length = out.weights.length ∧ out'.slices.length = out'.weights.length ∧
    ∀ p ∈ out.slices.zip out.weights, ∀ p' ∈ out'.slices.zip out'.weights,
      p.1.src.imageId = p'.1.src.imageId → PairV (sliceSide c) p p' := by
  induction h generalizing ids acc acc' rng with
  | nil =>
    rw [← Except.ok.inj ho, ← Except.ok.inj ho']
    exact ⟨ha.len, ha'.len, hR⟩
  | @cons k k' _ _ hk _ ih =>
    unfold processAll at ho ho'
    obtain ⟨⟨r, g⟩, hr, ho⟩ := bind_eq_ok.1 ho
    obtain ⟨⟨r', g'⟩, hr', ho'⟩ := bind_eq_ok.1 ho'
    obtain ⟨Zl, w, b, h1, h2⟩ := marked_hz hZ hk
    obtain ⟨hg, hv⟩ := processCand_vals h1 h2 hr hr'
    simp only at hg
    subst hg
    have hid : k'.src.imageId = k.src.imageId := by rw [h1.src]
    rw [List.map_cons, List.nodup_cons] at hnd
    have hnot : k.src.imageId ∉ ids := hdis k (by simp)
    refine ih (ids := k.src.imageId :: ids) hnd.2 (fun q hq hmem => ?_) (ha.add _ _) (by rw [← hid]; exact ha'.add _ _)
      (fun p hp p' hp' heq => ?_) ho ho'
    · rcases List.mem_cons.1 hmem with hm | hm
      · exact hnd.1 (by rw [← hm]; exact List.mem_map_of_mem hq)
      · exact hdis q (by simp [hq]) hm
    · rcases mem_zip_add ha _ _ hp with ⟨q1, q2⟩ | ⟨q1, q2⟩ <;>
      rcases mem_zip_add ha' _ _ hp' with ⟨q1', q2'⟩ | ⟨q1', q2'⟩
      · exact hR p q1 p' q1' heq
      · exfalso
        rw [q1', hid] at heq
        exact hnot (heq ▸ q2)
      · exfalso
        rw [q1] at heq
        exact hnot (heq ▸ q2')
      · obtain ⟨v1, v2⟩ := hv _ _ _ _ q2 q2'
        refine ⟨v1, ?_, v2⟩
        rw [q1, q1']
        exact h1.src

/-- Lists paired through a key. -/
theorem forall₂_of_key {α β : Type} {R : α → α → Prop} {f : α → β} {l l' : List α}
    (hk : l.map f = l'.map f) (h : ∀ a ∈ l, ∀ a' ∈ l', f a = f a' → R a a') : List.Forall₂ R l l' := by
  induction l generalizing l' with
  | nil =>
    cases l' with
    | nil => exact .nil
    | cons => simp at hk
  | cons a l ih =>
    cases l' with
    | nil => simp at hk
    | cons a' l' =>
      simp only [List.map_cons, List.cons.injEq] at hk
      exact .cons (h a (by simp) a' (by simp) hk.1)
        (ih hk.2 fun b hb b' hb' => h b (by simp [hb]) b' (by simp [hb']))

theorem rejectOff {k : List Cand} (hro : c.rejectOutliers = false) : rejectOutliers x c k = .ok k := by
  unfold rejectOutliers
  rw [hro]
  rfl

theorem possible_ids {l : List Src} {k : List Cand} (hc : 1 ≤ c.boxSize) (hf : 1 ≤ c.fracBuffer)
    (h : possibleSlices c l = .ok k) (hnd : (l.map (·.imageId)).Nodup) :
    (k.map fun k => k.src.imageId).Nodup := by
  classical
  have h1 := (possibleSlices_facts hc hf h).1
  have : (k.map fun k => k.src.imageId) = (k.map Cand.src).map (·.imageId) := by
    rw [List.map_map]; rfl
  rw [this, h1]
  exact hnd.sublist (List.Sublist.map _ List.filter_sublist)

theorem buildSliceInputs_vals {Z : Src → Nat → Nat → Prop} (hc : 1 ≤ c.boxSize)
    (hf : 1 ≤ c.fracBuffer) (hZ : ∀ s r j, Z s r j → Unseen c s r j)
    (hro : c.rejectOutliers = false) {l l' : List Src}
    (h : List.Forall₂ (fun s s' => SameBut (Z s) s s') l l') (hs : ∀ s ∈ l, s.WellShaped)
    (hnd : (l.map (·.imageId)).Nodup) {out out' : Inputs}
    (ho : buildSliceInputs x c l rng = .ok out) (ho' : buildSliceInputs x c l' rng = .ok out') :
    (∀ e ∈ out.slices, ∀ e' ∈ out'.slices, e.src.imageId = e'.src.imageId →
      EpochR (UsedV (sliceSide c)) e e') ∧
    (out.slices.map (·.src.imageId) = out'.slices.map (·.src.imageId) →
      List.Forall₂ (EpochR (UsedV (sliceSide c))) out.slices out'.slices ∧ out.weights = out'.weights) := by
  unfold buildSliceInputs at ho ho'
  obtain ⟨k, hk, ho⟩ := bind_eq_ok.1 ho
  obtain ⟨k', hk', ho'⟩ := bind_eq_ok.1 ho'
  have hkk : List.Forall₂ (CandZ c Z) k k' := by
    have hp := possibleSlices_rel hc hf h hs
    rw [hk, hk'] at hp
    exact hp.of_ok
  have hids := possible_ids hc hf hk hnd
  have hemp : k'.isEmpty = k.isEmpty := by
    clear hids hk hk' ho ho'
    cases hkk with
    | nil => rfl
    | cons _ _ => rfl
  have hall : k'.all (·.psfFlag) = k.all (·.psfFlag) := by
    clear hemp hids hk hk' ho ho'
    induction hkk with
    | nil => rfl
    | cons h _ ih =>
      obtain ⟨_, _, _, h1, _⟩ := h
      simp only [List.all_cons]
      rw [ih, h1.psfFlag]
  rw [hemp, hall] at ho'
  split at ho
  · rename_i hcond
    rw [if_pos hcond] at ho'
    rw [← Except.ok.inj ho, ← Except.ok.inj ho']
    exact ⟨by simp, fun _ => ⟨.nil, rfl⟩⟩
  · rename_i hcond
    rw [if_neg hcond] at ho'
    rw [rejectOff hro, ok_bind] at ho ho'
    obtain ⟨a, h1, ho⟩ := bind_eq_ok.1 ho
    obtain ⟨a', h1', ho'⟩ := bind_eq_ok.1 ho'
    obtain ⟨l1, l2, hR⟩ := processAll_vals (ids := []) hZ hkk hids (by simp) ⟨rfl, by simp⟩ ⟨rfl, by simp⟩
      (by simp) h1 h1'
    have hsl : out.slices = a.slices ∧ (out.weights = if a.weights.isEmpty then a.weights else
        a.weights.map (· / a.weights.sum)) := by
      split at ho
      · rename_i hw; rw [← Except.ok.inj ho]; simp [hw]
      · rename_i hw; rw [← Except.ok.inj ho]; simp [hw]
    have hsl' : out'.slices = a'.slices ∧ (out'.weights = if a'.weights.isEmpty then a'.weights else
        a'.weights.map (· / a'.weights.sum)) := by
      split at ho'
      · rename_i hw; rw [← Except.ok.inj ho']; simp [hw]
      · rename_i hw; rw [← Except.ok.inj ho']; simp [hw]
    rw [hsl.1, hsl'.1, hsl.2, hsl'.2]
    constructor
    · intro e he e' he' heq
      obtain ⟨i, hi, rfl⟩ := List.getElem_of_mem he
      obtain ⟨j, hj, rfl⟩ := List.getElem_of_mem he'
      have m1 : (a.slices[i], a.weights[i]'(by omega)) ∈ a.slices.zip a.weights := by
        rw [← List.getElem_zip (h := by rw [List.length_zip]; omega)]
        exact List.getElem_mem _
      have m2 : (a'.slices[j], a'.weights[j]'(by omega)) ∈ a'.slices.zip a'.weights := by
        rw [← List.getElem_zip (h := by rw [List.length_zip]; omega)]
        exact List.getElem_mem _
      exact (hR _ m1 _ m2 heq).2
    · intro hkey
      have e1 : (a.slices.zip a.weights).map Prod.fst = a.slices := List.map_fst_zip (by omega)
      have e1' : (a'.slices.zip a'.weights).map Prod.fst = a'.slices := List.map_fst_zip (by omega)
      have e2 : (a.slices.zip a.weights).map Prod.snd = a.weights := List.map_snd_zip (by omega)
      have e2' : (a'.slices.zip a'.weights).map Prod.snd = a'.weights := List.map_snd_zip (by omega)
      have hF := forall₂_of_key (R := PairV (sliceSide c)) (f := fun p => p.1.src.imageId)
        (l := a.slices.zip a.weights) (l' := a'.slices.zip a'.weights) (by
          rw [← e1, ← e1', List.map_map, List.map_map] at hkey
          exact hkey) hR
      have hw : a.weights = a'.weights := by
        rw [← e2, ← e2']
        refine List.forall₂_eq_eq_eq ▸ ?_
        rw [List.forall₂_map_left_iff, List.forall₂_map_right_iff]
        exact hF.imp fun _ _ h => h.1
      refine ⟨?_, by rw [hw]⟩
      rw [← e1, ← e1', List.forall₂_map_left_iff, List.forall₂_map_right_iff]
      exact hF.imp fun _ _ h => h.2

/-! ### resampling and stacking -/

theorem resample_vals {n : Nat} {o o' : SEObj} (h : UsedV n o o') {w : Lookups} {xs ys : ℚ}
    {box : Nat} {px py : ℚ} {pb : Nat} {r r' : Resampling}
    (hr : o.resample w xs ys box px py pb = .ok r) (hr' : o'.resample w xs ys box px py pb = .ok r') :
    r.psf = r'.psf ∧ r.image = r'.image ∧ r.noises = r'.noises ∧ r.bmask = r'.bmask := by
  obtain ⟨hf, im, im', ns, ns', e1, e2, e3, e4, hi, hn⟩ := h
  unfold SEObj.resample at hr hr'
  rw [← hf.boxSize, ← hf.psfBoxSize] at hr'
  cases hbx : o.boxSize with
  | none => rw [hbx] at hr; cases hr
  | some selfBox =>
  rw [hbx] at hr hr'
  cases hpb : o.psfBoxSize with
  | none => rw [hpb] at hr; cases hr
  | some psb =>
  rw [hpb] at hr hr'
  cases hpm : o.pmask with
  | none => rw [hpm] at hr; cases hr
  | some pm =>
  rw [hpm] at hr
  cases hpm' : o'.pmask with
  | none => rw [hpm'] at hr'; cases hr'
  | some pm' =>
  rw [hpm'] at hr'
  simp only at hr hr'
  unfold SEObj.resampleGo at hr hr'
  have hpsf : o'.resamplePsf w px py pb 0 0 = o.resamplePsf w px py pb 0 0 := by
    unfold SEObj.resamplePsf
    rw [hf.psfBoxSize, hf.psf, hf.psfXStart, hf.psfYStart]
  rw [hpsf, ← hf.xStart, ← hf.yStart, e2, e4, ← hf.bmask] at hr'
  rw [e1, e3] at hr
  simp only [attr_some, ok_bind] at hr hr'
  obtain ⟨psf, p1, hr⟩ := bind_eq_ok.1 hr
  obtain ⟨psf', p1', hr'⟩ := bind_eq_ok.1 hr'
  rw [p1] at p1'; cases p1'
  obtain ⟨sx, p2, hr⟩ := bind_eq_ok.1 hr
  obtain ⟨sx', p2', hr'⟩ := bind_eq_ok.1 hr'
  rw [p2] at p2'; cases p2'
  obtain ⟨sy, p3, hr⟩ := bind_eq_ok.1 hr
  obtain ⟨sy', p3', hr'⟩ := bind_eq_ok.1 hr'
  rw [p3] at p3'; cases p3'
  obtain ⟨rim, p4, hr⟩ := bind_eq_ok.1 hr
  obtain ⟨rim', p4', hr'⟩ := bind_eq_ok.1 hr'
  rw [resampleOne_congr hi, p4'] at p4; cases p4
  obtain ⟨rns, p5, hr⟩ := bind_eq_ok.1 hr
  obtain ⟨rns', p5', hr'⟩ := bind_eq_ok.1 hr'
  rw [resampleAll_congr hn, p5'] at p5; cases p5
  obtain ⟨_, _, hr⟩ := bind_eq_ok.1 hr
  obtain ⟨_, _, hr'⟩ := bind_eq_ok.1 hr'
  obtain ⟨_, _, hr⟩ := bind_eq_ok.1 hr
  obtain ⟨_, _, hr'⟩ := bind_eq_ok.1 hr'
  obtain ⟨_, _, hr⟩ := bind_eq_ok.1 hr
  obtain ⟨_, _, hr'⟩ := bind_eq_ok.1 hr'
  obtain ⟨_, _, hr⟩ := bind_eq_ok.1 hr
  obtain ⟨_, _, hr'⟩ := bind_eq_ok.1 hr'
  obtain ⟨_, _, hr⟩ := bind_eq_ok.1 hr
  obtain ⟨_, _, hr'⟩ := bind_eq_ok.1 hr'
  obtain ⟨bm, p6, hr⟩ := bind_eq_ok.1 hr
  obtain ⟨bm', p6', hr'⟩ := bind_eq_ok.1 hr'
  rw [p6] at p6'; cases p6'
  split at hr
  · cases hr
  split at hr'
  · cases hr'
  rw [← Except.ok.inj hr, ← Except.ok.inj hr']
  exact ⟨rfl, rfl, rfl, rfl⟩

/-- Resampled data with the same values. -/
def DataV (d d' : EpochData) : Prop :=
  d.psf = d'.psf ∧ d.image = d'.image ∧ d.noises = d'.noises ∧ d.bmask = d'.bmask

/-- If both can be resampled then with the same values. -/
def DataE (d d' : Except Err EpochData) : Prop := ∀ a a', d = .ok a → d' = .ok a' → DataV a a'

/-- Stacks with the same values. -/
def StackV (s s' : Stacks) : Prop :=
  s.image = s'.image ∧ s.noises = s'.noises ∧ s.psf = s'.psf ∧ s.ormask = s'.ormask

theorem stackStep_vals {st st' out out' : Stacks} {d d' : EpochData} {w : ℚ} (hs : StackV st st')
    (hd : DataV d d') (h : stackStep st d w = .ok out) (h' : stackStep st' d' w = .ok out') :
    StackV out out' := by
  obtain ⟨s1, s2, s3, s4⟩ := hs
  obtain ⟨d1, d2, d3, d4⟩ := hd
  unfold stackStep at h h'
  rw [← s1, ← s2, ← s3, ← s4, ← d1, ← d2, ← d3, ← d4] at h'
  obtain ⟨_, p1, h⟩ := bind_eq_ok.1 h
  obtain ⟨_, p1', h'⟩ := bind_eq_ok.1 h'
  rw [p1] at p1'; cases p1'
  obtain ⟨_, p2, h⟩ := bind_eq_ok.1 h
  obtain ⟨_, p2', h'⟩ := bind_eq_ok.1 h'
  rw [p2] at p2'; cases p2'
  obtain ⟨_, p3, h⟩ := bind_eq_ok.1 h
  obtain ⟨_, p3', h'⟩ := bind_eq_ok.1 h'
  obtain ⟨_, p4, h⟩ := bind_eq_ok.1 h
  obtain ⟨_, p4', h'⟩ := bind_eq_ok.1 h'
  rw [p4] at p4'; cases p4'
  obtain ⟨_, p5, h⟩ := bind_eq_ok.1 h
  obtain ⟨_, p5', h'⟩ := bind_eq_ok.1 h'
  rw [p5] at p5'; cases p5'
  obtain ⟨_, p6, h⟩ := bind_eq_ok.1 h
  obtain ⟨_, p6', h'⟩ := bind_eq_ok.1 h'
  rw [← Except.ok.inj h, ← Except.ok.inj h']
  exact ⟨rfl, rfl, rfl, rfl⟩

theorem stackAll_vals {ds ds' : List (Except Err EpochData)} (hd : List.Forall₂ DataE ds ds')
    (ws : List ℚ) {st st' out out' : Stacks} (hs : StackV st st')
    (h : stackAll st (ds.zip ws) = .ok out) (h' : stackAll st' (ds'.zip ws) = .ok out') :
    StackV out out' := by
  induction hd generalizing ws st st' with
  | nil =>
    rw [← Except.ok.inj h, ← Except.ok.inj h']
    exact hs
  | cons hd _ ih =>
    cases ws with
    | nil =>
      rw [← Except.ok.inj h, ← Except.ok.inj h']
      exact hs
    | cons w ws =>
      simp only [List.zip_cons_cons, stackAll] at h h'
      obtain ⟨d, q1, h⟩ := bind_eq_ok.1 h
      obtain ⟨d', q1', h'⟩ := bind_eq_ok.1 h'
      obtain ⟨t, q2, h⟩ := bind_eq_ok.1 h
      obtain ⟨t', q2', h'⟩ := bind_eq_ok.1 h'
      exact ih ws (stackStep_vals hs (hd _ _ q1 q1') q2 q2') h h'

theorem coadd_vals {box psfBox nExtra : Nat} {ds ds' : List (Except Err EpochData)}
    (hd : List.Forall₂ DataE ds ds') {ws : List ℚ} {co co' : Coadd}
    (h : coaddSliceInputs box psfBox nExtra ds ws = .ok co)
    (h' : coaddSliceInputs box psfBox nExtra ds' ws = .ok co') :
    co.image = co'.image ∧ co.noises = co'.noises ∧ co.psf = co'.psf ∧ co.ormask = co'.ormask ∧
      co.weight = co'.weight := by
  unfold coaddSliceInputs at h h'
  simp only at h h'
  split at h
  · cases h
  split at h'
  · cases h'
  split at h
  · cases h
  split at h'
  · cases h'
  obtain ⟨st, q1, h⟩ := bind_eq_ok.1 h
  obtain ⟨st', q1', h'⟩ := bind_eq_ok.1 h'
  obtain ⟨s1, s2, s3, s4⟩ := stackAll_vals hd _ ⟨rfl, rfl, rfl, rfl⟩ q1 q1'
  obtain ⟨nz, q2, h⟩ := bind_eq_ok.1 h
  obtain ⟨nz', q2', h'⟩ := bind_eq_ok.1 h'
  rw [s2, q2'] at q2
  cases q2
  rw [← Except.ok.inj h, ← Except.ok.inj h']
  exact ⟨s1, s2, s3, s4, rfl⟩

end Pizza
