import Verif.Lemmas.MaskedCand

/-! The rough cut and the loops over the sources for two sets of files that differ only in `Z`. -/

namespace Pizza

section
variable {Z : Nat → Nat → Prop} {s s' : Src}

theorem SameBut.fields (h : SameBut Z s s') :
    s'.imageFlags = s.imageFlags ∧ s'.init = s.init ∧ s'.containsRadec = s.containsRadec ∧
    s'.pos = s.pos ∧ s'.nrow = s.nrow ∧ s'.ncol = s.ncol ∧ s'.scale = s.scale ∧ s'.psfX = s.psfX ∧
    s'.psfY = s.psfY ∧ s'.psfFlag = s.psfFlag ∧ s'.psfImage = s.psfImage ∧
    s'.reads.bmask = s.reads.bmask ∧ s'.reads.weight = s.reads.weight := by
  have := h.rest
  refine ⟨?_, ?_, ?_, ?_, ?_, ?_, ?_, ?_, ?_, ?_, ?_, ?_, ?_⟩ <;> rw [this]

theorem SameBut.keep (h : SameBut Z s s') : s' = { s with reads := s'.reads } := by
  have h1 := h.rest
  have h2 : s'.reads = { s.reads with
    image := s'.reads.image, bkg := s'.reads.bkg, noises := s'.reads.noises } :=
    (congrArg Src.reads h1 :)
  rw [h2]
  exact h1

theorem slice_px {α : Type} {n : Nat} (a : Img α) {r c : ℤ} (hr : 0 ≤ r) (hr' : r + n ≤ a.nrow)
    (hc : 0 ≤ c) (hc' : c + n ≤ a.ncol) (i j : Nat) :
    (a.slice r (r + n) c (c + n)).px i j = a.px (r.toNat + i) (c.toNat + j) := by
  unfold Img.slice pySliceIdx
  simp only
  rw [if_neg (by omega), if_neg (by omega)]
  congr 2 <;> omega

theorem slice_agree {α : Type} {n nrow ncol : Nat} {a a' : Img α} (h : SameOff Z a a') {r c : ℤ}
    (ha : a.nrow = nrow ∧ a.ncol = ncol) (hr : 0 ≤ r) (hr' : r + n ≤ nrow)
    (hc : 0 ≤ c) (hc' : c + n ≤ ncol) :
    AgreeOff n (fun i j => Z (r.toNat + i) (c.toNat + j)) (a.slice r (r + n) c (c + n))
      (a'.slice r (r + n) c (c + n)) := by
  obtain ⟨rfl, rfl⟩ := ha
  refine ⟨slice_sq a ⟨rfl, rfl⟩ hr hr' hc hc', slice_sq a' ⟨h.1, h.2.1⟩ hr hr' hc hc',
    fun i hi j hj hz => ?_⟩
  rw [slice_px a hr hr' hc hc', slice_px a' hr (by rw [h.1]; exact hr') hc (by rw [h.2.1]; exact hc')]
  exact (h.2.2 _ (by omega) _ (by omega) hz).symm

theorem setSlice_rel {n : Nat} (h : SameBut Z s s') (hs : s.WellShaped) (B : Bounds ℤ)
    (hr : 0 ≤ B.rowmin) (hr' : B.rowmin + n ≤ s.nrow) (hc : 0 ≤ B.colmin)
    (hc' : B.colmin + n ≤ s.ncol) (hbx : B.colmax - B.colmin + 1 = n)
    (hby : B.rowmax - B.rowmin + 1 = n) :
    (∃ o o' e, ({} : SEObj).setSlice s.reads s.scale B = (o, some e) ∧
      ({} : SEObj).setSlice s'.reads s.scale B = (o', some e)) ∨
    ∃ o o' bm wf w b, ({} : SEObj).setSlice s.reads s.scale B = (o, none) ∧
      ({} : SEObj).setSlice s'.reads s.scale B = (o', none) ∧ ObjFix o o' ∧
      ValR n (fun i j => Z (B.rowmin.toNat + i) (B.colmin.toNat + j)) o o' ∧
      o.weight = some w ∧ o.bmask = some b ∧ w.Sq n ∧ b.Sq n ∧
      s.reads.bmask = .ok bm ∧ s.reads.weight = .ok wf ∧ ∀ i < n, ∀ j < n,
        b.px i j = bm.px (B.rowmin.toNat + i) (B.colmin.toNat + j) ∧
        w.px i j = wf.px (B.rowmin.toNat + i) (B.colmin.toNat + j) / s.scale ^ 2 := by
  obtain ⟨_, _, _, _, _, _, _, _, _, _, _, fb, fw⟩ := h.fields
  obtain ⟨w1, w2, w3, w4⟩ := hs
  unfold SEObj.setSlice
  simp only
  rw [hbx, hby, if_neg (by simp), if_neg (by simp), fb, fw]
  rcases h.image with ⟨e, e1, e2⟩ | ⟨im, im', e1, e2, hi⟩
  · rw [e1, e2]; exact .inl ⟨_, _, e, rfl, rfl⟩
  rcases h.bkg with ⟨e, e3, e4⟩ | ⟨bk, bk', e3, e4, hk⟩
  · rw [e1, e2, e3, e4]; exact .inl ⟨_, _, e, rfl, rfl⟩
  rw [e1, e2, e3, e4]
  simp only
  rw [hi.1, hi.2.1, hk.1, hk.2.1]
  by_cases hsh : im.nrow ≠ bk.nrow ∨ im.ncol ≠ bk.ncol
  · rw [if_pos hsh, if_pos hsh]; exact .inl ⟨_, _, _, rfl, rfl⟩
  rw [if_neg hsh, if_neg hsh]
  push Not at hsh
  cases hb : s.reads.bmask with
  | error e => exact .inl ⟨_, _, e, rfl, rfl⟩
  | ok bm =>
  cases hw : s.reads.weight with
  | error e => exact .inl ⟨_, _, e, rfl, rfl⟩
  | ok wf =>
  rcases h.noises with ⟨e, e5, e6⟩ | ⟨ns, ns', e5, e6, hn⟩
  · rw [e5, e6]; exact .inl ⟨_, _, e, rfl, rfl⟩
  rw [e5, e6]
  right
  have hsw := w3 wf hw
  have hsb := w2 bm hb
  have hsi := w1 im e1
  refine ⟨_, _, bm, wf, _, _, rfl, rfl, ⟨rfl, rfl, rfl, rfl, rfl, rfl, rfl, rfl, rfl⟩,
    ⟨_, _, _, _, rfl, rfl, rfl, rfl, ?_, ?_⟩, rfl, rfl, slice_sq wf hsw hr hr' hc hc',
    slice_sq bm hsb hr hr' hc hc', rfl, rfl, fun i hi j hj => ⟨?_, ?_⟩⟩
  · have hd : SameOff Z (⟨im.nrow, im.ncol, fun r c => im.px r c - bk.px r c⟩ : Img ℚ)
        ⟨im.nrow, im.ncol, fun r c => im'.px r c - bk'.px r c⟩ := by
      refine ⟨rfl, rfl, fun r hr c hc hz => ?_⟩
      simp only at hr hc ⊢
      rw [hi.2.2 r hr c hc hz, hk.2.2 r (by rw [← hsh.1]; exact hr) c (by rw [← hsh.2]; exact hc) hz]
    have := slice_agree hd hsi hr hr' hc hc'
    refine ⟨this.1, this.2.1, fun i hi j hj hz => ?_⟩
    simp only [Img.map]
    rw [this.2.2 i hi j hj hz]
  · rw [List.forall₂_map_left_iff, List.forall₂_map_right_iff]
    have hall := w4 ns e5
    rw [List.forall₂_iff_get] at hn ⊢
    refine ⟨hn.1, fun i h1 h2 => ?_⟩
    exact slice_agree (hn.2 i h1 h2) (hall _ (List.get_mem _ _)) hr hr' hc hc'
  · exact slice_px bm hr (by rw [hsb.1]; exact hr') hc (by rw [hsb.2]; exact hc') i j
  · simp only [Img.map]
    rw [slice_px wf hr (by rw [hsw.1]; exact hr') hc (by rw [hsw.2]; exact hc') i j]

variable {A : Type} {c : BuildCfg A}

/-- Two candidates from files that differ in `Z`. -/
def CandZ (c : BuildCfg A) (Z : Src → Nat → Nat → Prop) (k k' : Cand) : Prop :=
  ∃ Zl w b, CandR (sliceSide c) Zl w b k k' ∧ ∀ i < sliceSide c, ∀ j < sliceSide c, Zl i j →
    ∃ r q bm wf, InCutOut c k.src r q ∧ Z k.src r q ∧ k.src.reads.bmask = .ok bm ∧
      b.px i j = bm.px r q ∧ k.src.reads.weight = .ok wf ∧ w.px i j = wf.px r q / k.src.scale ^ 2

theorem setPsf_rel {n : Nat} {Zl : Nat → Nat → Prop} {o o' : SEObj} {x y : ℚ}
    {flag : Except Err Bool} {psf : Except Err (Img ℚ)} (hf : ObjFix o o') (hv : ValR n Zl o o') :
    (o.setPsf x y flag psf).2 = (o'.setPsf x y flag psf).2 ∧
    ObjFix (o.setPsf x y flag psf).1 (o'.setPsf x y flag psf).1 ∧
    ValR n Zl (o.setPsf x y flag psf).1 (o'.setPsf x y flag psf).1 ∧
    (o.setPsf x y flag psf).1.weight = o.weight ∧ (o.setPsf x y flag psf).1.bmask = o.bmask := by
  unfold SEObj.setPsf
  cases flag with
  | error e => exact ⟨rfl, hf, hv, rfl, rfl⟩
  | ok flag =>
    cases psf with
    | error e => exact ⟨rfl, hf, hv, rfl, rfl⟩
    | ok im =>
      simp only
      cases psfStampBounds x y im.nrow with
      | error e => exact ⟨rfl, hf, hv, rfl, rfl⟩
      | ok p =>
        obtain ⟨a, b⟩ := p
        exact ⟨rfl, ⟨hf.xStart, hf.yStart, hf.boxSize, hf.bmask, hf.weight, rfl, rfl, rfl, rfl⟩,
          hv, rfl, rfl⟩

theorem roughCut_rel {Z : Src → Nat → Nat → Prop} (hc : 1 ≤ c.boxSize) (hf : 1 ≤ c.fracBuffer)
    (h : SameBut (Z s) s s') (hs : s.WellShaped) :
    ExR (List.Forall₂ (CandZ c Z)) (roughCut c s) (roughCut c s') := by
  obtain ⟨f1, f2, f3, f4, f5, f6, f7, f8, f9, f10, f11, f12, f13⟩ := h.fields
  unfold roughCut
  rw [f1, f2, f3, f4, f5, f6, f7, f8, f9, f10, f11]
  split
  swap
  · exact .ok .nil
  refine ExR.same fun _ _ => ExR.same fun inside _ => ?_
  split
  swap
  · exact .ok .nil
  refine ExR.same fun p hp => ?_
  simp only
  split
  swap
  · exact .ok .nil
  rename_i hcc
  have hin := (roughCut_passes_iff hc hf).1 hcc
  have hside := sliceSide_pos hc hf
  set B := computeSliceBounds p.1 p.2 c.boxSize c.fracBuffer with hB
  have hbx : B.colmax - B.colmin + 1 = sliceSide c := by
    rw [hside.2, hB]; simp only [computeSliceBounds]; ring
  have hby : B.rowmax - B.rowmin + 1 = sliceSide c := by
    rw [hside.2, hB]; simp only [computeSliceBounds]; ring
  have q1 := hin B.rowmin B.colmin B rfl le_rfl (by omega) le_rfl (by omega)
  have q2 := hin B.rowmax B.colmax B rfl (by omega) le_rfl (by omega) le_rfl
  have r1 : 0 ≤ B.rowmin := by omega
  have r2 : B.rowmin + (sliceSide c : Nat) ≤ s.nrow := by omega
  have r3 : 0 ≤ B.colmin := by omega
  have r4 : B.colmin + (sliceSide c : Nat) ≤ s.ncol := by omega
  rcases setSlice_rel h hs B r1 r2 r3 r4 hbx hby with ⟨o, o', e, e1, e2⟩ |
    ⟨o, o', bm, wf, w, b, e1, e2, hfix, hval, hw, hb, sw, sb, rb, rw', hpx⟩
  · rw [e1, e2]; exact .error e
  · rw [e1, e2]
    simp only
    obtain ⟨g1, g2, g3, g4, g5⟩ := setPsf_rel (x := s.psfX) (y := s.psfY) (flag := s.psfFlag)
      (psf := s.psfImage) hfix hval
    rw [g1]
    refine ExR.same fun flag _ => .ok (.cons ?_ .nil)
    refine ⟨_, w, b, ⟨h.keep, rfl, g2, g3, by rw [← hw]; exact g4, by rw [← hb]; exact g5, sw, sb⟩,
      fun i hi j hj hz => ⟨_, _, bm, wf, ?_, hz, rb, (hpx i hi j hj).1, rw', (hpx i hi j hj).2⟩⟩
    refine ⟨p.1, p.2, B, hp, rfl, ?_, ?_, ?_, ?_⟩ <;> push_cast <;> omega

theorem possibleSlices_rel {Z : Src → Nat → Nat → Prop} (hc : 1 ≤ c.boxSize) (hf : 1 ≤ c.fracBuffer)
    {l l' : List Src} (h : List.Forall₂ (fun s s' => SameBut (Z s) s s') l l')
    (hs : ∀ s ∈ l, s.WellShaped) :
    ExR (List.Forall₂ (CandZ c Z)) (possibleSlices c l) (possibleSlices c l') := by
  induction h with
  | nil => exact .ok .nil
  | cons h _ ih =>
    unfold possibleSlices
    refine (roughCut_rel hc hf h (hs _ (by simp))).bind fun a a' ha => ?_
    refine (ih fun s hs' => hs s (by simp [hs'])).bind fun t t' ht => ?_
    exact .ok (List.rel_append ha ht)

end

variable {A σ : Type} {x : Ext A σ} {c : BuildCfg A} {rng : σ}

/-- Two epochs that are resampled and reported alike. -/
def EpochR (P : SEObj → SEObj → Prop) (e e' : Epoch) : Prop :=
  e'.src = { e.src with reads := e'.src.reads } ∧ P e.obj e'.obj

/-- The same selection with slices that are resampled alike. -/
structure InputsR (n : Nat) (a a' : Inputs) : Prop where
  slices : List.Forall₂ (EpochR (UsedR n)) a.slices a'.slices
  weights : a.weights = a'.weights
  notUsed : List.Forall₂ (EpochR ObjFix) a.notUsed a'.notUsed
  flags : a.flags = a'.flags

theorem flagged_hz {Z : Src → Nat → Nat → Prop} (hZ : ∀ s r j, Z s r j → Hidden c s r j)
    {k k' : Cand} (h : CandZ c Z k k') : ∃ Zl w b, CandR (sliceSide c) Zl w b k k' ∧
      ∀ i < sliceSide c, ∀ j < sliceSide c, Zl i j → Carries (b.px i j) c.noiseFlags ∨
        (c.copyEdges = false ∧ Carries (b.px i j) c.splineFlags) := by
  obtain ⟨Zl, w, b, h1, h2⟩ := h
  refine ⟨Zl, w, b, h1, fun i hi j hj hz => ?_⟩
  obtain ⟨r, q, bm, wf, hin, hzz, hb, e1, _, _⟩ := h2 i hi j hj hz
  rcases hZ _ _ _ hzz with hn | ⟨bm', hb', hcar⟩
  · exact (hn hin).elim
  · rw [hb] at hb'
    cases hb'
    rwa [e1]

theorem marked_hz {Z : Src → Nat → Nat → Prop} (hZ : ∀ s r j, Z s r j → Unseen c s r j)
    {k k' : Cand} (h : CandZ c Z k k') : ∃ Zl w b, CandR (sliceSide c) Zl w b k k' ∧
      ∀ i < sliceSide c, ∀ j < sliceSide c, Zl i j →
        Unusable w b (c.splineFlags ||| c.noiseFlags) (i, j) := by
  obtain ⟨Zl, w, b, h1, h2⟩ := h
  refine ⟨Zl, w, b, h1, fun i hi j hj hz => ?_⟩
  obtain ⟨r, q, bm, wf, hin, hzz, hb, e1, hw, e2⟩ := h2 i hi j hj hz
  rcases hZ _ _ _ hzz with hn | ⟨bm', hb', hcar⟩ | ⟨w', hw', hle⟩
  · exact (hn hin).elim
  · rw [hb] at hb'
    cases hb'
    right
    simp only
    rw [e1]
    rcases hcar with ⟨t, ht, t1, t2⟩ | ⟨t, ht, t1, t2⟩
    · exact ⟨t, ht, t1, by rw [BitVec.getLsbD_or, t2, Bool.or_true]⟩
    · exact ⟨t, ht, t1, by rw [BitVec.getLsbD_or, t2, Bool.true_or]⟩
  · rw [hw] at hw'
    cases hw'
    left
    simp only
    rw [e2]
    exact div_nonpos_of_nonpos_of_nonneg hle (sq_nonneg _)

theorem processAll_rel {Z : Src → Nat → Nat → Prop} (hZ : ∀ s r j, Z s r j → Hidden c s r j)
    {l l' : List Cand} (h : List.Forall₂ (CandZ c Z) l l') {acc acc' : Inputs}
    (ha : InputsR (sliceSide c) acc acc') :
    ExR (InputsR (sliceSide c)) (processAll x c l acc rng) (processAll x c l' acc' rng) := by
  induction h generalizing acc acc' rng with
  | nil => exact .ok ha
  | cons h _ ih =>
    unfold processAll
    obtain ⟨Zl, w, b, h1, h2⟩ := flagged_hz hZ h
    refine (processCand_rel h1 h2).bind fun r r' hr => ?_
    obtain ⟨r, g⟩ := r
    obtain ⟨r', g'⟩ := r'
    obtain ⟨rfl, hr⟩ := hr
    refine ih ?_
    cases r with
    | used o wt =>
      cases r' with
      | unused _ _ => exact hr.elim
      | used o' wt' =>
        obtain ⟨rfl, hr⟩ := hr
        exact ⟨List.rel_append ha.slices (.cons ⟨h1.src, hr⟩ .nil), by simp only [Inputs.add, ha.weights],
          ha.notUsed, ha.flags⟩
    | unused o f =>
      cases r' with
      | used _ _ => exact hr.elim
      | unused o' f' =>
        obtain ⟨rfl, hr⟩ := hr
        exact ⟨ha.slices, ha.weights, List.rel_append ha.notUsed (.cons ⟨h1.src, hr⟩ .nil),
          by simp only [Inputs.add, ha.flags]⟩

theorem buildSliceInputs_rel {Z : Src → Nat → Nat → Prop} (hc : 1 ≤ c.boxSize)
    (hf : 1 ≤ c.fracBuffer) (hZ : ∀ s r j, Z s r j → Hidden c s r j)
    (hro : c.rejectOutliers = false) {l l' : List Src}
    (h : List.Forall₂ (fun s s' => SameBut (Z s) s s') l l') (hs : ∀ s ∈ l, s.WellShaped) :
    ExR (InputsR (sliceSide c)) (buildSliceInputs x c l rng) (buildSliceInputs x c l' rng) := by
  unfold buildSliceInputs
  refine (possibleSlices_rel hc hf h hs).bind fun k k' hk => ?_
  have hemp : k'.isEmpty = k.isEmpty := by cases hk <;> rfl
  have hall : k'.all (·.psfFlag) = k.all (·.psfFlag) := by
    clear hemp
    induction hk with
    | nil => rfl
    | cons h _ ih =>
      obtain ⟨_, _, _, h1, _⟩ := h
      simp only [List.all_cons]
      rw [ih, h1.psfFlag]
  rw [hemp, hall]
  split
  · exact .ok ⟨.nil, rfl, .nil, rfl⟩
  · unfold rejectOutliers
    rw [hro]
    simp only [Bool.false_eq_true, if_false]
    change ExR _ ((processAll x c k {} rng) >>= _) ((processAll x c k' {} rng) >>= _)
    refine (processAll_rel hZ hk ⟨.nil, rfl, .nil, rfl⟩).bind fun a a' ha => ?_
    rw [ha.weights]
    split
    · exact .ok ha
    · exact .ok ⟨ha.slices, rfl, ha.notUsed, ha.flags⟩

end Pizza
