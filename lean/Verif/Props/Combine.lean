import Verif.Props.Masked
import Verif.Props.Order
import Verif.Spec.Combine

/-!
C124: the coadd of all SE images is the mean of the coadds of parts of them.
-/

namespace Pizza

variable {A σ S P : Type}

/-! ### arrays -/

/-- The indices of an array in the order of its pixels. -/
def pixIdx (n m : Nat) : List (Nat × Nat) := (List.range n).flatMap fun r => (List.range m).map fun c => (r, c)

theorem values_idx {α : Type} (a : Img α) : a.values = (pixIdx a.nrow a.ncol).map fun p => a.px p.1 p.2 := by
  unfold Img.values pixIdx
  rw [List.map_flatMap]
  simp only [List.map_map]
  rfl

theorem values_zip {α β γ : Type} (g : α → β → γ) {a : Img α} {b : Img β} {l : Img γ} {n m : Nat} (a1 : a.nrow = n)
    (a2 : a.ncol = m) (b1 : b.nrow = n) (b2 : b.ncol = m) (l1 : l.nrow = n) (l2 : l.ncol = m)
    (h : ∀ r c, l.px r c = g (a.px r c) (b.px r c)) :
    a.values.length = b.values.length ∧ l.values = List.zipWith g a.values b.values := by
  rw [values_idx, values_idx, values_idx, a1, a2, b1, b2, l1, l2, List.zipWith_map_left, List.zipWith_map_right,
    List.zipWith_self]
  exact ⟨by simp, List.map_congr_left fun p _ => h p.1 p.2⟩

/-- The epochs with all weights multiplied. -/
def scaledEpochs (k : ℚ) (ps : List (EpochData × ℚ)) : List (EpochData × ℚ) := ps.map fun p => (p.1, k * p.2)

theorem sum_scaledEpochs (k : ℚ) (ps : List (EpochData × ℚ)) (f : EpochData → ℚ) :
    ((scaledEpochs k ps).map fun p => p.2 * f p.1).sum = k * (ps.map fun p => p.2 * f p.1).sum := by
  unfold scaledEpochs
  rw [List.map_map, ← List.sum_map_mul_left]
  congr 1
  refine List.map_congr_left fun p _ => ?_
  simp only [Function.comp_apply]
  ring

theorem normed_eq {ps : List (EpochData × ℚ)} (h : (ps.map Prod.snd).sum = 1) : normed ps = ps := by
  unfold normed
  rw [h]
  simp

/-- The coadds of two lists of epochs and that of all of them. -/
structure MixedCoadd (box psfBox nNoise : Nat) (α : ℚ) (a b c : Coadd) : Prop where
  image : ∀ x ∈ [a.image, b.image, c.image], x.nrow = box ∧ x.ncol = box
  imagePx : ∀ i j, c.image.px i j = α * a.image.px i j + (1 - α) * b.image.px i j
  frac : ∀ x ∈ [a.interpFrac, b.interpFrac, c.interpFrac], x.nrow = box ∧ x.ncol = box
  fracPx : ∀ i j, c.interpFrac.px i j = α * a.interpFrac.px i j + (1 - α) * b.interpFrac.px i j
  psf : ∀ x ∈ [a.psf, b.psf, c.psf], x.nrow = psfBox ∧ x.ncol = psfBox
  psfPx : ∀ i j, c.psf.px i j = α * a.psf.px i j + (1 - α) * b.psf.px i j
  bmask : ∀ x ∈ [a.bmask, b.bmask, c.bmask], x.nrow = box ∧ x.ncol = box
  bmaskPx : ∀ i j, c.bmask.px i j = a.bmask.px i j ||| b.bmask.px i j
  ormask : ∀ x ∈ [a.ormask, b.ormask, c.ormask], x.nrow = box ∧ x.ncol = box
  ormaskPx : ∀ i j, c.ormask.px i j = a.ormask.px i j ||| b.ormask.px i j
  noisesLen : a.noises.length = nNoise ∧ b.noises.length = nNoise ∧ c.noises.length = nNoise
  noises : ∀ k < nNoise, ∃ x y z, a.noises[k]? = some x ∧ b.noises[k]? = some y ∧ c.noises[k]? = some z ∧
    (∀ u ∈ [x, y, z], u.nrow = box ∧ u.ncol = box) ∧ ∀ i j, z.px i j = α * x.px i j + (1 - α) * y.px i j

theorem coadd_mix {box psfBox nExtra : Nat} {da db : List (Except Err EpochData)} {wa wb : List ℚ} {α : ℚ} {a b c : Coadd}
    (ha : coaddSliceInputs box psfBox nExtra da wa = .ok a) (hb : coaddSliceInputs box psfBox nExtra db wb = .ok b)
    (sa : wa.sum = 1) (sb : wb.sum = 1)
    (hc : coaddSliceInputs box psfBox nExtra (da ++ db) (wa.map (α * ·) ++ wb.map ((1 - α) * ·)) = .ok c) :
    MixedCoadd box psfBox (nExtra + 1) α a b c := by
  obtain ⟨pa, -, a1, rfl, -, sta, n0a, nsa, ha1, -, rfl⟩ := coadd_ok ha
  obtain ⟨pb, -, b1, rfl, -, stb, n0b, nsb, hb1, -, rfl⟩ := coadd_ok hb
  obtain ⟨pc, -, c1, c2, -, stc, n0c, nsc, hc1, -, rfl⟩ := coadd_ok hc
  have hpc : pc = scaledEpochs α pa ++ scaledEpochs (1 - α) pb := by
    rw [a1, b1, ← List.map_append] at c1
    have hl : pc.length = (scaledEpochs α pa ++ scaledEpochs (1 - α) pb).length := by
      have := congrArg List.length c1
      simpa [scaledEpochs] using this.symm
    have f1 : pc.map Prod.fst = (scaledEpochs α pa ++ scaledEpochs (1 - α) pb).map Prod.fst := by
      have e : (pa ++ pb).map Prod.fst = pc.map Prod.fst := by
        have := congrArg (List.map fun x : Except Err EpochData => match x with | .ok d => some d | .error _ => none) c1
        rw [List.map_map, List.map_map] at this
        have h3 : (fun x : Except Err EpochData => match x with | .ok d => some d | .error _ => none) ∘
            (fun p : EpochData × ℚ => (.ok p.1 : Except Err EpochData)) = some ∘ Prod.fst := rfl
        rw [h3, ← List.map_map, ← List.map_map] at this
        exact List.map_injective_iff.2 (Option.some_injective _) this
      rw [← e]
      simp [scaledEpochs, List.map_map, Function.comp_def]
    have f2 : pc.map Prod.snd = (scaledEpochs α pa ++ scaledEpochs (1 - α) pb).map Prod.snd := by
      rw [← c2]
      simp [scaledEpochs, List.map_map, Function.comp_def]
    rw [← List.zip_unzip pc, ← List.zip_unzip (scaledEpochs α pa ++ scaledEpochs (1 - α) pb)]
    rw [List.unzip_eq_map, List.unzip_eq_map]
    simp only
    rw [f1, f2]
  have hsum : (pc.map Prod.snd).sum = 1 := by
    rw [← c2, List.sum_append, List.sum_map_mul_left, List.sum_map_mul_left]
    simp only [List.map_id', sa, sb]
    ring
  rw [normed_eq sa] at ha1
  rw [normed_eq sb] at hb1
  rw [normed_eq hsum, hpc] at hc1
  have hs : ∀ f : EpochData → ℚ, ((scaledEpochs α pa ++ scaledEpochs (1 - α) pb).map fun p => p.2 * f p.1).sum =
      α * (pa.map fun p => p.2 * f p.1).sum + (1 - α) * (pb.map fun p => p.2 * f p.1).sum := by
    intro f
    rw [List.map_append, List.sum_append, sum_scaledEpochs, sum_scaledEpochs]
  have hm : ∀ f : EpochData → Prop, (∃ p ∈ scaledEpochs α pa ++ scaledEpochs (1 - α) pb, f p.1) ↔
      (∃ p ∈ pa, f p.1) ∨ ∃ p ∈ pb, f p.1 := by
    intro f
    simp [scaledEpochs, or_and_right, exists_or]
  have mk3 : ∀ {β : Type} {u v w : Img β} {n : Nat}, u.nrow = n → u.ncol = n → v.nrow = n → v.ncol = n → w.nrow = n →
      w.ncol = n → ∀ x ∈ [u, v, w], x.nrow = n ∧ x.ncol = n := by
    intro β u v w n h1 h2 h3 h4 h5 h6 x hx
    simp only [List.mem_cons, List.not_mem_nil, or_false] at hx
    rcases hx with rfl | rfl | rfl <;> exact ⟨by assumption, by assumption⟩
  obtain ⟨i1, i2, i3⟩ := ha1.image
  obtain ⟨i4, i5, i6⟩ := hb1.image
  obtain ⟨i7, i8, i9⟩ := hc1.image
  obtain ⟨f1, f2, f3⟩ := ha1.frac
  obtain ⟨f4, f5, f6⟩ := hb1.frac
  obtain ⟨f7, f8, f9⟩ := hc1.frac
  obtain ⟨p1, p2, p3⟩ := ha1.psf
  obtain ⟨p4, p5, p6⟩ := hb1.psf
  obtain ⟨p7, p8, p9⟩ := hc1.psf
  obtain ⟨m1, m2, m3⟩ := ha1.bmask
  obtain ⟨m4, m5, m6⟩ := hb1.bmask
  obtain ⟨m7, m8, m9⟩ := hc1.bmask
  obtain ⟨o1, o2, o3⟩ := ha1.ormask
  obtain ⟨o4, o5, o6⟩ := hb1.ormask
  obtain ⟨o7, o8, o9⟩ := hc1.ormask
  obtain ⟨n1, n2⟩ := ha1.noises
  obtain ⟨n3, n4⟩ := hb1.noises
  obtain ⟨n5, n6⟩ := hc1.noises
  refine ⟨mk3 i1 i2 i4 i5 i7 i8, fun i j => ?_, mk3 f1 f2 f4 f5 f7 f8, fun i j => ?_, mk3 p1 p2 p4 p5 p7 p8, fun i j => ?_,
    mk3 m1 m2 m4 m5 m7 m8, fun i j => ?_, mk3 o1 o2 o4 o5 o7 o8, fun i j => ?_, ⟨n1, n3, n5⟩, fun k hk => ?_⟩
  · rw [i9, i3, i6]
    exact hs fun d => d.image.px i j
  · rw [f9, f3, f6]
    exact hs fun d => clipFrac (d.interpFrac.px i j)
  · rw [p9, p3, p6]
    exact hs fun d => (d.psf.px i j).getD 0
  · refine BitVec.eq_of_getLsbD_eq fun l _ => ?_
    rw [BitVec.getLsbD_or, Bool.eq_iff_iff, Bool.or_eq_true, m9, m3, m6]
    exact hm fun d => (d.pmask.px i j).getLsbD l = true
  · refine BitVec.eq_of_getLsbD_eq fun l _ => ?_
    rw [BitVec.getLsbD_or, Bool.eq_iff_iff, Bool.or_eq_true, o9, o3, o6]
    exact hm fun d => (d.bmask.px i j).getLsbD l = true
  · obtain ⟨x, x1, x2, x3, x4⟩ := n2 k hk
    obtain ⟨y, y1, y2, y3, y4⟩ := n4 k hk
    obtain ⟨z, z1, z2, z3, z4⟩ := n6 k hk
    refine ⟨x, y, z, x1, y1, z1, mk3 x2 x3 y2 y3 z2 z3, fun i j => ?_⟩
    rw [x4, y4, z4]
    exact hs fun d => (d.noises[k]?).elim 0 fun b => b.px i j

theorem mixed_values {α : ℚ} {n : Nat} {a b c : Img ℚ} (h : ∀ x ∈ [a, b, c], x.nrow = n ∧ x.ncol = n)
    (hp : ∀ i j, c.px i j = α * a.px i j + (1 - α) * b.px i j) :
    MixedBy α (a.values.map .fin) (b.values.map .fin) (c.values.map .fin) := by
  have ha := h a (by simp)
  have hb := h b (by simp)
  have hc := h c (by simp)
  obtain ⟨h1, h2⟩ := values_zip (fun x y => α * x + (1 - α) * y) ha.1 ha.2 hb.1 hb.2 hc.1 hc.2 hp
  exact ⟨a.values, b.values, h1, rfl, rfl, by rw [h2]⟩

theorem joined_values {n : Nat} {a b c : Img (BitVec 32)} (h : ∀ x ∈ [a, b, c], x.nrow = n ∧ x.ncol = n)
    (hp : ∀ i j, c.px i j = a.px i j ||| b.px i j) :
    JoinedBy (a.values.map maskFlt) (b.values.map maskFlt) (c.values.map maskFlt) := by
  have ha := h a (by simp)
  have hb := h b (by simp)
  have hc := h c (by simp)
  obtain ⟨h1, h2⟩ := values_zip (fun x y => x ||| y) ha.1 ha.2 hb.1 hb.2 hc.1 hc.2 hp
  exact ⟨a.values, b.values, h1, rfl, rfl, by rw [h2]; rfl⟩

theorem MixedCoadd.pix {box psfBox nNoise : Nat} {α : ℚ} {a b c : Coadd} (h : MixedCoadd box psfBox nNoise α a b c)
    (s t u : ℚ) : Combined α (pixOf a s) (pixOf b t) (pixOf c u) where
  image := mixed_values h.image h.imagePx
  psf := mixed_values h.psf h.psfPx
  mfrac := mixed_values h.frac h.fracPx
  bmask := joined_values h.bmask h.bmaskPx
  ormask := joined_values h.ormask h.ormaskPx
  noises := by
    obtain ⟨h1, h2, h3⟩ := h.noisesLen
    refine ⟨by simp [pixOf, h1, h3], by simp [pixOf, h2, h3], fun k x y z hx hy hz => ?_⟩
    simp only [pixOf, List.getElem?_map, Option.map_eq_some_iff] at hx hy hz
    obtain ⟨x, hx, rfl⟩ := hx
    obtain ⟨y, hy, rfl⟩ := hy
    obtain ⟨z, hz, rfl⟩ := hz
    have hk : k < nNoise := by
      by_contra hk
      rw [List.getElem?_eq_none (by omega)] at hx
      cases hx
    obtain ⟨x', y', z', x1, y1, z1, h4, h5⟩ := h.noises k hk
    rw [hx] at x1
    rw [hy] at y1
    rw [hz] at z1
    cases x1; cases y1; cases z1
    exact mixed_values h4 h5

/-! ### the epochs -/

/-- The epoch that becomes of a candidate if it is used, with its weight before normalisation. -/
def usedBy (x : Ext A σ) (c : BuildCfg A) (rng : σ) (k : Cand) : Option (Epoch × ℚ) :=
  match processCand x c k rng with
  | .ok (.used o wt, _) => some (⟨k.src, o⟩, wt)
  | _ => none

/-- The epochs that are used of some sources. -/
def rawUsed (x : Ext A σ) (c : BuildCfg A) (rng : σ) (srcs : List Src) : List (Epoch × ℚ) :=
  match possibleSlices c srcs with
  | .ok ks => ks.filterMap (usedBy x c rng)
  | .error _ => []

theorem usedOf_mapM {x : Ext A σ} {c : BuildCfg A} {rng : σ} {ks : List Cand} {os : List (Src × Outcome)}
    (h : ks.mapM (outcomeOf x c rng) = .ok os) : usedOf os = ks.filterMap (usedBy x c rng) := by
  induction ks generalizing os with
  | nil => cases h; rfl
  | cons k ks ih =>
    rw [List.mapM_cons] at h
    obtain ⟨o, h1, h⟩ := bind_eq_ok.1 h
    obtain ⟨os', h2, h⟩ := bind_eq_ok.1 h
    cases h
    have ho : outcomeOf x c rng k = (processCand x c k rng).map fun p => (k.src, p.1) := rfl
    rw [ho] at h1
    rw [List.filterMap_cons, ← ih h2]
    unfold usedBy
    cases hp : processCand x c k rng with
    | error e => rw [hp] at h1; cases h1
    | ok p =>
      rw [hp] at h1
      cases h1
      obtain ⟨o, s⟩ := p
      cases o <;> simp [usedOf]

theorem usedBy_psf {x : Ext A σ} {c : BuildCfg A} {rng : σ} {k : Cand} (h : k.psfFlag = true) : usedBy x c rng k = none := by
  unfold usedBy processCand
  cases seGaiaMask c k.src k.obj with
  | error e => rfl
  | ok g =>
  simp only [ok_bind]
  cases attr k.obj.weight with
  | error e => rfl
  | ok w0 =>
  simp only [ok_bind]
  cases attr k.obj.bmask with
  | error e => rfl
  | ok b0 =>
  simp only [ok_bind]
  cases symmetrizeSlice x.rotate c.symmetrize g (c.splineFlags ||| c.noiseFlags) w0 b0 with
  | error e => rfl
  | ok wb =>
  simp only [ok_bind]
  cases edgeCut c.copyEdges wb.1 wb.2 c.splineFlags with
  | error e => rfl
  | ok skip =>
  simp only [ok_bind, h, Bool.or_true, if_true]
  rfl

theorem build_raw {x : Ext A σ} {c : BuildCfg A} {srcs : List Src} (hro : c.rejectOutliers = false)
    (hq : ∀ ks, possibleSlices c srcs = .ok ks → ∀ k ∈ ks, Quiet x c k) {rng : σ} (rng0 : σ) {out : Inputs}
    (h : buildSliceInputs x c srcs rng = .ok out) :
    out.slices = (rawUsed x c rng0 srcs).map Prod.fst ∧
      out.weights = (rawUsed x c rng0 srcs).map fun p => p.2 / ((rawUsed x c rng0 srcs).map Prod.snd).sum := by
  unfold buildSliceInputs at h
  obtain ⟨ks, h1, h⟩ := bind_eq_ok.1 h
  have hu : rawUsed x c rng0 srcs = ks.filterMap (usedBy x c rng0) := by
    unfold rawUsed
    rw [h1]
  rw [hu]
  split at h
  · rename_i he
    cases h
    have : ks.filterMap (usedBy x c rng0) = [] := by
      rw [List.filterMap_eq_nil_iff]
      intro k hk
      simp only [Bool.or_eq_true, List.isEmpty_iff, List.all_eq_true] at he
      rcases he with rfl | he
      · cases hk
      · exact usedBy_psf (he k hk)
    rw [this]
    exact ⟨rfl, rfl⟩
  · have hr : rejectOutliers x c ks = .ok ks := by
      unfold rejectOutliers
      rw [hro]
      rfl
    rw [hr, ok_bind, processAll_quiet (hq ks h1) {} rng rng0] at h
    cases hm : ks.mapM (outcomeOf x c rng0) with
    | error e => rw [hm] at h; cases h
    | ok os =>
      rw [hm] at h
      simp only [Except.map, ok_bind, foldl_add, List.nil_append] at h
      rw [usedOf_mapM hm] at h
      generalize ks.filterMap (usedBy x c rng0) = us at h ⊢
      split at h
      · rename_i he
        cases h
        simp only [List.isEmpty_iff, List.map_eq_nil_iff] at he
        subst he
        exact ⟨rfl, rfl⟩
      · cases h
        refine ⟨rfl, ?_⟩
        simp only [List.map_map]
        rfl

theorem rawUsed_append {x : Ext A σ} {c : BuildCfg A} {rng : σ} {a b : List Src} {ks : List Cand}
    (h : possibleSlices c (a ++ b) = .ok ks) : rawUsed x c rng (a ++ b) = rawUsed x c rng a ++ rawUsed x c rng b := by
  obtain ⟨k1, k2, h1, h2, rfl⟩ := possibleSlices_append.1 h
  unfold rawUsed
  rw [h, h1, h2]
  exact List.filterMap_append

theorem used_pairs {x : Ext A σ} {c : BuildCfg A} {srcs : List Src} {rng : σ} {out : Inputs} (hx : Sane x c srcs)
    (hfw : ∀ im v, x.fwhm im = .ok v → 0 < v) (h : buildSliceInputs x c srcs rng = .ok out) {id : ℤ}
    {rows : List EpochRow} (hr : makeEpochsInfo id out.weights out.slices out.notUsed out.flags = .ok rows) :
    (rows.filter fun e => decide (e.flags = 0)).map (fun e => (e.imageId, e.weight)) =
      (out.slices.map (·.src.imageId)).zip out.weights := by
  obtain ⟨rows', h1, h2, _, _, _, _, h3⟩ := C64_slice x c srcs rng out hx (fun _ => hfw) h id
  rw [hr] at h1
  cases h1
  obtain ⟨w1, -⟩ := C49_weights x c srcs rng out hx (fun _ => hfw) h
  have f1 := (C46_accounted x c srcs rng out hx h).2.2.2
  obtain ⟨a, b, k1, k2, -⟩ := makeEpochsInfo_rel (id := id) w1 f1
    (fun e he => (buildSliceInputs_place hx h e he).placed)
  cases hr.symm.trans k1
  have la : a.length = out.slices.length := by
    rw [← k2.length_eq, List.length_zip, w1, Nat.min_self]
  rw [filter_eq_take _ (a ++ b) out.slices.length fun k hk => by
    rw [decide_eq_true_iff]; exact (h3 k hk).1]
  rw [List.take_append_of_le_length la.ge, ← la, List.take_length]
  apply List.ext_getElem (by simp [w1, la])
  intro k g1 g2
  have hk : k < out.slices.length := by simpa [la] using g1
  have := (List.forall₂_iff_get.1 k2).2 k (by simpa [w1] using hk) (by simpa using g1)
  simp only [List.get_eq_getElem, List.getElem_zip] at this
  simp only [List.getElem_map, List.getElem_zip]
  rw [this.2.2.1, this.2.2.2.imageId]

/-! ### slices -/

/-- What a result says about its pixels and used epochs depends on these only. -/
theorem coaddChosen_used {v : SliceEnv A σ S} {row : ObjRow} {lay : PsfLayout} {i : Nat} {a b : Inputs}
    {r r' : SliceRes Flt EpochRow} (h : coaddChosen v row lay i a = .ok r) (h' : coaddChosen v row lay i b = .ok r')
    (h1 : a.slices = b.slices) (h2 : a.weights = b.weights) : r.pix = r'.pix ∧ r.weights = r'.weights := by
  unfold coaddChosen at h h'
  obtain ⟨e1, -, h⟩ := bind_eq_ok.1 h
  obtain ⟨e2, -, h'⟩ := bind_eq_ok.1 h'
  rw [h1, h2] at h
  split at h
  · rename_i hp
    rw [if_pos hp] at h'
    obtain ⟨co, n1, h⟩ := bind_eq_ok.1 h
    obtain ⟨sigma, n2, h⟩ := bind_eq_ok.1 h
    rw [n1, ok_bind, n2, ok_bind] at h'
    cases h
    cases h'
    exact ⟨rfl, rfl⟩
  · rename_i hp
    rw [if_neg hp] at h'
    cases h
    cases h'
    exact ⟨rfl, rfl⟩

theorem coaddChosen_pix {v : SliceEnv A σ S} {row : ObjRow} {lay : PsfLayout} {i : Nat} {a : Inputs}
    {r : SliceRes Flt EpochRow} (h : coaddChosen v row lay i a = .ok r) :
    makeEpochsInfo row.id a.weights a.slices a.notUsed a.flags = .ok r.epochs ∧ r.weights = a.weights ∧
      (a.weights = [] → r.pix = none) ∧ (a.weights ≠ [] → ∃ co sigma, coaddSliceInputs row.boxSize.toNat row.psfBoxSize.toNat
        v.nExtra (a.slices.map (resampleEpoch row lay)) a.weights = .ok co ∧ r.pix = some (pixOf co sigma)) := by
  unfold coaddChosen at h
  obtain ⟨e, e1, h⟩ := bind_eq_ok.1 h
  split at h
  · rename_i hp
    obtain ⟨co, n1, h⟩ := bind_eq_ok.1 h
    obtain ⟨sigma, n2, h⟩ := bind_eq_ok.1 h
    cases h
    exact ⟨e1, rfl, fun he => by rw [he] at hp; simp at hp, fun _ => ⟨co, sigma, n1, rfl⟩⟩
  · rename_i hp
    cases h
    refine ⟨e1, rfl, fun _ => rfl, fun hn => absurd (List.length_pos_iff.2 hn) hp⟩

/-- **C124** Divide the SE images of a slice into two parts.  If only one of them has images that can be used, the slice is
that of this part.  Otherwise there is a number `α` between 0 and 1 such that the image, the noise images, the PSF and the masked
fraction are, pixel by pixel, `α` times those of the one plus `1 - α` times those of the other part, the masks have the bits of both,
and the images used are those of both parts, with their weights multiplied by these numbers. -/
theorem C124_slice {v : SliceEnv A σ S} {box psfBox : Nat} (hv : SoundEnv v box psfBox)
    (hro : v.cfg.rejectOutliers = false)
    (hm : ∀ ra dec raPsf decPsf, ∀ s ∈ v.sources ra dec raPsf decPsf, ∀ bm, s.reads.bmask = .ok bm →
      Unflagged v.cfg.noiseFlags bm)
    (one two : ℚ → ℚ → ℚ → ℚ → List Src)
    (hp : ∀ ra dec raPsf decPsf,
      (v.sources ra dec raPsf decPsf).Perm (one ra dec raPsf decPsf ++ two ra dec raPsf decPsf))
    {i seed seed1 seed2 : Nat} {r r1 r2 : SliceRes Flt EpochRow} (h : coaddSingleSlice v i seed = .ok r)
    (h1 : coaddSingleSlice { v with sources := one } i seed1 = .ok r1)
    (h2 : coaddSingleSlice { v with sources := two } i seed2 = .ok r2) :
    (r1.pix = none → r.pix = r2.pix ∧ (usedWeights r).Perm (usedWeights r2)) ∧
    (r2.pix = none → r.pix = r1.pix ∧ (usedWeights r).Perm (usedWeights r1)) ∧
    ∀ p1 p2, r1.pix = some p1 → r2.pix = some p2 → ∃ p α, r.pix = some p ∧ 0 < α ∧ α < 1 ∧ Combined α p1 p2 p ∧
      (usedWeights r).Perm (scaleWeights α (usedWeights r1) ++ scaleWeights (1 - α) (usedWeights r2)) := by
  have hmem : ∀ a b c d s, s ∈ one a b c d ++ two a b c d → s ∈ v.sources a b c d := fun a b c d s hs =>
    (hp a b c d).mem_iff.2 hs
  have sub : ∀ f : ℚ → ℚ → ℚ → ℚ → List Src, (∀ a b c d s, s ∈ f a b c d → s ∈ v.sources a b c d) →
      SoundEnv { v with sources := f } box psfBox := fun f hf =>
    ⟨hv.boxPos, hv.psfOdd, hv.rows, hv.frac, fun a b c d s hs => hv.shape a b c d s (hf a b c d s hs),
      fun a b c d s hs => hv.noises a b c d s (hf a b c d s hs),
      fun a b c d s hs => hv.psf a b c d s (hf a b c d s hs), hv.keeps, hv.fwhm⟩
  have s0 := sub (fun a b c d => one a b c d ++ two a b c d) hmem
  have s1 := sub one fun a b c d s hs => hmem a b c d s (List.mem_append_left _ hs)
  have s2 := sub two fun a b c d s hs => hmem a b c d s (List.mem_append_right _ hs)
  obtain ⟨r0, h0, hr0⟩ := C123_slice hv hro hm (fun a b c d => one a b c d ++ two a b c d) hp h seed1
  obtain ⟨row, lay, gaia, inp, g1, g2, g3, g4, g5⟩ := coaddSingleSlice_ok h0
  obtain ⟨row', lay', gaia', inp1, k1, k2, k3, k4, k5⟩ := coaddSingleSlice_ok h1
  cases Option.some.inj (g1.symm.trans k1)
  cases Except.ok.inj (g2.symm.trans k2)
  cases Except.ok.inj ((show gaiaFor v row = .ok gaia from g3).symm.trans k3)
  obtain ⟨row', lay', gaia', inp2, l1, l2, l3, l4, l5⟩ := coaddSingleSlice_ok h2
  cases Option.some.inj (g1.symm.trans l1)
  cases Except.ok.inj (g2.symm.trans l2)
  cases Except.ok.inj ((show gaiaFor v row = .ok gaia from g3).symm.trans l3)
  have g4 : buildSliceInputs v.ext (cfgFor v row gaia) (one row.ra row.dec lay.raPsf lay.decPsf ++
    two row.ra row.dec lay.raPsf lay.decPsf) (v.seeded seed1) = .ok inp := g4
  have k4 : buildSliceInputs v.ext (cfgFor v row gaia) (one row.ra row.dec lay.raPsf lay.decPsf) (v.seeded seed1) = .ok inp1 := k4
  have l4 : buildSliceInputs v.ext (cfgFor v row gaia) (two row.ra row.dec lay.raPsf lay.decPsf) (v.seeded seed2) = .ok inp2 := l4
  have hr : row ∈ v.objects := List.mem_of_getElem? g1
  have x0 : Sane v.ext (cfgFor v row gaia) (one row.ra row.dec lay.raPsf lay.decPsf ++
    two row.ra row.dec lay.raPsf lay.decPsf) := s0.sane hr gaia row.ra row.dec lay.raPsf lay.decPsf
  have x1 : Sane v.ext (cfgFor v row gaia) (one row.ra row.dec lay.raPsf lay.decPsf) :=
    s1.sane hr gaia row.ra row.dec lay.raPsf lay.decPsf
  have x2 : Sane v.ext (cfgFor v row gaia) (two row.ra row.dec lay.raPsf lay.decPsf) :=
    s2.sane hr gaia row.ra row.dec lay.raPsf lay.decPsf
  have hm' := hm row.ra row.dec lay.raPsf lay.decPsf
  have hmem' := hmem row.ra row.dec lay.raPsf lay.decPsf
  obtain ⟨m1, m2⟩ := build_raw (c := cfgFor v row gaia) hro (quiet_of x0 fun s hs => hm' s (hmem' s hs)) (v.seeded 0) g4
  obtain ⟨m3, m4⟩ := build_raw (c := cfgFor v row gaia) hro
    (quiet_of x1 fun s hs => hm' s (hmem' s (List.mem_append_left _ hs))) (v.seeded 0) k4
  obtain ⟨m5, m6⟩ := build_raw (c := cfgFor v row gaia) hro
    (quiet_of x2 fun s hs => hm' s (hmem' s (List.mem_append_right _ hs))) (v.seeded 0) l4
  have happ : ∃ ks, possibleSlices (cfgFor v row gaia) (one row.ra row.dec lay.raPsf lay.decPsf ++
      two row.ra row.dec lay.raPsf lay.decPsf) = .ok ks := by
    unfold buildSliceInputs at g4
    obtain ⟨ks, h, -⟩ := bind_eq_ok.1 g4
    exact ⟨ks, h⟩
  obtain ⟨ks, hks⟩ := happ
  rw [rawUsed_append hks] at m1 m2
  obtain ⟨w1, w2⟩ := C49_weights v.ext _ _ _ inp x0 (fun _ => hv.fwhm) g4
  obtain ⟨w3, w4⟩ := C49_weights v.ext _ _ _ inp1 x1 (fun _ => hv.fwhm) k4
  obtain ⟨w5, w6⟩ := C49_weights v.ext _ _ _ inp2 x2 (fun _ => hv.fwhm) l4
  have c0 := coaddChosen_pix g5
  have c1 := coaddChosen_pix k5
  have c2 := coaddChosen_pix l5
  have u0 : usedWeights r0 = (inp.slices.map (·.src.imageId)).zip inp.weights := used_pairs x0 hv.fwhm g4 c0.1
  have u1 : usedWeights r1 = (inp1.slices.map (·.src.imageId)).zip inp1.weights := used_pairs x1 hv.fwhm k4 c1.1
  have u2 : usedWeights r2 = (inp2.slices.map (·.src.imageId)).zip inp2.weights := used_pairs x2 hv.fwhm l4 c2.1
  have ur : (usedWeights r).Perm (usedWeights r0) := ((hr0.epochs.symm.filter _).map _)
  have up : r.pix = r0.pix := hr0.pix.symm
  rw [up]
  have none1 : r1.pix = none → inp1.weights = [] := fun hn => by
    by_contra he
    obtain ⟨co, sigma, -, e⟩ := c1.2.2.2 he
    rw [hn] at e
    cases e
  have none2 : r2.pix = none → inp2.weights = [] := fun hn => by
    by_contra he
    obtain ⟨co, sigma, -, e⟩ := c2.2.2.2 he
    rw [hn] at e
    cases e
  generalize rawUsed v.ext (cfgFor v row gaia) (v.seeded 0) (one row.ra row.dec lay.raPsf lay.decPsf) = ua at *
  generalize rawUsed v.ext (cfgFor v row gaia) (v.seeded 0) (two row.ra row.dec lay.raPsf lay.decPsf) = ub at *
  refine ⟨fun hn => ?_, fun hn => ?_, fun p1 p2 e1 e2 => ?_⟩
  · have hw := none1 hn
    rw [m4, List.map_eq_nil_iff] at hw
    subst hw
    rw [List.nil_append] at m1 m2
    have q1 : inp.slices = inp2.slices := by rw [m1, m5]
    have q2 : inp.weights = inp2.weights := by rw [m2, m6]
    refine ⟨?_, ?_⟩
    · exact (coaddChosen_used (v := v) g5 l5 q1 q2).1
    · rw [u2, ← q1, ← q2, ← u0]
      exact ur
  · have hw := none2 hn
    rw [m6, List.map_eq_nil_iff] at hw
    subst hw
    rw [List.append_nil] at m1 m2
    have q1 : inp.slices = inp1.slices := by rw [m1, m3]
    have q2 : inp.weights = inp1.weights := by rw [m2, m4]
    refine ⟨?_, ?_⟩
    · exact (coaddChosen_used (v := v) g5 k5 q1 q2).1
    · rw [u1, ← q1, ← q2, ← u0]
      exact ur
  · have n1 : inp1.weights ≠ [] := fun he => by rw [c1.2.2.1 he] at e1; cases e1
    have n2 : inp2.weights ≠ [] := fun he => by rw [c2.2.2.1 he] at e2; cases e2
    have na : ua ≠ [] := fun he => n1 (by rw [m4, he]; rfl)
    have nb : ub ≠ [] := fun he => n2 (by rw [m6, he]; rfl)
    obtain ⟨-, sum1⟩ := w4 (by rw [m3]; simpa using na)
    obtain ⟨-, sum2⟩ := w6 (by rw [m5]; simpa using nb)
    obtain ⟨pos, sum0⟩ := w2 (by rw [m1]; simp [na])
    have hsa : ∀ us : List (Epoch × ℚ), ∀ T : ℚ, (us.map fun p => p.2 / T).sum = (us.map Prod.snd).sum / T := by
      intro us T
      simp only [div_eq_mul_inv]
      rw [List.sum_map_mul_right]
    rw [m4, hsa] at sum1
    rw [m6, hsa] at sum2
    rw [m2, hsa] at sum0
    rw [m2] at pos
    have hT : ((ua ++ ub).map Prod.snd).sum = (ua.map Prod.snd).sum + (ub.map Prod.snd).sum := by
      rw [List.map_append, List.sum_append]
    rw [hT] at sum0 pos m2
    generalize hA : (ua.map Prod.snd).sum = a at *
    generalize hB : (ub.map Prod.snd).sum = b at *
    have a0 : a ≠ 0 := fun e => by rw [e] at sum1; norm_num at sum1
    have b0 : b ≠ 0 := fun e => by rw [e] at sum2; norm_num at sum2
    have ab0 : a + b ≠ 0 := fun e => by rw [e] at sum0; norm_num at sum0
    have pa : 0 < a / (a + b) := by
      rw [← hA, ← hsa]
      refine List.sum_pos _ ?_ (by simpa using na)
      intro y hy
      obtain ⟨q, hq, rfl⟩ := List.mem_map.1 hy
      rw [hA]
      exact pos _ (List.mem_map.2 ⟨q, List.mem_append_left _ hq, rfl⟩)
    have pb : 0 < b / (a + b) := by
      rw [← hB, ← hsa]
      refine List.sum_pos _ ?_ (by simpa using nb)
      intro y hy
      obtain ⟨q, hq, rfl⟩ := List.mem_map.1 hy
      rw [hB]
      exact pos _ (List.mem_map.2 ⟨q, List.mem_append_right _ hq, rfl⟩)
    have hone : 1 - a / (a + b) = b / (a + b) := by
      field_simp
      ring
    have hw : inp.weights = inp1.weights.map (a / (a + b) * ·) ++ inp2.weights.map ((1 - a / (a + b)) * ·) := by
      rw [m2, m4, m6, List.map_append, List.map_map, List.map_map, hone]
      congr 1
      · refine List.map_congr_left fun q _ => ?_
        simp only [Function.comp_apply]
        field_simp
      · refine List.map_congr_left fun q _ => ?_
        simp only [Function.comp_apply]
        field_simp
    have hs : inp.slices = inp1.slices ++ inp2.slices := by rw [m1, m3, m5, List.map_append]
    have n0 : inp.weights ≠ [] := by
      rw [hw]
      simp [n1]
    obtain ⟨co, sigma, d1, d2⟩ := c0.2.2.2 n0
    obtain ⟨co1, sigma1, d3, d4⟩ := c1.2.2.2 n1
    obtain ⟨co2, sigma2, d5, d6⟩ := c2.2.2.2 n2
    rw [e1, Option.some.injEq] at d4
    rw [e2, Option.some.injEq] at d6
    subst d4 d6
    rw [hs, hw, List.map_append] at d1
    have t1 : inp1.weights.sum = 1 := by rw [m4, hsa, hA]; exact sum1
    have t2 : inp2.weights.sum = 1 := by rw [m6, hsa, hB]; exact sum2
    refine ⟨pixOf co sigma, a / (a + b), d2, pa, by rw [← hone] at pb; linarith, (coadd_mix d3 d5 t1 t2 d1).pix _ _ _, ?_⟩
    refine ur.trans (List.Perm.of_eq ?_)
    rw [u0, u1, u2, hs, hw, List.map_append, List.zip_append (by simp [w3])]
    unfold scaleWeights
    congr 1 <;> rw [List.zip_map_right] <;> rfl

/-! ### that the parts succeed -/

theorem mapM_sublist {α β : Type} {f : α → Except Err β} {l l' : List α} (h : l'.Sublist l) {out : List β}
    (ho : l.mapM f = .ok out) : ∃ out', l'.mapM f = .ok out' ∧ out'.Sublist out := by
  induction h generalizing out with
  | slnil => exact ⟨out, ho, List.Sublist.refl _⟩
  | cons a _ ih =>
    rw [List.mapM_cons] at ho
    obtain ⟨b, -, ho⟩ := bind_eq_ok.1 ho
    obtain ⟨bs, h2, ho⟩ := bind_eq_ok.1 ho
    cases ho
    obtain ⟨o, h3, h4⟩ := ih h2
    exact ⟨o, h3, h4.cons b⟩
  | cons_cons a _ ih =>
    rw [List.mapM_cons] at ho
    obtain ⟨b, h1, ho⟩ := bind_eq_ok.1 ho
    obtain ⟨bs, h2, ho⟩ := bind_eq_ok.1 ho
    cases ho
    obtain ⟨o, h3, h4⟩ := ih h2
    exact ⟨b :: o, by rw [List.mapM_cons, h1, ok_bind, h3]; rfl, h4.cons_cons b⟩

theorem sublist_flatten {α : Type} {l l' : List (List α)} (h : l'.Sublist l) : l'.flatten.Sublist l.flatten := by
  induction h with
  | slnil => exact List.Sublist.refl _
  | cons a _ ih => exact ih.trans (List.sublist_append_right _ _)
  | cons_cons a _ ih => exact ih.append_left a

theorem build_part {x : Ext A σ} {c : BuildCfg A} {srcs part : List Src} (hro : c.rejectOutliers = false)
    (hq : ∀ ks, possibleSlices c srcs = .ok ks → ∀ k ∈ ks, Quiet x c k) (hp : part.Sublist srcs) {rng : σ} (rng' : σ)
    {out : Inputs} (h : buildSliceInputs x c srcs rng = .ok out) : ∃ out', buildSliceInputs x c part rng' = .ok out' ∧
      out'.slices.Sublist out.slices := by
  have hr : ∀ l : List Cand, rejectOutliers x c l = .ok l := by
    intro l
    unfold rejectOutliers
    rw [hro]
    rfl
  obtain ⟨ks, hks⟩ : ∃ ks, possibleSlices c srcs = .ok ks := by
    unfold buildSliceInputs at h
    obtain ⟨ks, h, -⟩ := bind_eq_ok.1 h
    exact ⟨ks, h⟩
  obtain ⟨kp, hkp, hsub⟩ : ∃ kp, possibleSlices c part = .ok kp ∧ kp.Sublist ks := by
    rw [possibleSlices_eq] at hks ⊢
    cases hm : srcs.mapM (roughCut c) with
    | error e => rw [hm] at hks; cases hks
    | ok a =>
      rw [hm] at hks
      cases hks
      obtain ⟨o, h1, h2⟩ := mapM_sublist hp hm
      rw [h1]
      exact ⟨_, rfl, sublist_flatten h2⟩
  have q1 := hq ks hks
  have q2 : ∀ k ∈ kp, Quiet x c k := fun k hk => q1 k (hsub.subset hk)
  have hout : ∃ out', buildSliceInputs x c part rng' = .ok out' := by
    unfold buildSliceInputs at h ⊢
    rw [hks, ok_bind] at h
    rw [hkp, ok_bind]
    split
    · exact ⟨_, rfl⟩
    · rename_i hn
      rw [hr, ok_bind, processAll_quiet q2 {} rng' rng]
      have hn' : ¬ (ks.isEmpty || ks.all (·.psfFlag)) = true := by
        intro hc
        apply hn
        simp only [Bool.or_eq_true, List.isEmpty_iff, List.all_eq_true] at hc ⊢
        rcases hc with rfl | hc
        · exact .inl (List.sublist_nil.1 hsub)
        · exact .inr fun k hk => hc k (hsub.subset hk)
      rw [if_neg hn', hr, ok_bind, processAll_quiet q1 {} rng rng] at h
      cases hm : ks.mapM (outcomeOf x c rng) with
      | error e => rw [hm] at h; cases h
      | ok os =>
        obtain ⟨o, h1, -⟩ := mapM_sublist hsub hm
        rw [h1]
        simp only [Except.map, ok_bind]
        split <;> exact ⟨_, rfl⟩
  obtain ⟨out', ho⟩ := hout
  refine ⟨out', ho, ?_⟩
  rw [(build_raw hro hq rng h).1, (build_raw hro (fun k hk => by rw [hkp] at hk; cases hk; exact q2) rng ho).1]
  refine List.Sublist.map _ ?_
  unfold rawUsed
  rw [hks, hkp]
  exact hsub.filterMap _

theorem coadd_lookups {v : SliceEnv A σ S} {row : ObjRow} {lay : PsfLayout} {i : Nat} {a : Inputs}
    {r : SliceRes Flt EpochRow} (h : coaddChosen v row lay i a = .ok r) (hl : a.weights.length = a.slices.length) :
    ∀ e ∈ a.slices, e.HasLookups := by
  intro e he
  by_contra hn
  have hne : a.weights ≠ [] := by
    intro hw
    rw [hw, List.length_nil] at hl
    rw [List.length_eq_zero_iff.1 hl.symm] at he
    cases he
  obtain ⟨co, sigma, h1, -⟩ := (coaddChosen_pix h).2.2.2 hne
  obtain ⟨ps, -, h2, -⟩ := coadd_ok h1
  have : resampleEpoch row lay e ∈ ps.map fun p => (.ok p.1 : Except Err EpochData) := by
    rw [← h2]
    exact List.mem_map_of_mem he
  obtain ⟨p, -, hp⟩ := List.mem_map.1 this
  obtain ⟨y, hy⟩ := not_hasLookups.1 hn
  unfold resampleEpoch at hp
  rw [hy] at hp
  cases hp

/-- **C124** If the slice of all SE images succeeds, so does that of a part of them, unless the width of its PSF
cannot be measured. -/
theorem C124_parts {v : SliceEnv A σ S} {box psfBox : Nat} (hv : SoundEnv v box psfBox)
    (hro : v.cfg.rejectOutliers = false)
    (hm : ∀ ra dec raPsf decPsf, ∀ s ∈ v.sources ra dec raPsf decPsf, ∀ bm, s.reads.bmask = .ok bm →
      Unflagged v.cfg.noiseFlags bm)
    (part : ℚ → ℚ → ℚ → ℚ → List Src)
    (hp : ∀ ra dec raPsf decPsf, (part ra dec raPsf decPsf).Sublist (v.sources ra dec raPsf decPsf))
    {i seed : Nat} {r : SliceRes Flt EpochRow} (h : coaddSingleSlice v i seed = .ok r) (seed' : Nat) :
    (∃ r', coaddSingleSlice { v with sources := part } i seed' = .ok r') ∨
      ∃ im e, v.ext.fwhm im = .error e ∧ coaddSingleSlice { v with sources := part } i seed' = .error e := by
  have s1 : SoundEnv { v with sources := part } box psfBox :=
    ⟨hv.boxPos, hv.psfOdd, hv.rows, hv.frac, fun a b c d s hs => hv.shape a b c d s ((hp a b c d).subset hs),
      fun a b c d s hs => hv.noises a b c d s ((hp a b c d).subset hs),
      fun a b c d s hs => hv.psf a b c d s ((hp a b c d).subset hs), hv.keeps, hv.fwhm⟩
  obtain ⟨row, lay, gaia, inp, g1, g2, g3, g4, g5⟩ := coaddSingleSlice_ok h
  have hr : row ∈ v.objects := List.mem_of_getElem? g1
  have x0 := hv.sane hr gaia row.ra row.dec lay.raPsf lay.decPsf
  obtain ⟨inp', k1, k2⟩ := build_part (c := cfgFor v row gaia) hro (quiet_of x0 (hm _ _ _ _))
    (hp row.ra row.dec lay.raPsf lay.decPsf) (v.seeded seed') g4
  have hl := coadd_lookups g5 (C49_weights v.ext _ _ _ inp x0 (fun _ => hv.fwhm) g4).1
  have ho : objRow v.objects i = .ok row := by unfold objRow; rw [g1]
  have hc : coaddSingleSlice { v with sources := part } i seed' = coaddChosen { v with sources := part } row lay i inp' := by
    unfold coaddSingleSlice
    simp only []
    rw [ho, ok_bind, g2, ok_bind]
    show ((gaiaFor v row) >>= _) = _
    rw [g3, ok_bind]
    show ((buildSliceInputs v.ext (cfgFor v row gaia) (part row.ra row.dec lay.raPsf lay.decPsf)
      (v.seeded seed')) >>= _) = _
    rw [k1, ok_bind]
  rw [hc]
  obtain ⟨-, rows, -, c1, c2⟩ := coaddChosen_ok s1 hr (gaia := gaia) (lay := lay) (rng := v.seeded seed') (inp := inp') k1
  by_cases he : inp'.slices = []
  · exact .inl ⟨_, c1 he i⟩
  · obtain ⟨-, -, c3, -⟩ := c2 he
    obtain ⟨ds, co, -, -, -, c4⟩ := c3 fun e he => hl e (k2.subset he)
    have c4 := c4 i
    cases hf : v.ext.fwhm co.psf with
    | error e =>
      rw [show ({ v with sources := part } : SliceEnv A σ S).ext = v.ext from rfl, hf] at c4
      exact .inr ⟨co.psf, e, hf, c4⟩
    | ok sg =>
      rw [show ({ v with sources := part } : SliceEnv A σ S).ext = v.ext from rfl, hf] at c4
      exact .inl ⟨_, c4⟩

/-- **C124** The same for the SE images of a tile. -/
theorem C124_tile {w : ProcWorld A σ S P} {t : Tile A S P} {box psfBox : Nat}
    (hv : SoundEnv (freshEnv w t) box psfBox) (hro : t.cfg.rejectOutliers = false)
    (hm : ∀ e ∈ t.entries, ∀ bm, freshMask w t e = .ok bm → Unflagged t.cfg.noiseFlags bm)
    {one two : List (Entry P)} (hp : t.entries.Perm (one ++ two)) {i seed seed1 seed2 : Nat}
    {r r1 r2 : SliceRes Flt EpochRow} (h : coaddSingleSlice (freshEnv w t) i seed = .ok r)
    (h1 : coaddSingleSlice (freshEnv w { t with entries := one }) i seed1 = .ok r1)
    (h2 : coaddSingleSlice (freshEnv w { t with entries := two }) i seed2 = .ok r2) :
    (r1.pix = none → r.pix = r2.pix ∧ (usedWeights r).Perm (usedWeights r2)) ∧
    (r2.pix = none → r.pix = r1.pix ∧ (usedWeights r).Perm (usedWeights r1)) ∧
    ∀ p1 p2, r1.pix = some p1 → r2.pix = some p2 → ∃ p α, r.pix = some p ∧ 0 < α ∧ α < 1 ∧ Combined α p1 p2 p ∧
      (usedWeights r).Perm (scaleWeights α (usedWeights r1) ++ scaleWeights (1 - α) (usedWeights r2)) := by
  refine C124_slice hv hro ?_ (fun ra dec raPsf decPsf => one.map (freshSrc w t ra dec raPsf decPsf))
    (fun ra dec raPsf decPsf => two.map (freshSrc w t ra dec raPsf decPsf))
    (fun ra dec raPsf decPsf => by rw [← List.map_append]; exact hp.map _) h h1 h2
  intro ra dec raPsf decPsf s hs bm hb
  obtain ⟨e, he, rfl⟩ := List.mem_map.1 hs
  cases hc : (seInit w.disk e.src e.offset t.wcs t.psf).out with
  | error x =>
    obtain ⟨hr, -⟩ := freshSrc_error (w := w) (t := t) (e := e) ra dec raPsf decPsf hc
    rw [hr] at hb
    cases hb
  | ok con =>
    unfold freshSrc at hb
    rw [hc] at hb
    exact hm e he bm hb

end Pizza
