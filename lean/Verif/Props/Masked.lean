import Verif.Lemmas.MaskedVals

/-! C120: what is stored under a mask never reaches the coadd. -/

namespace Pizza

variable {A σ S : Type}

theorem SameEnv.sound {Z : Src → Nat → Nat → Prop} {v v' : SliceEnv A σ S} {box psfBox : Nat}
    (h : SameEnv Z v v') (hs : SoundEnv v box psfBox) : SoundEnv v' box psfBox := by
  have hback : ∀ {ra dec a b s'}, s' ∈ v'.sources ra dec a b →
      ∃ s ∈ v.sources ra dec a b, SameBut (Z s) s s' := by
    intro ra dec a b s' hs'
    obtain ⟨k, hk, rfl⟩ := List.getElem_of_mem hs'
    have hf := h.sources ra dec a b
    have hk' : k < (v.sources ra dec a b).length := by rw [hf.length_eq]; exact hk
    exact ⟨_, List.getElem_mem hk', (List.forall₂_iff_get.1 hf).2 k hk' hk⟩
  have e1 : v'.objects = v.objects := by rw [h.rest]
  have e2 : v'.cfg = v.cfg := by rw [h.rest]
  have e3 : v'.ext = v.ext := by rw [h.rest]
  have e4 : v'.nExtra = v.nExtra := by rw [h.rest]
  refine ⟨hs.boxPos, hs.psfOdd, by rw [e1]; exact hs.rows, by rw [e2]; exact hs.frac, ?_, ?_, ?_,
    by rw [e3]; exact hs.keeps, by rw [e3]; exact hs.fwhm⟩
  · intro ra dec a b s' hs'
    obtain ⟨s, hmem, hb⟩ := hback hs'
    obtain ⟨f1, f2, f3, f4, f5, f6, f7, f8, f9, f10, f11, f12, f13⟩ := hb.fields
    obtain ⟨w1, w2, w3, w4⟩ := hs.shape ra dec a b s hmem
    unfold Src.WellShaped
    rw [f5, f6, f12, f13]
    refine ⟨fun im him => ?_, w2, w3, fun l hl im him => ?_⟩
    · rcases hb.image with ⟨e, q1, q2⟩ | ⟨x, x', q1, q2, q3⟩
      · rw [q2] at him; cases him
      · rw [q2] at him; cases him
        rw [q3.1, q3.2.1]
        exact w1 _ q1
    · rcases hb.noises with ⟨e, q1, q2⟩ | ⟨x, x', q1, q2, q3⟩
      · rw [q2] at hl; cases hl
      · rw [q2] at hl; cases hl
        obtain ⟨k, hk, rfl⟩ := List.getElem_of_mem him
        have hk' : k < x.length := by rw [q3.length_eq]; exact hk
        have := (List.forall₂_iff_get.1 q3).2 k hk' hk
        simp only [List.get_eq_getElem] at this
        rw [this.1, this.2.1]
        exact w4 _ q1 _ (List.getElem_mem hk')
  · intro ra dec a b s' hs' l hl
    obtain ⟨s, hmem, hb⟩ := hback hs'
    rcases hb.noises with ⟨e, q1, q2⟩ | ⟨x, x', q1, q2, q3⟩
    · rw [q2] at hl; cases hl
    · rw [q2] at hl; cases hl
      rw [e4, ← q3.length_eq]
      exact hs.noises ra dec a b s hmem _ q1
  · intro ra dec a b s' hs' im him
    obtain ⟨s, hmem, hb⟩ := hback hs'
    exact hs.psf ra dec a b s hmem im (by rw [← hb.fields.2.2.2.2.2.2.2.2.2.2.1]; exact him)

theorem SameEnv.gaia {Z : Src → Nat → Nat → Prop} {v v' : SliceEnv A σ S} (h : SameEnv Z v v')
    (row : ObjRow) : gaiaFor v' row = gaiaFor v row := by
  rw [h.rest]
  rfl

theorem SameEnv.cfg {Z : Src → Nat → Nat → Prop} {v v' : SliceEnv A σ S} (h : SameEnv Z v v')
    (row : ObjRow) (g : Option (Img Bool)) : cfgFor v' row g = cfgFor v row g := by
  rw [h.rest]
  rfl

/-- C120: pixels of the SE files that lie outside the cut-out or that carry the flags of pixels to be replaced
have no influence at all: with other values there the same slice comes out, with the same masks, the
same weights, the same record of the epochs, or the same error. -/
theorem C120_slice (v v' : SliceEnv A σ S) (box psfBox : Nat) (hs : SoundEnv v box psfBox)
    (hro : v.cfg.rejectOutliers = false)
    (h : SameEnv (Hidden { v.cfg with boxSize := box }) v v') (i seed : Nat) :
    coaddSingleSlice v' i seed = coaddSingleSlice v i seed := by
  have e1 : v'.objects = v.objects := by rw [h.rest]
  have e2 : v'.fwd = v.fwd ∧ v'.inv = v.inv ∧ v'.offset = v.offset := by
    refine ⟨?_, ?_, ?_⟩ <;> rw [h.rest]
  have e3 : v'.ext = v.ext := by rw [h.rest]
  have e4 : v'.seeded = v.seeded := by rw [h.rest]
  unfold coaddSingleSlice
  rw [e1, e2.1, e2.2.1, e2.2.2, e3, e4]
  refine (ExR.eq (ExR.same fun row hrow => ExR.same fun lay _ => ?_)).symm
  rw [h.gaia]
  refine ExR.same fun g _ => ?_
  rw [h.cfg]
  have hmem : row ∈ v.objects := by
    unfold objRow at hrow
    split at hrow
    · rename_i r hr
      cases hrow
      exact List.mem_of_getElem? hr
    · cases hrow
  have hbox := (hs.rows row hmem).1
  refine (buildSliceInputs_rel (Z := Hidden { v.cfg with boxSize := box }) (c := cfgFor v row g) ?_ hs.frac
    (fun s r j hz => ?_) hro (h.sources _ _ _ _) (hs.shape _ _ _ _)).bind fun a a' ha => ?_
  · show 1 ≤ row.boxSize
    rw [hbox]
    exact_mod_cast hs.boxPos
  · unfold Hidden InCutOut Flagged cfgFor at *
    simp only at *
    rw [hbox]
    exact hz
  · rw [coaddChosen_congr h.rest ha]
    exact ExR.refl _ fun _ _ => rfl

/-- C120: and whatever the scheduling of the workers, the runs of all slices into a file are the same. -/
theorem C120_run (v v' : SliceEnv A σ S) (box psfBox : Nat) (hs : SoundEnv v box psfBox)
    (hro : v.cfg.rejectOutliers = false)
    (h : SameEnv (Hidden { v.cfg with boxSize := box }) v v') (ops : PixelOps Flt)
    (pars : Option (List (String × String))) (n nJobs cap k : Nat) (s t : PState Flt EpochRow) :
    Steps (runShapeOf v' ops pars box psfBox) (coaddSingleSlice v') n nJobs cap k s t ↔
      Steps (runShapeOf v ops pars box psfBox) (coaddSingleSlice v) n nJobs cap k s t := by
  have hf : coaddSingleSlice v' = coaddSingleSlice v :=
    funext fun i => funext fun seed => C120_slice v v' box psfBox hs hro h i seed
  have hr : runShapeOf v' ops pars box psfBox = runShapeOf v ops pars box psfBox := by
    rw [h.rest]
    rfl
  rw [hf, hr]

theorem filter_eq_take {α : Type} (p : α → Bool) (l : List α) (n : Nat)
    (h : ∀ (k : Nat) (hk : k < l.length), k < n ↔ p l[k] = true) : l.filter p = l.take n := by
  induction l generalizing n with
  | nil => simp
  | cons a l ih =>
    cases n with
    | zero =>
      rw [List.take_zero, List.filter_eq_nil_iff]
      intro b hb
      obtain ⟨k, hk, rfl⟩ := List.getElem_of_mem hb
      exact fun hp => absurd ((h k hk).2 hp) (by omega)
    | succ n =>
      have h0 := (h 0 (by simp)).1 (by omega)
      simp only [List.getElem_cons_zero] at h0
      rw [List.filter_cons_of_pos h0, List.take_succ_cons, ih n fun k hk => ?_]
      have := h (k + 1) (by simpa using hk)
      simpa using this

/-- The images of the epochs with flags 0, in order. -/
theorem used_ids {x : Ext A σ} {c : BuildCfg A} {srcs : List Src} {rng : σ} {out : Inputs} (hx : Sane x c srcs)
    (hfw : ∀ im v, x.fwhm im = .ok v → 0 < v) (h : buildSliceInputs x c srcs rng = .ok out) {id : ℤ}
    {rows : List EpochRow} (hr : makeEpochsInfo id out.weights out.slices out.notUsed out.flags = .ok rows) :
    (rows.filter fun e => decide (e.flags = 0)).map (·.imageId) = out.slices.map (·.src.imageId) := by
  obtain ⟨rows', h1, h2, _, _, _, _, h3⟩ := C64_slice x c srcs rng out hx (fun _ => hfw) h id
  rw [hr] at h1
  cases h1
  rw [filter_eq_take _ rows out.slices.length fun k hk => by
    rw [decide_eq_true_iff]; exact (h3 k hk).1]
  have hl := h2.length_eq
  rw [List.length_append] at hl
  apply List.ext_getElem (by simp; omega)
  intro k k1 k2
  simp only [List.length_map, List.length_take] at k1
  have := (List.forall₂_iff_get.1 h2).2 k (by omega) (by rw [List.length_append]; omega)
  simp only [List.get_eq_getElem] at this
  simp only [List.getElem_map, List.getElem_take]
  rw [this.imageId, List.getElem_append_left (by simpa using k2)]

/-- C120: pixels outside the cut-out, with flags of either kind or without a positive weight are never part of the
image, of the noise images, of the PSF or of the mask of the coadd: with other values there, as long as the same
SE images are used, the same values come out, with the same weights.  Only where interpolation is recorded to have
changed something can differ. -/
theorem C120_coadd (v v' : SliceEnv A σ S) (box psfBox : Nat) (hs : SoundEnv v box psfBox)
    (hro : v.cfg.rejectOutliers = false)
    (hids : ∀ ra dec a b, ((v.sources ra dec a b).map (·.imageId)).Nodup)
    (h : SameEnv (Unseen { v.cfg with boxSize := box }) v v') (i seed : Nat)
    (r r' : SliceRes Flt EpochRow) (hr : coaddSingleSlice v i seed = .ok r)
    (hr' : coaddSingleSlice v' i seed = .ok r')
    (hused : (r.epochs.filter fun e => decide (e.flags = 0)).map (·.imageId) =
      (r'.epochs.filter fun e => decide (e.flags = 0)).map (·.imageId)) :
    r'.weights = r.weights ∧ ((r.pix = none ∧ r'.pix = none) ∨
      ∃ p p', r.pix = some p ∧ r'.pix = some p' ∧ p' = { p with bmask := p'.bmask, mfrac := p'.mfrac }) := by
  have hs' := h.sound hs
  have e1 : v'.objects = v.objects := by rw [h.rest]
  have e2 : v'.fwd = v.fwd ∧ v'.inv = v.inv ∧ v'.offset = v.offset := by
    refine ⟨?_, ?_, ?_⟩ <;> rw [h.rest]
  have e3 : v'.ext = v.ext := by rw [h.rest]
  have e4 : v'.seeded = v.seeded := by rw [h.rest]
  have e5 : v'.nExtra = v.nExtra := by rw [h.rest]
  obtain ⟨row, lay, g, inp, h1, h2, h3, h4, h5⟩ := coaddSingleSlice_ok hr
  obtain ⟨row', lay', g', inp', h1', h2', h3', h4', h5'⟩ := coaddSingleSlice_ok hr'
  rw [e1, h1] at h1'
  cases h1'
  rw [e2.1, e2.2.1, e2.2.2, h2] at h2'
  cases h2'
  rw [h.gaia, h3] at h3'
  cases h3'
  rw [h.cfg, e3, e4] at h4'
  have hmem : row ∈ v.objects := List.mem_of_getElem? h1
  have hmem' : row ∈ v'.objects := by rw [e1]; exact hmem
  have hbox := (hs.rows row hmem).1
  have hx := hs.sane hmem g row.ra row.dec lay.raPsf lay.decPsf
  have hx' := hs'.sane hmem' g row.ra row.dec lay.raPsf lay.decPsf
  rw [e3, h.cfg] at hx'
  obtain ⟨-, hv⟩ := buildSliceInputs_vals (Z := Unseen { v.cfg with boxSize := box }) (c := cfgFor v row g)
    (by show 1 ≤ row.boxSize; rw [hbox]; exact_mod_cast hs.boxPos) hs.frac
    (fun s r j hz => by
      unfold Unseen InCutOut MarkedBad cfgFor at *
      simp only at *
      rw [hbox]
      exact hz) hro (h.sources _ _ _ _) (hs.shape _ _ _ _) (hids _ _ _ _) h4 h4'
  unfold coaddChosen at h5 h5'
  obtain ⟨ep, q1, h5⟩ := bind_eq_ok.1 h5
  obtain ⟨ep', q1', h5'⟩ := bind_eq_ok.1 h5'
  have hrep : r.epochs = ep := by
    split at h5
    · obtain ⟨_, _, h5⟩ := bind_eq_ok.1 h5
      obtain ⟨_, _, h5⟩ := bind_eq_ok.1 h5
      rw [← Except.ok.inj h5]
    · rw [← Except.ok.inj h5]
  have hrep' : r'.epochs = ep' := by
    split at h5'
    · obtain ⟨_, _, h5'⟩ := bind_eq_ok.1 h5'
      obtain ⟨_, _, h5'⟩ := bind_eq_ok.1 h5'
      rw [← Except.ok.inj h5']
    · rw [← Except.ok.inj h5']
  rw [hrep, hrep', used_ids hx hs.fwhm h4 q1, used_ids hx' hs.fwhm h4' q1'] at hused
  obtain ⟨hsl, hw⟩ := hv hused
  rw [← hw] at h5'
  split at h5
  · rename_i hpos
    rw [if_pos hpos] at h5'
    obtain ⟨co, q2, h5⟩ := bind_eq_ok.1 h5
    obtain ⟨co', q2', h5'⟩ := bind_eq_ok.1 h5'
    obtain ⟨sg, q3, h5⟩ := bind_eq_ok.1 h5
    obtain ⟨sg', q3', h5'⟩ := bind_eq_ok.1 h5'
    rw [e5] at q2'
    have hd : List.Forall₂ DataE (inp.slices.map (resampleEpoch row lay))
        (inp'.slices.map (resampleEpoch row lay)) := by
      rw [List.forall₂_map_left_iff, List.forall₂_map_right_iff]
      refine hsl.imp fun e e' he a a' ha ha' => ?_
      have hlk : e'.src.lookups = e.src.lookups := by rw [he.1]
      unfold resampleEpoch at ha ha'
      rw [hlk] at ha'
      obtain ⟨w, w1, ha⟩ := bind_eq_ok.1 ha
      obtain ⟨w', w1', ha'⟩ := bind_eq_ok.1 ha'
      rw [w1] at w1'
      cases w1'
      obtain ⟨z, z1, ha⟩ := bind_eq_ok.1 ha
      obtain ⟨z', z1', ha'⟩ := bind_eq_ok.1 ha'
      obtain ⟨y1, y2, y3, y4⟩ := resample_vals he.2 z1 z1'
      rw [← Except.ok.inj ha, ← Except.ok.inj ha']
      unfold DataV Resampling.toEpoch
      simp only
      rw [y1, y2, y3, y4]
      exact ⟨rfl, rfl, rfl, rfl⟩
    obtain ⟨y1, y2, y3, y4, y5⟩ := coadd_vals hd q2 q2'
    rw [e3, ← y3, q3] at q3'
    cases q3'
    rw [← Except.ok.inj h5, ← Except.ok.inj h5']
    refine ⟨rfl, .inr ⟨_, _, rfl, rfl, ?_⟩⟩
    unfold pixOf
    simp only
    rw [y1, y2, y3, y4, y5]
  · rename_i hpos
    rw [if_neg hpos] at h5'
    rw [← Except.ok.inj h5, ← Except.ok.inj h5']
    exact ⟨rfl, .inl ⟨rfl, rfl⟩⟩

end Pizza
