import Verif.Model.Slice
import Verif.Props.EpochsInfo
import Verif.Props.Coadd

/-! Facts about the epochs that `_build_slice_inputs` chooses: they can be resampled. -/

namespace Pizza

/-- The PSF stamp of the object is the one drawn for the source. -/
def PsfOf (s : Src) (o : SEObj) : Prop :=
  ∃ im, s.psfImage = .ok im ∧ o.psf = some im

theorem setPsf_psf {o : SEObj} {x y : ℚ} {flag : Except Err Bool} {psf : Except Err (Img ℚ)} {f : Bool}
    (h : (o.setPsf x y flag psf).2 = .ok f) :
    ∃ im, psf = .ok im ∧ (o.setPsf x y flag psf).1.psf = some im := by
  obtain ⟨_, im, h1, a, b, h2⟩ := setPsf_ok h
  exact ⟨im, h1, by rw [h2]⟩

theorem roughCut_psf {A : Type} {c : BuildCfg A} {s : Src} {l : List Cand} (h : roughCut c s = .ok l) :
    ∀ k ∈ l, k.src = s ∧ PsfOf s k.obj := by
  rcases roughCut_ok h with ⟨_, rfl⟩ | ⟨_, _, _, rfl⟩ | ⟨p, _, _, _, h3, h4⟩
  · simp
  · simp
  · rcases h4 with ⟨_, rfl⟩ | ⟨_, o, flag, h5, h6, rfl⟩
    · simp
    · intro k hk
      rw [List.mem_singleton] at hk
      subst hk
      exact ⟨rfl, setPsf_psf h6⟩

theorem possibleSlices_psf {A : Type} {c : BuildCfg A} {srcs : List Src} {l : List Cand}
    (h : possibleSlices c srcs = .ok l) : ∀ k ∈ l, PsfOf k.src k.obj := by
  induction srcs generalizing l with
  | nil => have := Except.ok.inj h; subst this; simp
  | cons s srcs ih =>
    unfold possibleSlices at h
    obtain ⟨a, h1, h⟩ := bind_eq_ok.1 h
    obtain ⟨t, h2, h⟩ := bind_eq_ok.1 h
    have := Except.ok.inj h
    subst this
    intro k hk
    rcases List.mem_append.1 hk with hk | hk
    · obtain ⟨e1, e2⟩ := roughCut_psf h1 k hk
      rw [e1]; exact e2
    · exact ih h2 k hk

theorem rejectOutliers_psf {A σ : Type} {x : Ext A σ} {c : BuildCfg A} {cands out : List Cand}
    (h : rejectOutliers x c cands = .ok out) (hp : ∀ k ∈ cands, PsfOf k.src k.obj) :
    ∀ k ∈ out, PsfOf k.src k.obj := by
  unfold rejectOutliers at h
  split at h
  · obtain ⟨ims, _, h⟩ := bind_eq_ok.1 h
    obtain ⟨wts, _, h⟩ := bind_eq_ok.1 h
    obtain ⟨new, _, h⟩ := bind_eq_ok.1 h
    have := Except.ok.inj h
    subst this
    intro k hk
    obtain ⟨i, hi, rfl⟩ := List.mem_mapIdx.1 hk
    obtain ⟨im, a, b⟩ := hp _ (List.getElem_mem hi)
    exact ⟨im, a, b⟩
  · have := Except.ok.inj h
    subst this
    exact hp

theorem setInterp_arrays {o o' : SEObj} {im : Img ℚ} {ns : List (Img ℚ)} {pm : Img (BitVec 32)} {im0 : Img ℚ}
    {n : Nat} (h0 : o.image = some im0) (hs : im0.Sq n) (hi : im.Sq n) (h : o.setInterp im ns pm = (o', none)) :
    (∃ a, o'.interpFrac = some a ∧ a.Sq n) ∧ ∃ a, o'.interpOnlyImage = some a ∧ a.Sq n := by
  unfold SEObj.setInterp at h
  rw [h0] at h
  simp only at h
  split at h
  · cases h
  · split at h
    · cases h
    · have := congrArg Prod.fst h
      simp only at this
      subst this
      exact ⟨⟨_, rfl, hs⟩, ⟨_, rfl, hi⟩⟩

/-- Everything that is needed for `resample` is there and has the right shape. -/
structure Ready (n k : Nat) (o : SEObj) : Prop where
  box : ∃ b, o.boxSize = some b ∧ b.toNat = n
  xs : ∃ v, o.xStart = some v
  ys : ∃ v, o.yStart = some v
  image : ∃ a, o.image = some a ∧ a.Sq n
  noises : ∃ l, o.noises = some l ∧ l.length = k ∧ ∀ a ∈ l, a.Sq n
  frac : ∃ a, o.interpFrac = some a ∧ a.Sq n
  only : ∃ a, o.interpOnlyImage = some a ∧ a.Sq n
  bmask : ∃ a, o.bmask = some a ∧ a.Sq n
  pmask : ∃ a, o.pmask = some a ∧ a.Sq n
  psf : ∃ p m, o.psf = some p ∧ p.Sq m ∧ o.psfBoxSize = some m
  pxs : ∃ v, o.psfXStart = some v
  pys : ∃ v, o.psfYStart = some v

theorem sameShapes_sq {as bs : List (Img ℚ)} {n : Nat} (h : SameShapes as bs) (ha : ∀ a ∈ as, a.Sq n) :
    bs.length = as.length ∧ ∀ b ∈ bs, b.Sq n := by
  induction h with
  | nil => simp
  | cons h1 _ ih =>
    rename_i a b _ _ _
    obtain ⟨i1, i2⟩ := ih fun a ha' => ha a (List.mem_cons_of_mem _ ha')
    have hb : b.Sq n := ⟨h1.1.trans (ha a List.mem_cons_self).1, h1.2.trans (ha a List.mem_cons_self).2⟩
    refine ⟨by simp [i1], ?_⟩
    intro b' hb'
    rcases List.mem_cons.1 hb' with rfl | hb'
    · exact hb
    · exact i2 _ hb'

theorem readsAs_noises {A : Type} {c : BuildCfg A} {s : Src} {d : SESlice} (h : s.ReadsAs c d) :
    ∃ ns, s.reads.noises = .ok ns ∧ d.noises.length = ns.length := by
  obtain ⟨col, row, im, bkg, bm, wt, ns, _, _, _, _, _, h5, h6⟩ := h
  refine ⟨ns, h5, ?_⟩
  unfold setSlice at h6
  simp only at h6
  split at h6
  · cases h6
  · have := Except.ok.inj h6
    rw [← this]; simp

theorem buildSliceInputs_ready {A σ : Type} {x : Ext A σ} {c : BuildCfg A} {srcs : List Src} {rng : σ}
    {out : Inputs} {k : Nat} (hx : Sane x c srcs)
    (hns : ∀ s ∈ srcs, ∀ l, s.reads.noises = .ok l → l.length = k)
    (hpsf : ∀ s ∈ srcs, ∀ im, s.psfImage = .ok im → im.ncol = im.nrow)
    (h : buildSliceInputs x c srcs rng = .ok out) :
    ∀ e ∈ out.slices, e.src ∈ srcs ∧ Ready (sliceSide c) k e.obj := by
  have hplace := buildSliceInputs_place hx h
  obtain ⟨cands0, h1, h2⟩ := buildSliceInputs_ok hx.keeps hx.box hx.frac h
  rcases h2 with ⟨h2, rfl⟩ | ⟨h2, cands, sl, wt, nu, fl, h3, _, hsrc, hprep, rfl, _, h7, h8, h9, _⟩
  · simp
  intro e he
  simp only at he
  have hmem : ∃ w, (e, w) ∈ sl.zip wt := by
    obtain ⟨i, hi, rfl⟩ := List.getElem_of_mem he
    refine ⟨wt[i]'(h7 ▸ hi), ?_⟩
    rw [← List.getElem_zip (h := by simp [h7 ▸ hi, hi])]
    exact List.getElem_mem _
  obtain ⟨w, hw⟩ := hmem
  obtain ⟨cd, hcd, g, g', a1, a2⟩ := h9 _ _ hw
  have hin : e.src ∈ srcs := by
    rw [← a1]
    have : cd.src ∈ cands.map Cand.src := List.mem_map_of_mem hcd
    rw [hsrc, (possibleSlices_facts hx.box hx.frac h1).1] at this
    exact (List.mem_filter.1 this).1
  refine ⟨hin, ?_⟩
  have hpf := rejectOutliers_psf h3 (possibleSlices_psf h1) cd hcd
  have hn := (sliceSide_pos hx.box hx.frac).1
  have hp := hprep cd hcd
  have hws : cd.src.WellShaped := hx.shape _ (a1 ▸ hin)
  obtain ⟨d', w0', d1, d2, d3, d4, d5, d6, d7, d8, d9, d10, d11⟩ := hp.data
  obtain ⟨s1, s2, s3, s4⟩ := d9 hws
  obtain ⟨d, w0, gg, w', b, o, b1, b2, b3, b4, b5, b6, b7, b8, b9, b10, b11, b12, b13, b14⟩ :=
    processCand_ok hn hp hws a2
  have hne : d.noises = d'.noises := by rw [d3] at b13; exact (Option.some.inj b13).symm
  rcases b14 with ⟨_, _, f, hf, _⟩ | ⟨_, hl⟩
  · cases hf
  · obtain ⟨w1, bb1, l1, l2, l3, l4⟩ := hl
    rcases l4 with ⟨_, l4⟩ | ⟨_, ⟨_, l4⟩ | ⟨_, im, ns, pm, q, l5, l6, ⟨_, l7⟩ | ⟨_, o', wt', psf, l7, l8, l9, l10,
      l11, l12, l13, l14, l15, l16, l17, l18, l19⟩⟩⟩
    · cases l4
    · cases l4
    · cases l7
    · have hobj : e.obj = o' := by cases l7; rfl
      rw [hobj]
      have himg : o.image = some d.image := by rw [b11]; exact b12
      obtain ⟨e1, e2⟩ := setInterp_arrays himg b8 l5.im_sq l8
      obtain ⟨n1, n2⟩ := sameShapes_sq l5.shapes (hne ▸ s4)
      obtain ⟨ns0, r1, r2⟩ := readsAs_noises b1
      obtain ⟨cl, rw', psf', px, py, p1, p2, p3, p4, p5, p6, p7, p8, p9⟩ :=
        hplace e (List.mem_append_left _ he)
      rw [hobj] at p2 p3 p4 p7 p8 p9
      obtain ⟨im', q1, q2⟩ := hpf
      rw [a1] at q1
      rw [p5] at q1
      have hq : psf' = im' := Except.ok.inj q1
      refine ⟨⟨d'.boxSize, ?_, d10⟩, ⟨_, p2⟩, ⟨_, p3⟩, ⟨im, l9, l5.im_sq⟩,
        ⟨ns, l10, ?_, n2⟩, e1, e2, ⟨b, ?_, b10⟩, ⟨pm, l11, l5.pm_sq⟩, ⟨im', im'.nrow, ?_, ⟨rfl, ?_⟩, ?_⟩,
        ⟨_, p7⟩, ⟨_, p8⟩⟩
      · rw [l16, b11]; exact d6
      · rw [n1, r2]; exact hns _ (a1 ▸ hin) _ r1
      · rw [l13, b11]
      · rw [l14, b11]; exact q2
      · exact hpsf _ hin _ (hq ▸ p5)
      · rw [p9, hq]

theorem resamplePsf_sq {o : SEObj} {w : Lookups} {px py : ℚ} {pb : Nat} {dx dy : ℚ} {out : Img ℚ}
    (h : o.resamplePsf w px py pb dx dy = .ok out) : out.Sq pb := by
  unfold SEObj.resamplePsf at h
  split at h
  · cases h
  simp only [bind_eq_ok, attr_ok, pure_eq_ok] at h
  obtain ⟨_, _, _, _, _, _, _, _, _, _, rfl⟩ := h
  exact ⟨rfl, rfl⟩

theorem resample_frac_sq {o : SEObj} {w : Lookups} {xs ys : ℚ} {box : Nat} {px py : ℚ} {pb : Nat}
    {out : Resampling} (h : o.resample w xs ys box px py pb = .ok out) : out.interpFrac.Sq box := by
  unfold SEObj.resample at h
  split at h
  · cases h
  split at h
  · cases h
  split at h
  · cases h
  unfold SEObj.resampleGo at h
  simp only [bind_eq_ok, attr_ok] at h
  obtain ⟨psf, hpsf, sx, hsx, sy, hsy, image, himage, rim, hrim, noises, hnoises, rns, hrns, iom,
    hiom, iom', _, frac, hfrac, frac', _, two, htwo, bm, hbm, h⟩ := h
  split at h
  · cases h
  rw [pure_eq_ok] at h
  subst h
  exact ⟨rfl, rfl⟩

/-- An object that is ready is resampled to data of the shape of the destination. -/
theorem ready_resample {n k : Nat} {o : SEObj} (h : Ready n k o) (w : Lookups) (xs ys : ℚ) (box : Nat)
    (px py : ℚ) (pb : Nat) (f : Bool) :
    ∃ out, o.resample w xs ys box px py pb = .ok out ∧ (out.toEpoch f).Fits box pb k := by
  obtain ⟨b, hb, rfl⟩ := h.box
  obtain ⟨p, m, hp, sp, hm⟩ := h.psf
  obtain ⟨pm, hpm, spm⟩ := h.pmask
  obtain ⟨bm, hbm, sbm⟩ := h.bmask
  obtain ⟨sx, hsx⟩ := h.xs
  obtain ⟨sy, hsy⟩ := h.ys
  obtain ⟨xp, hxp⟩ := h.pxs
  obtain ⟨yp, hyp⟩ := h.pys
  obtain ⟨im, him, sim⟩ := h.image
  obtain ⟨ns, hns, lns, sns⟩ := h.noises
  obtain ⟨io, hio, sio⟩ := h.only
  obtain ⟨fr, hfr, sfr⟩ := h.frac
  obtain ⟨out, hout⟩ := resample_total o w xs ys box px py pb p im fr io ns bm pm xp yp sx sy b hp
    (by rw [hm, sp.1]) hxp hyp (sp.2.trans sp.1.symm) hsx hsy hb him hns hpm hfr hio hbm sim sfr sio sns
    ⟨by rw [sbm.1, spm.1], by rw [sbm.2, spm.2]⟩
  refine ⟨out, hout, ?_⟩
  obtain ⟨_, _, _, _, _, _, ns', _, _, F⟩ := resample_facts hout
  have hns' : ns' = ns := by have := F.hnoises; rw [hns] at this; exact (Option.some.inj this).symm
  subst hns'
  obtain ⟨d1, d2, d3, d4, d5, d6⟩ := F.dims
  refine ⟨⟨d5, d6⟩, resample_frac_sq hout, resamplePsf_sq F.psf, ⟨d1, d2⟩, ⟨d3, d4⟩, ?_⟩
  intro i hi
  have hi' : i < out.noises.length := by rw [F.lenNoises, lns]; exact hi
  have hi2 : i < ns'.length := by rw [lns]; exact hi
  have := F.noisePx i ns'[i] out.noises[i] (List.getElem?_eq_getElem hi2) (List.getElem?_eq_getElem hi')
  exact ⟨out.noises[i], List.getElem?_eq_getElem hi', this.2.2.1, this.2.2.2.1⟩

end Pizza
