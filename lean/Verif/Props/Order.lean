import Verif.Lemmas.Order
import Verif.Props.Process

/-!
C123: the order of the SE images and the seed of a slice do not matter when no pixel is to be filled with noise.
-/

namespace Pizza

variable {A σ S P : Type}

open Relator

/-! ### the coadd -/

theorem Stacked.unique {box psfBox n : Nat} {ps qs : List (EpochData × ℚ)} {st st' : Stacks} (hp : ps.Perm qs)
    (h : Stacked box psfBox n ps st) (h' : Stacked box psfBox n qs st') : st' = st := by
  have sum : ∀ f : EpochData × ℚ → ℚ, (qs.map f).sum = (ps.map f).sum := fun f => (hp.map f).sum_eq.symm
  have img : ∀ {a b : Img ℚ} {m : Nat}, a.nrow = m → a.ncol = m → b.nrow = m → b.ncol = m →
      (∀ r c, b.px r c = a.px r c) → b = a := by
    rintro ⟨_, _, _⟩ ⟨_, _, _⟩ m rfl h1 h2 h3 h4
    simp only at h1 h2 h3 h4
    subst h2
    simp only [Img.mk.injEq, true_and]
    exact ⟨h3.trans h1.symm, funext fun r => funext fun c => h4 r c⟩
  have msk : ∀ {a b : Img (BitVec 32)} {m : Nat}, a.nrow = m → a.ncol = m → b.nrow = m → b.ncol = m →
      (∀ r c j, (b.px r c).getLsbD j = true ↔ (a.px r c).getLsbD j = true) → b = a := by
    rintro ⟨_, _, _⟩ ⟨_, _, _⟩ m rfl h1 h2 h3 h4
    simp only at h1 h2 h3 h4
    subst h2
    simp only [Img.mk.injEq, true_and]
    refine ⟨h3.trans h1.symm, funext fun r => funext fun c => BitVec.eq_of_getLsbD_eq fun j _ => ?_⟩
    rw [Bool.eq_iff_iff]
    exact h4 r c j
  have ex : ∀ f : EpochData → Prop, (∃ p ∈ qs, f p.1) ↔ ∃ p ∈ ps, f p.1 := fun f =>
    ⟨fun ⟨p, h1, h2⟩ => ⟨p, hp.mem_iff.2 h1, h2⟩, fun ⟨p, h1, h2⟩ => ⟨p, hp.mem_iff.1 h1, h2⟩⟩
  obtain ⟨i1, i2, i3⟩ := h.image
  obtain ⟨f1, f2, f3⟩ := h.frac
  obtain ⟨p1, p2, p3⟩ := h.psf
  obtain ⟨b1, b2, b3⟩ := h.bmask
  obtain ⟨o1, o2, o3⟩ := h.ormask
  obtain ⟨n1, n2⟩ := h.noises
  obtain ⟨i1', i2', i3'⟩ := h'.image
  obtain ⟨f1', f2', f3'⟩ := h'.frac
  obtain ⟨p1', p2', p3'⟩ := h'.psf
  obtain ⟨b1', b2', b3'⟩ := h'.bmask
  obtain ⟨o1', o2', o3'⟩ := h'.ormask
  obtain ⟨n1', n2'⟩ := h'.noises
  have e1 := img i1 i2 i1' i2' fun r c => by rw [i3, i3', sum]
  have e2 := img f1 f2 f1' f2' fun r c => by rw [f3, f3', sum]
  have e3 := img p1 p2 p1' p2' fun r c => by rw [p3, p3', sum]
  have e4 := msk b1 b2 b1' b2' fun r c j => by rw [b3, b3', ex fun d => (d.pmask.px r c).getLsbD j = true]
  have e5 := msk o1 o2 o1' o2' fun r c j => by rw [o3, o3', ex fun d => (d.bmask.px r c).getLsbD j = true]
  have e6 : st'.noises = st.noises := by
    apply List.ext_getElem?
    intro k
    by_cases hk : k < n
    · obtain ⟨a, a1, a2, a3, a4⟩ := n2 k hk
      obtain ⟨b, c1, c2, c3, c4⟩ := n2' k hk
      rw [a1, c1, img a2 a3 c2 c3 fun r c => by rw [a4, c4, sum]]
    · rw [List.getElem?_eq_none (by omega), List.getElem?_eq_none (by omega)]
  cases st
  cases st'
  simp only at e1 e2 e3 e4 e5 e6
  rw [e1, e2, e3, e4, e5, e6]

/-- The coadd of the same epochs with the same weights in another order. -/
theorem coaddSliceInputs_perm {box psfBox nExtra : Nat} {ps qs : List (Except Err EpochData × ℚ)} (hp : ps.Perm qs)
    {out : Coadd} (h : coaddSliceInputs box psfBox nExtra (ps.map Prod.fst) (ps.map Prod.snd) = .ok out) :
    coaddSliceInputs box psfBox nExtra (qs.map Prod.fst) (qs.map Prod.snd) = .ok out := by
  obtain ⟨as, hne, e1, e2, hf, st, n0, ns, hst, hn, ho⟩ := coadd_ok h
  have hrel : List.Forall₂ (fun (x : Except Err EpochData × ℚ) (a : EpochData × ℚ) => x = (.ok a.1, a.2)) ps as := by
    rw [List.forall₂_iff_get]
    have hl : ps.length = as.length := by simpa using congrArg List.length e2
    refine ⟨hl, fun i h1 h2 => ?_⟩
    have a1 := congrArg (fun l => l[i]?) e1
    have a2 := congrArg (fun l => l[i]?) e2
    simp only [List.getElem?_map, List.getElem?_eq_getElem h1, List.getElem?_eq_getElem h2, Option.map_some,
      Option.some.injEq] at a1 a2
    exact Prod.ext a1 a2
  obtain ⟨bs, hb, hab⟩ := List.perm_comp_forall₂ hp.symm hrel
  have hq : qs = bs.map fun a => (.ok a.1, a.2) := by
    clear hp hrel hab h e1
    induction hb with
    | nil => rfl
    | cons h _ ih => rw [h, ih]; rfl
  have q1 : qs.map Prod.fst = bs.map fun p => .ok p.1 := by rw [hq, List.map_map]; rfl
  have q2 : qs.map Prod.snd = bs.map Prod.snd := by rw [hq, List.map_map]; rfl
  rw [q1, q2]
  obtain ⟨out', ho'⟩ := (C55_succeeds box psfBox nExtra bs).2
    ⟨fun e => hne (by rw [e] at hab; exact hab.symm.eq_nil), fun p hp => hf p (hab.mem_iff.1 hp)⟩
  rw [ho']
  obtain ⟨bs', _, g1, g2, _, st', n0', ns', hst', hn', rfl⟩ := coadd_ok ho'
  have : bs' = bs := by
    have hl : bs.length = bs'.length := by simpa using congrArg List.length g2
    apply List.ext_getElem hl.symm
    intro i h1 h2
    have a1 := congrArg (fun l => l[i]?) g1
    have a2 := congrArg (fun l => l[i]?) g2
    simp only [List.getElem?_map, List.getElem?_eq_getElem h1, List.getElem?_eq_getElem h2,
      Option.map_some, Option.some.injEq, Except.ok.injEq] at a1 a2
    exact (Prod.ext a1 a2).symm
  subst this
  have hnorm : (normed as).Perm (normed bs') := by
    unfold normed
    rw [(hab.map Prod.snd).sum_eq]
    exact hab.symm.map _
  have hs := Stacked.unique hnorm hst hst'
  subst hs
  rw [hn] at hn'
  cases hn'
  rw [ho]

/-! ### the table of epochs -/

theorem makeEpochsInfo_rel {id : ℤ} {weights : List ℚ} {slices notUsed : List Epoch} {flags : List (BitVec 32)}
    (h1 : weights.length = slices.length) (h2 : flags.length = notUsed.length)
    (hp : ∀ e ∈ slices ++ notUsed, e.obj.Placed) :
    ∃ a b, makeEpochsInfo id weights slices notUsed flags = .ok (a ++ b) ∧
      List.Forall₂ (fun (x : Epoch × ℚ) (r : EpochRow) =>
        r.id = id ∧ r.flags = 0 ∧ r.weight = x.2 ∧ r.Records x.1) (slices.zip weights) a ∧
      List.Forall₂ (fun (x : Epoch × BitVec 32) (r : EpochRow) =>
        r.id = id ∧ r.flags = x.2 ∧ r.weight = 0 ∧ r.Records x.1) (notUsed.zip flags) b := by
  obtain ⟨a, b, g, la, lb, ha, hb⟩ := C64_rows id weights slices notUsed flags h1 h2 hp
  refine ⟨a, b, g, List.forall₂_iff_get.2 ⟨by rw [List.length_zip, h1, Nat.min_self, la], fun i i1 i2 => ?_⟩,
    List.forall₂_iff_get.2 ⟨by rw [List.length_zip, h2, Nat.min_self, lb], fun i i1 i2 => ?_⟩⟩
  · have := ha i i2 (by omega) (by omega)
    simpa using this
  · have := hb i i2 (by omega) (by omega)
    simpa using this

theorem records_unique {r r' : EpochRow} {e : Epoch} (h : r.Records e) (h' : r'.Records e) (h1 : r.id = r'.id)
    (h2 : r.flags = r'.flags) (h3 : r.weight = r'.weight) : r = r' := by
  obtain ⟨a1, a2, a3, a4, a5, a6, n, a7, a8⟩ := h
  obtain ⟨b1, b2, b3, b4, b5, b6, m, b7, b8⟩ := h'
  rw [a2, Option.some.injEq] at b2
  rw [a3, Option.some.injEq] at b3
  rw [a4, Option.some.injEq] at b4
  rw [a5, Option.some.injEq] at b5
  rw [a6, Option.some.injEq] at b6
  rw [a7, Option.some.injEq] at b7
  subst b7
  rw [← b8] at a8
  rw [← b1] at a1
  cases r
  cases r'
  simp only at *
  simp [*]

theorem makeEpochsInfo_perm {id : ℤ} {a b : Inputs}
    (ha1 : a.weights.length = a.slices.length) (ha2 : a.flags.length = a.notUsed.length)
    (hap : ∀ e ∈ a.slices ++ a.notUsed, e.obj.Placed)
    (hb1 : b.weights.length = b.slices.length) (hb2 : b.flags.length = b.notUsed.length)
    (hbp : ∀ e ∈ b.slices ++ b.notUsed, e.obj.Placed)
    (h1 : (a.slices.zip a.weights).Perm (b.slices.zip b.weights))
    (h2 : (a.notUsed.zip a.flags).Perm (b.notUsed.zip b.flags)) {rows : List EpochRow}
    (hr : makeEpochsInfo id a.weights a.slices a.notUsed a.flags = .ok rows) :
    ∃ rows', makeEpochsInfo id b.weights b.slices b.notUsed b.flags = .ok rows' ∧ rows'.Perm rows := by
  obtain ⟨u, n, k1, k2, k3⟩ := makeEpochsInfo_rel (id := id) ha1 ha2 hap
  obtain ⟨u', n', k1', k2', k3'⟩ := makeEpochsInfo_rel (id := id) hb1 hb2 hbp
  cases hr.symm.trans k1
  refine ⟨u' ++ n', k1', List.Perm.append ?_ ?_⟩
  · exact List.rel_perm_imp (fun _ _ _ x y => records_unique x.2.2.2 y.2.2.2 (x.1.trans y.1.symm)
      (x.2.1.trans y.2.1.symm) (x.2.2.1.trans y.2.2.1.symm)) k2' k2 h1.symm
  · exact List.rel_perm_imp (fun _ _ _ x y => records_unique x.2.2.2 y.2.2.2 (x.1.trans y.1.symm)
      (x.2.1.trans y.2.1.symm) (x.2.2.1.trans y.2.2.1.symm)) k3' k3 h2.symm

/-! ### candidates -/

/-- No candidate has a pixel to be filled with noise if no SE image has one. -/
theorem quiet_of {x : Ext A σ} {c : BuildCfg A} {srcs : List Src} (hx : Sane x c srcs)
    (hm : ∀ s ∈ srcs, ∀ bm, s.reads.bmask = .ok bm → Unflagged c.noiseFlags bm) :
    ∀ ks, possibleSlices c srcs = .ok ks → ∀ k ∈ ks, Quiet x c k := by
  intro ks hks k hk
  obtain ⟨h1, h2⟩ := possibleSlices_facts hx.box hx.frac hks
  have hs : k.src ∈ srcs := by
    have : k.src ∈ ks.map Cand.src := List.mem_map_of_mem hk
    rw [h1] at this
    exact (List.mem_filter.1 this).1
  obtain ⟨d, d1, _, _, d4, d5, _, _, _, d9, _⟩ := (h2 k hk).data
  obtain ⟨_, q2, q3, _⟩ := d9 (hx.shape _ hs)
  intro g w0 b0 w b e1 e2 e3
  rw [d4] at e1
  rw [d5] at e2
  cases e1
  cases e2
  obtain ⟨col, row, im, bkg, bm, wt, ns, r1, r2, r3, r4, r5, r6, r7⟩ := d1
  refine unflagged_symmetrize (q2.1.trans q2.2.symm) (q3.1.trans q3.2.symm) ?_ e3
  have hd : ∃ r0 r1 c0 c1, d.bmask = bm.slice r0 r1 c0 c1 := by
    unfold setSlice at r7
    simp only [] at r7
    split at r7
    · cases r7
    · cases r7
      exact ⟨_, _, _, _, rfl⟩
  obtain ⟨r0, r1, c0, c1, hd⟩ := hd
  rw [hd]
  exact unflagged_slice (hm _ hs bm r4) r0 r1 c0 c1

theorem SoundEnv.perm {v : SliceEnv A σ S} {box psfBox : Nat} (hv : SoundEnv v box psfBox)
    (sources : ℚ → ℚ → ℚ → ℚ → List Src)
    (hp : ∀ ra dec raPsf decPsf, (v.sources ra dec raPsf decPsf).Perm (sources ra dec raPsf decPsf)) :
    SoundEnv { v with sources := sources } box psfBox :=
  ⟨hv.boxPos, hv.psfOdd, hv.rows, hv.frac, fun a b c d s hs => hv.shape a b c d s ((hp a b c d).mem_iff.2 hs),
    fun a b c d s hs => hv.noises a b c d s ((hp a b c d).mem_iff.2 hs),
    fun a b c d s hs => hv.psf a b c d s ((hp a b c d).mem_iff.2 hs), hv.keeps, hv.fwhm⟩

/-- C123: with the SE images in another order and with another seed, a slice is the same, pixel by pixel, and so is what
is recorded about its epochs, but for the order. -/
theorem C123_slice {v : SliceEnv A σ S} {box psfBox : Nat} (hv : SoundEnv v box psfBox)
    (hro : v.cfg.rejectOutliers = false)
    (hm : ∀ ra dec raPsf decPsf, ∀ s ∈ v.sources ra dec raPsf decPsf, ∀ bm, s.reads.bmask = .ok bm →
      Unflagged v.cfg.noiseFlags bm)
    (sources : ℚ → ℚ → ℚ → ℚ → List Src)
    (hp : ∀ ra dec raPsf decPsf, (v.sources ra dec raPsf decPsf).Perm (sources ra dec raPsf decPsf))
    {i seed : Nat} {r : SliceRes Flt EpochRow} (h : coaddSingleSlice v i seed = .ok r) (seed' : Nat) :
    ∃ r', coaddSingleSlice { v with sources := sources } i seed' = .ok r' ∧ SameButOrder r' r := by
  obtain ⟨row, lay, gaia, inp, h1, h2, h3, h4, h5⟩ := coaddSingleSlice_ok h
  have hr : row ∈ v.objects := List.mem_of_getElem? h1
  have hx := hv.sane hr gaia row.ra row.dec lay.raPsf lay.decPsf
  have hv' := hv.perm sources hp
  have hx' : Sane v.ext (cfgFor v row gaia) (sources row.ra row.dec lay.raPsf lay.decPsf) :=
    hv'.sane hr gaia row.ra row.dec lay.raPsf lay.decPsf
  obtain ⟨inp', k1, k2, k3, k4, k5⟩ := buildSliceInputs_perm (c := cfgFor v row gaia)
    (hp row.ra row.dec lay.raPsf lay.decPsf) hro (quiet_of hx (hm _ _ _ _)) (v.seeded seed') h4
  obtain ⟨w1, -⟩ := C49_weights v.ext _ _ _ inp hx (fun _ => hv.fwhm) h4
  obtain ⟨w1', -⟩ := C49_weights v.ext _ _ _ inp' hx' (fun _ => hv.fwhm) k1
  have f1 := (C46_accounted v.ext _ _ _ inp hx h4).2.2.2
  have f1' := (C46_accounted v.ext _ _ _ inp' hx' k1).2.2.2
  have p1 := buildSliceInputs_place hx h4
  have p1' := buildSliceInputs_place hx' k1
  have key : ∃ r', coaddChosen v row lay i inp' = .ok r' ∧ SameButOrder r' r := by
    unfold coaddChosen at h5 ⊢
    obtain ⟨rows, m1, h5⟩ := bind_eq_ok.1 h5
    obtain ⟨rows', m2, m3⟩ := makeEpochsInfo_perm w1 f1 (fun e he => (p1 e he).placed) w1' f1'
      (fun e he => (p1' e he).placed) k2 k3 m1
    rw [m2, ok_bind]
    have hlen : inp'.weights.length = inp.weights.length := k4.length_eq.symm
    rw [hlen]
    split at h5
    · rename_i hpos
      rw [if_pos hpos]
      obtain ⟨co, n1, h5⟩ := bind_eq_ok.1 h5
      obtain ⟨sigma, n2, h5⟩ := bind_eq_ok.1 h5
      cases h5
      have hz : ∀ q : Inputs, q.weights.length = q.slices.length →
          q.slices.map (resampleEpoch row lay) =
            ((q.slices.zip q.weights).map fun p => (resampleEpoch row lay p.1, p.2)).map Prod.fst ∧
          q.weights = ((q.slices.zip q.weights).map fun p => (resampleEpoch row lay p.1, p.2)).map Prod.snd := by
        intro q hq
        rw [List.map_map, List.map_map]
        constructor
        · show _ = (q.slices.zip q.weights).map (resampleEpoch row lay ∘ Prod.fst)
          rw [← List.map_map, List.map_fst_zip (by omega)]
        · show _ = (q.slices.zip q.weights).map Prod.snd
          rw [List.map_snd_zip (by omega)]
      obtain ⟨z1, z2⟩ := hz inp w1
      obtain ⟨z1', z2'⟩ := hz inp' w1'
      have hco : coaddSliceInputs row.boxSize.toNat row.psfBoxSize.toNat v.nExtra
          (inp'.slices.map (resampleEpoch row lay)) inp'.weights = .ok co := by
        have := coaddSliceInputs_perm (box := row.boxSize.toNat) (psfBox := row.psfBoxSize.toNat) (nExtra := v.nExtra)
          (out := co) (k2.map fun p => (resampleEpoch row lay p.1, p.2)) (by rw [← z1, ← z2]; exact n1)
        rwa [← z1', ← z2'] at this
      rw [hco, ok_bind, n2]
      exact ⟨_, rfl, rfl, rfl, m3, k4.symm⟩
    · rename_i hpos
      rw [if_neg hpos]
      cases h5
      exact ⟨_, rfl, rfl, rfl, m3, k4.symm⟩
  obtain ⟨r', c1, c2⟩ := key
  refine ⟨r', ?_, c2⟩
  have ho : objRow v.objects i = .ok row := by unfold objRow; rw [h1]
  unfold coaddSingleSlice
  simp only []
  rw [ho, ok_bind, h2, ok_bind]
  show ((gaiaFor v row) >>= _) = _
  rw [h3, ok_bind]
  show ((buildSliceInputs v.ext (cfgFor v row gaia) (sources row.ra row.dec lay.raPsf lay.decPsf)
    (v.seeded seed')) >>= _) = _
  rw [k1, ok_bind]
  exact c1

/-- C123: a slice succeeds in the same cases. -/
theorem C123_succeeds {v : SliceEnv A σ S} {box psfBox : Nat} (hv : SoundEnv v box psfBox)
    (hro : v.cfg.rejectOutliers = false)
    (hm : ∀ ra dec raPsf decPsf, ∀ s ∈ v.sources ra dec raPsf decPsf, ∀ bm, s.reads.bmask = .ok bm →
      Unflagged v.cfg.noiseFlags bm)
    (sources : ℚ → ℚ → ℚ → ℚ → List Src)
    (hp : ∀ ra dec raPsf decPsf, (v.sources ra dec raPsf decPsf).Perm (sources ra dec raPsf decPsf))
    (i seed seed' : Nat) : (∃ r, coaddSingleSlice v i seed = .ok r) ↔
      ∃ r, coaddSingleSlice { v with sources := sources } i seed' = .ok r := by
  constructor
  · rintro ⟨r, h⟩
    obtain ⟨r', h', _⟩ := C123_slice hv hro hm sources hp h seed'
    exact ⟨r', h'⟩
  · rintro ⟨r, h⟩
    obtain ⟨r', h', _⟩ := C123_slice (v := { v with sources := sources }) (hv.perm sources hp) hro
      (fun a b c d s hs => hm a b c d s ((hp a b c d).mem_iff.2 hs)) v.sources (fun a b c d => (hp a b c d).symm) h seed
    exact ⟨r', h'⟩

/-- C123: the same for the slices of a tile, with the entries of its configuration in another order, each with its own
seeds for the noise fields. -/
theorem C123_tile {w : ProcWorld A σ S P} {t : Tile A S P} {box psfBox : Nat}
    (hv : SoundEnv (freshEnv w t) box psfBox) (hro : t.cfg.rejectOutliers = false)
    (hm : ∀ e ∈ t.entries, ∀ bm, freshMask w t e = .ok bm → Unflagged t.cfg.noiseFlags bm)
    {entries : List (Entry P)} (hp : t.entries.Perm entries) {i seed : Nat} {r : SliceRes Flt EpochRow}
    (h : coaddSingleSlice (freshEnv w t) i seed = .ok r) (seed' : Nat) :
    ∃ r', coaddSingleSlice (freshEnv w { t with entries := entries }) i seed' = .ok r' ∧ SameButOrder r' r := by
  refine C123_slice hv hro ?_ (fun ra dec raPsf decPsf => entries.map (freshSrc w t ra dec raPsf decPsf))
    (fun ra dec raPsf decPsf => hp.map _) h seed'
  intro ra dec raPsf decPsf s hs bm hb
  obtain ⟨e, he, rfl⟩ := List.mem_map.1 hs
  cases hc : (seInit w.disk e.src e.offset t.wcs t.psf).out with
  | error x =>
    obtain ⟨hr, -⟩ := freshSrc_error (w := w) (t := t) (e := e) ra dec raPsf decPsf hc
    rw [hr] at hb
    cases hb
  | ok con =>
    unfold freshSrc at hb
    rw [hc] at hb
    exact hm e he bm hb

/-- `C123_slice` and `C123_succeeds` without any sources. -/
example {v : SliceEnv A σ S} (hv : SoundEnv { v with sources := fun _ _ _ _ => [] } 3 3)
    (hro : v.cfg.rejectOutliers = false) (i seed seed' : Nat) :=
  And.intro
    (C123_succeeds hv hro (fun _ _ _ _ s hs => by cases hs) _ (fun _ _ _ _ => .refl _) i seed seed')
    (fun (r : SliceRes Flt EpochRow) h =>
      C123_slice hv hro (fun _ _ _ _ s hs => by cases hs) _ (fun _ _ _ _ => .refl _) (r := r) (i := i) (seed := seed) h seed')

end Pizza
