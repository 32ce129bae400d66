import Verif.Lemmas.EpochMap
import Verif.Props.Combine
import Verif.Props.MoreMasked
import Verif.Spec.Linear

/-!
C126: the image of a slice and each of its noise images come from the SE images by one and the same map, which is linear.
-/

namespace Pizza

variable {A σ S : Type}

theorem OtherPixels.refl (s : Src) : OtherPixels s s := rfl

theorem OtherPixels.dim {s s' : Src} (h : OtherPixels s s') :
    s'.nrow = s.nrow ∧ s'.ncol = s.ncol ∧ s'.imageId = s.imageId := by
  rw [h]
  exact ⟨rfl, rfl, rfl⟩

theorem forall₂_mem_right {α β : Type} {R : α → β → Prop} {l : List α} {m : List β} (h : List.Forall₂ R l m) :
    ∀ b ∈ m, ∃ a ∈ l, R a b := by
  induction h with
  | nil => simp
  | cons h1 _ ih =>
    intro b hb
    rcases List.mem_cons.1 hb with rfl | hb
    · exact ⟨_, List.mem_cons_self, h1⟩
    · obtain ⟨a, h3, h4⟩ := ih b hb
      exact ⟨a, List.mem_cons_of_mem _ h3, h4⟩

theorem sum_zip_map {α β : Type} {R : α → β → Prop} {es : List α} {ds : List β} (f : β → ℚ) (g h : α → ℚ)
    (hr : List.Forall₂ R es ds) (hfg : ∀ e d, e ∈ es → R e d → f d = g e) :
    ((ds.zip (es.map h)).map fun p => p.2 * f p.1).sum = (es.map fun e => h e * g e).sum := by
  induction hr with
  | nil => rfl
  | cons h1 _ ih =>
    simp only [List.map_cons, List.zip_cons_cons, List.sum_cons]
    rw [ih fun e d he => hfg e d (List.mem_cons_of_mem _ he), hfg _ _ List.mem_cons_self h1]

/-- The run of a slice, with the configuration that it computes. -/
theorem slice_run {v : SliceEnv A σ S} {box psfBox : Nat} (hv : SoundEnv v box psfBox) {i seed : Nat}
    {r : SliceRes Flt EpochRow} {p : SlicePix Flt} (h : coaddSingleSlice v i seed = .ok r) (hp : r.pix = some p) :
    ∃ row lay gaia inp ds, v.objects[i]? = some row ∧
      coaddPsfLayout v.fwd v.inv row.ra row.dec row.psfBoxSize v.offset = .ok lay ∧ gaiaFor v row = .ok gaia ∧
      buildSliceInputs v.ext (cfgFor v row gaia) (v.sources row.ra row.dec lay.raPsf lay.decPsf) (v.seeded seed) =
        .ok inp ∧ usedWeights r = (inp.slices.map (·.src.imageId)).zip inp.weights ∧
      (usedWeights r).map Prod.fst = inp.slices.map (·.src.imageId) ∧ inp.weights.sum = 1 ∧
      List.Forall₂ (SeenAs row lay) inp.slices ds ∧ ds.length = inp.weights.length ∧
      CombinationOf box psfBox v.nExtra (ds.zip inp.weights) p := by
  obtain ⟨row, lay, gaia, inp, h1, h2, h3, h4, h5⟩ := coaddSingleSlice_ok h
  have hr := List.mem_of_getElem? h1
  have x0 := hv.sane hr gaia row.ra row.dec lay.raPsf lay.decPsf
  have u0 : usedWeights r = (inp.slices.map (·.src.imageId)).zip inp.weights :=
    used_pairs x0 hv.fwhm h4 (coaddChosen_pix h5).1
  obtain ⟨hl, rows, c1, c2, c3⟩ := coaddChosen_ok hv hr h4
  by_cases hs : inp.slices = []
  · rw [c2 hs i] at h5
    cases h5
    cases hp
  · obtain ⟨w1, w2, c4, c5⟩ := c3 hs
    have hlook : ∀ e ∈ inp.slices, e.HasLookups := by
      rcases all_or_first Epoch.HasLookups inp.slices with h | ⟨pre, ep, post, q1, q2, q3⟩
      · exact h
      · obtain ⟨x, hx⟩ := not_hasLookups.1 q3
        rw [c5 pre ep post x q1 q2 hx i] at h5
        cases h5
    obtain ⟨ds, co, d1, d2, d3, d4⟩ := c4 hlook
    rw [d4 i] at h5
    cases hf : v.ext.fwhm co.psf with
    | error e => rw [hf] at h5; cases h5
    | ok sigma =>
      rw [hf] at h5
      cases h5
      cases hp
      refine ⟨row, lay, gaia, inp, ds, h1, h2, h3, h4, u0, ?_, w2, d1, d2, ?_⟩
      · rw [u0, List.map_fst_zip (by rw [List.length_map, hl])]
      · refine pixOf_combination sigma hv.boxPos ?_ d3
        rw [(zip_fst_snd d2).2, w2]
        exact one_ne_zero

/-- What the pixels of a slice are computed with, chosen for the whole slice. -/
theorem slice_map {v : SliceEnv A σ S} {box psfBox : Nat} (hv : SoundEnv v box psfBox)
    (hro : v.cfg.rejectOutliers = false)
    (hm : ∀ ra dec raPsf decPsf, ∀ s ∈ v.sources ra dec raPsf decPsf, ∀ bm, s.reads.bmask = .ok bm →
      Unflagged v.cfg.noiseFlags bm)
    (hid : ∀ ra dec raPsf decPsf, ((v.sources ra dec raPsf decPsf).map (·.imageId)).Nodup)
    (i : Nat) : ∃ (M : ℤ → Plane → Plane) (wt : ℤ → ℚ), (v.ext.LinearInterp → ∀ id, IsLinearMap ℚ (M id)) ∧
      ∀ other : ℚ → ℚ → ℚ → ℚ → List Src, (∀ ra dec raPsf decPsf, List.Forall₂ OtherPixels (v.sources ra dec raPsf decPsf)
        (other ra dec raPsf decPsf)) → SoundEnv { v with sources := other } box psfBox →
      ∀ seed r p, coaddSingleSlice { v with sources := other } i seed = .ok r → r.pix = some p →
        usedWeights r = ((usedWeights r).map Prod.fst).map (fun id =>
          (id, wt id / (((usedWeights r).map Prod.fst).map wt).sum)) ∧
        ∃ l, SourcesOf { v with sources := other } i l ∧
          (∀ f, ImagePlanes l f → RowMajor box p.image fun y x t =>
            t = .fin (((usedWeights r).map Prod.fst).map fun id =>
              (wt id / (((usedWeights r).map Prod.fst).map wt).sum) * M id (f id) y x).sum) ∧
          ∀ k < v.nExtra + 1, ∃ q, p.noises[k]? = some q ∧ ∀ f, NoisePlanes k l f → RowMajor box q fun y x t =>
            t = .fin (((usedWeights r).map Prod.fst).map fun id =>
              (wt id / (((usedWeights r).map Prod.fst).map wt).sum) * M id (f id) y x).sum := by
  by_cases hrun : ∃ row lay gaia, v.objects[i]? = some row ∧
      coaddPsfLayout v.fwd v.inv row.ra row.dec row.psfBoxSize v.offset = .ok lay ∧ gaiaFor v row = .ok gaia
  swap
  · refine ⟨fun _ _ => 0, fun _ => 0, fun _ _ => ⟨fun _ _ => (add_zero _).symm, fun _ _ => (smul_zero _).symm⟩, ?_⟩
    intro other _ hv' seed r p h hp
    obtain ⟨row, lay, gaia, inp, ds, h1, h2, h3, _⟩ := slice_run hv' h hp
    exact absurd ⟨row, lay, gaia, h1, h2, h3⟩ hrun
  obtain ⟨row, lay, gaia, g1, g2, g3⟩ := hrun
  have hr := List.mem_of_getElem? g1
  have hc : 1 ≤ (cfgFor v row gaia).boxSize := by
    show 1 ≤ row.boxSize
    rw [(hv.rows row hr).1]
    exact_mod_cast hv.boxPos
  have key : ∀ id : ℤ, ∃ (M : Plane → Plane) (wt : ℚ), (v.ext.LinearInterp → IsLinearMap ℚ M) ∧
      ∀ s ∈ v.sources row.ra row.dec lay.raPsf lay.decPsf, s.imageId = id →
        (∀ f g, AgreeOn s.nrow s.ncol f g → M f = M g) ∧
        ∀ s', OtherPixels s s' → s'.WellShaped → ∀ o w, UsedAs v.ext (cfgFor v row gaia) s' o w → w = wt ∧
          ∀ lay d, SeenAs row lay ⟨s', o⟩ d → ∃ im bkg ns, s'.reads.image = .ok im ∧ s'.reads.bkg = .ok bkg ∧
            s'.reads.noises = .ok ns ∧
            AgreeOn row.boxSize.toNat row.boxSize.toNat d.image.px (M (calibrated s' im bkg)) ∧
            ∀ k a, ns[k]? = some a →
              AgreeOn row.boxSize.toNat row.boxSize.toNat (fun r c => noisePx k r c d) (M a.px) := by
    intro id
    by_cases hs : ∃ s ∈ v.sources row.ra row.dec lay.raPsf lay.decPsf, s.imageId = id
    · obtain ⟨s, s1, s2⟩ := hs
      obtain ⟨M, wt, m1, m2, m3⟩ := epoch_map (x := v.ext) (c := cfgFor v row gaia) hc hv.frac hro hv.keeps row s
        (hm _ _ _ _ s s1)
      refine ⟨M, wt, m1, fun t t1 t2 => ?_⟩
      have : t = s := List.inj_on_of_nodup_map (hid _ _ _ _) t1 s1 (t2.trans s2.symm)
      subst this
      exact ⟨m2, m3⟩
    · refine ⟨fun _ => 0, 0, fun _ => ⟨fun _ _ => (add_zero _).symm, fun _ _ => (smul_zero _).symm⟩, ?_⟩
      intro s s1 s2
      exact absurd ⟨s, s1, s2⟩ hs
  choose M wt hM hW using key
  refine ⟨M, wt, fun hl id => hM id hl, ?_⟩
  intro other hop hv' seed r p h hp
  obtain ⟨row', lay', gaia', inp, ds, h1, h2, h3, h4, h50, h5, h6, h7, h8, h9⟩ := slice_run hv' h hp
  cases g1.symm.trans h1
  cases g2.symm.trans h2
  cases g3.symm.trans (h3 : gaiaFor v row = _)
  have x0 := hv'.sane hr gaia row.ra row.dec lay.raPsf lay.decPsf
  obtain ⟨ws, w1, w2⟩ := inputs_usedAs (x := v.ext) (c := cfgFor v row gaia) x0 hro h4
  have hbox : row.boxSize.toNat = box := by
    rw [(hv.rows row hr).1]
    rfl
  have hsrc : ∀ s' ∈ other row.ra row.dec lay.raPsf lay.decPsf,
      ∃ s ∈ v.sources row.ra row.dec lay.raPsf lay.decPsf, OtherPixels s s' := forall₂_mem_right (hop _ _ _ _)
  have hwt : ws = inp.slices.map fun e => wt e.src.imageId := by
    clear h50 h5 h7 h8 h9 w1
    generalize inp.slices = es at w2
    induction w2 with
    | nil => rfl
    | cons a _ ih =>
      rw [List.map_cons, ← ih]
      obtain ⟨a1, a2⟩ := a
      obtain ⟨s, s1, s2⟩ := hsrc _ a1
      rw [((hW _ s s1 s2.dim.2.2.symm).2 _ s2 (hv'.shape _ _ _ _ _ a1) _ _ a2).1]
  have hused : ∀ e ∈ inp.slices, e.src ∈ other row.ra row.dec lay.raPsf lay.decPsf ∧
      ∃ w, UsedAs v.ext (cfgFor v row gaia) e.src e.obj w := by
    intro e he
    obtain ⟨w, _, w3⟩ := forall₂_mem_right w2.flip e he
    exact ⟨w3.1, w, w3.2⟩
  have hmean : ∀ (f : EpochData → ℚ) (g : Epoch → ℚ), (∀ e d, e ∈ inp.slices → SeenAs row lay e d → f d = g e) →
      wMean (ds.zip inp.weights) f = (inp.slices.map fun e => (wt e.src.imageId / ws.sum) * g e).sum := by
    intro f g hfg
    unfold wMean
    rw [(zip_fst_snd h8).2, h6, div_one, w1]
    conv_lhs => rw [hwt, List.map_map]
    rw [sum_zip_map f g _ h7 hfg]
    rw [← hwt]
    rfl
  have hids : ∀ g : ℤ → ℚ, (((usedWeights r).map Prod.fst).map fun id =>
      (wt id / (((usedWeights r).map Prod.fst).map wt).sum) * g id).sum =
      (inp.slices.map fun e => (wt e.src.imageId / ws.sum) * g e.src.imageId).sum := by
    intro g
    rw [h5, List.map_map, List.map_map, hwt]
    rfl
  have hpairs : usedWeights r = ((usedWeights r).map Prod.fst).map (fun id =>
      (id, wt id / (((usedWeights r).map Prod.fst).map wt).sum)) := by
    rw [h5, h50, w1, List.map_map, List.map_map]
    conv_lhs => rw [hwt, List.map_map]
    rw [List.zip_map']
    rfl
  refine ⟨hpairs, _, ⟨row, lay, g1, g2, rfl⟩, fun f hf => ?_, fun k hk => ?_⟩
  · refine ⟨h9.image.1, fun y hy x hx => ?_⟩
    obtain ⟨t, t1, rfl⟩ := h9.image.2 y hy x hx
    refine ⟨_, t1, ?_⟩
    congr 1
    rw [hids fun id => M id (f id) y x]
    refine hmean _ _ fun e d he hd => ?_
    obtain ⟨e1, w, e2⟩ := hused e he
    obtain ⟨s, s1, s2⟩ := hsrc _ e1
    obtain ⟨n1, n2⟩ := hW _ s s1 s2.dim.2.2.symm
    obtain ⟨_, n3⟩ := n2 _ s2 (hv'.shape _ _ _ _ _ e1) _ _ e2
    obtain ⟨im, bkg, ns, i1, i2, i3, i4, i5⟩ := n3 lay d hd
    rw [i4 y (by rw [hbox]; exact hy) x (by rw [hbox]; exact hx)]
    refine congrFun (congrFun ?_ y) x
    refine n1 _ _ fun a ha b hb => (hf _ e1 im bkg i1 i2 a ?_ b ?_).symm
    · rw [s2.dim.1]; exact ha
    · rw [s2.dim.2.1]; exact hb
  · obtain ⟨q, q1, q2⟩ := h9.noise k hk
    refine ⟨q, q1, fun f hf => ⟨q2.1, fun y hy x hx => ?_⟩⟩
    obtain ⟨t, t1, rfl⟩ := q2.2 y hy x hx
    refine ⟨_, t1, ?_⟩
    congr 1
    rw [hids fun id => M id (f id) y x]
    refine hmean _ _ fun e d he hd => ?_
    obtain ⟨e1, w, e2⟩ := hused e he
    obtain ⟨s, s1, s2⟩ := hsrc _ e1
    obtain ⟨n1, n2⟩ := hW _ s s1 s2.dim.2.2.symm
    obtain ⟨_, n3⟩ := n2 _ s2 (hv'.shape _ _ _ _ _ e1) _ _ e2
    obtain ⟨im, bkg, ns, i1, i2, i3, i4, i5⟩ := n3 lay d hd
    have hlen := hv'.noises _ _ _ _ _ e1 ns i3
    have hkn : k < ns.length := by
      rw [hlen]
      exact hk
    have hget := List.getElem?_eq_getElem hkn
    refine (i5 k _ hget y (by rw [hbox]; exact hy) x (by rw [hbox]; exact hx)).trans ?_
    refine congrFun (congrFun ?_ y) x
    refine n1 _ _ fun a ha b hb => (hf _ e1 ns _ i3 hget a ?_ b ?_).symm
    · rw [s2.dim.1]; exact ha
    · rw [s2.dim.2.1]; exact hb

/-- **C126** The image of a slice and each of its noise images come from the SE images by one and the same map, the image from the
calibrated pixels and each noise image from its own noise fields.  Which map it is depends on the images used, their masks and
weight maps, their WCSs and the configuration, not on the pixels; it is linear if the interpolation is. -/
theorem C126_map {v : SliceEnv A σ S} {box psfBox : Nat} (hv : SoundEnv v box psfBox)
    (hro : v.cfg.rejectOutliers = false)
    (hm : ∀ ra dec raPsf decPsf, ∀ s ∈ v.sources ra dec raPsf decPsf, ∀ bm, s.reads.bmask = .ok bm →
      Unflagged v.cfg.noiseFlags bm)
    (hid : ∀ ra dec raPsf decPsf, ((v.sources ra dec raPsf decPsf).map (·.imageId)).Nodup) (i : Nat) :
    ∃ (F : List ℤ → (ℤ → Nat → Nat → ℚ) → Nat → Nat → ℚ) (W : List ℤ → ℤ → ℚ),
      (v.ext.LinearInterp → ∀ ids, IsLinearMap ℚ (F ids)) ∧
      (∀ ids f g, (∀ id ∈ ids, f id = g id) → F ids f = F ids g) ∧
      ∀ other : ℚ → ℚ → ℚ → ℚ → List Src, (∀ ra dec raPsf decPsf, List.Forall₂ OtherPixels (v.sources ra dec raPsf decPsf)
        (other ra dec raPsf decPsf)) → SoundEnv { v with sources := other } box psfBox →
      ∀ seed r p, coaddSingleSlice { v with sources := other } i seed = .ok r → r.pix = some p →
        usedWeights r = ((usedWeights r).map Prod.fst).map (fun id => (id, W ((usedWeights r).map Prod.fst) id)) ∧
        ∃ l, SourcesOf { v with sources := other } i l ∧
          (∀ f, ImagePlanes l f → HoldsPlane box p.image (F ((usedWeights r).map Prod.fst) f)) ∧
          ∀ k < v.nExtra + 1, ∃ q, p.noises[k]? = some q ∧
            ∀ f, NoisePlanes k l f → HoldsPlane box q (F ((usedWeights r).map Prod.fst) f) := by
  obtain ⟨M, wt, h1, h2⟩ := slice_map hv hro hm hid i
  refine ⟨fun ids f y x => (ids.map fun id => (wt id / (ids.map wt).sum) * M id (f id) y x).sum,
    fun ids id => wt id / (ids.map wt).sum, ?_, ?_, ?_⟩
  · intro hl ids
    constructor
    · intro f g
      funext y x
      simp only [Pi.add_apply]
      rw [← List.sum_map_add]
      congr 1
      refine List.map_congr_left fun id _ => ?_
      rw [(h1 hl id).map_add, Pi.add_apply, Pi.add_apply]
      ring
    · intro a f
      funext y x
      simp only [Pi.smul_apply, smul_eq_mul]
      rw [← List.sum_map_mul_left]
      congr 1
      refine List.map_congr_left fun id _ => ?_
      rw [(h1 hl id).map_smul, Pi.smul_apply, Pi.smul_apply, smul_eq_mul]
      ring
  · intro ids f g hfg
    funext y x
    refine congrArg List.sum (List.map_congr_left fun id hid => ?_)
    rw [hfg id hid]
  · intro other ho hv' seed r p h hp
    obtain ⟨l0, l, l1, l2, l3⟩ := h2 other ho hv' seed r p h hp
    have hold : ∀ {q : List Flt} {f : Nat → Nat → ℚ}, (RowMajor box q fun y x t => t = .fin (f y x)) →
        HoldsPlane box q f := by
      intro q f hq
      refine ⟨hq.1, fun y hy x hx => ?_⟩
      obtain ⟨t, t1, rfl⟩ := hq.2 y hy x hx
      exact t1
    refine ⟨l0, l, l1, fun f hf => hold (l2 f hf), fun k hk => ?_⟩
    obtain ⟨q, q1, q2⟩ := l3 k hk
    exact ⟨q, q1, fun f hf => hold (q2 f hf)⟩

/-- The planes of a list with distinct ids exist. -/
theorem planes_exist (l : List Src) (h : (l.map (·.imageId)).Nodup) (px : Src → Nat → Nat → ℚ) :
    ∃ f : ℤ → Nat → Nat → ℚ, ∀ s ∈ l, f s.imageId = px s := by
  classical
  refine ⟨fun id => if h : ∃ s ∈ l, s.imageId = id then px h.choose else 0, fun s hs => ?_⟩
  have hex : ∃ t ∈ l, t.imageId = s.imageId := ⟨s, hs, rfl⟩
  refine (dif_pos hex).trans ?_
  rw [List.inj_on_of_nodup_map h hex.choose_spec.1 hs hex.choose_spec.2]

theorem imagePlanes_exist {l : List Src} (h : (l.map (·.imageId)).Nodup) : ∃ f, ImagePlanes l f := by
  obtain ⟨f, hf⟩ := planes_exist l h fun s => match s.reads.image, s.reads.bkg with
    | .ok im, .ok bkg => calibrated s im bkg
    | _, _ => 0
  refine ⟨f, fun s hs im bkg h1 h2 r _ c _ => ?_⟩
  rw [hf s hs, h1, h2]

theorem noisePlanes_exist {l : List Src} (h : (l.map (·.imageId)).Nodup) (k : Nat) : ∃ f, NoisePlanes k l f := by
  obtain ⟨f, hf⟩ := planes_exist l h fun s => match s.reads.noises with
    | .ok ns => (ns[k]?).elim 0 (·.px)
    | _ => 0
  refine ⟨f, fun s hs ns a h1 h2 r _ c _ => ?_⟩
  rw [hf s hs, h1]
  simp only [h2]
  rfl

theorem OtherPixels.ids {l l' : List Src} (h : List.Forall₂ OtherPixels l l') :
    l'.map (·.imageId) = l.map (·.imageId) := by
  induction h with
  | nil => rfl
  | cons h1 _ ih => rw [List.map_cons, List.map_cons, ih, h1.dim.2.2]

theorem forall₂_and {α β : Type} {R Q : α → β → Prop} {l : List α} {m : List β} (h : List.Forall₂ R l m)
    (h' : List.Forall₂ Q l m) : List.Forall₂ (fun a b => R a b ∧ Q a b) l m := by
  induction h with
  | nil => exact .nil
  | cons h1 _ ih =>
    cases h' with
    | cons g1 g2 => exact .cons ⟨h1, g1⟩ (ih g2)

/-- SE images of the lists in the same place. -/
theorem forall₂_mem_both {α β γ : Type} {R : α → β → Prop} {Q : α → γ → Prop} {l : List α} {m : List β} {n : List γ}
    (h : List.Forall₂ R l m) (h' : List.Forall₂ Q l n) : ∀ c ∈ n, ∃ a ∈ l, ∃ b ∈ m, R a b ∧ Q a c := by
  induction h generalizing n with
  | nil => cases h'; simp
  | cons h1 _ ih =>
    cases h' with
    | cons g1 g2 =>
      intro c hc
      rcases List.mem_cons.1 hc with rfl | hc
      · exact ⟨_, List.mem_cons_self, _, List.mem_cons_self, h1, g1⟩
      · obtain ⟨a, h3, b, h4, h5⟩ := ih g2 c hc
        exact ⟨a, List.mem_cons_of_mem _ h3, b, List.mem_cons_of_mem _ h4, h5⟩

theorem SourcesOf.unique {v : SliceEnv A σ S} {i : Nat} {l l' : List Src} (h : SourcesOf v i l) (h' : SourcesOf v i l') :
    l = l' := by
  obtain ⟨row, lay, h1, h2, rfl⟩ := h
  obtain ⟨row', lay', h3, h4, rfl⟩ := h'
  cases h1.symm.trans h3
  cases h2.symm.trans h4
  rfl

theorem SourcesOf.other {v : SliceEnv A σ S} {i : Nat} {l l' : List Src} {R : Src → Src → Prop}
    {other : ℚ → ℚ → ℚ → ℚ → List Src} (hR : ∀ a b c d, List.Forall₂ R (v.sources a b c d) (other a b c d))
    (h : SourcesOf v i l) (h' : SourcesOf { v with sources := other } i l') : List.Forall₂ R l l' := by
  obtain ⟨row, lay, h1, h2, rfl⟩ := h
  obtain ⟨row', lay', h3, h4, rfl⟩ := h'
  cases h1.symm.trans h3
  cases h2.symm.trans h4
  exact hR _ _ _ _

theorem sumOfLists_of {n : Nat} {α β : ℚ} {l1 l2 l3 : List Flt} {f1 f2 f3 : Nat → Nat → ℚ} (h1 : HoldsPlane n l1 f1)
    (h2 : HoldsPlane n l2 f2) (h3 : HoldsPlane n l3 f3) (h : f3 = α • f1 + β • f2) :
    SumOfLists (n * n) α β l1 l2 l3 := by
  refine ⟨h1.1, h2.1, h3.1, fun j hj => ?_⟩
  have hn : 0 < n := Nat.pos_of_mul_pos_left (Nat.zero_lt_of_lt hj)
  have hy : j / n < n := Nat.div_lt_of_lt_mul hj
  have hx : j % n < n := Nat.mod_lt _ hn
  have hjj : j / n * n + j % n = j := by rw [Nat.mul_comm]; exact Nat.div_add_mod j n
  have g1 := h1.2 _ hy _ hx
  have g2 := h2.2 _ hy _ hx
  have g3 := h3.2 _ hy _ hx
  rw [hjj] at g1 g2 g3
  refine ⟨_, _, g1, g2, ?_⟩
  rw [g3, h]
  rfl

/-- **C126** Superposition: if the pixels of the SE images are sums of multiples of those of two other sets of SE images with the
same masks, weight maps and WCSs, the pixels of the image and of the noise images of the slice are, too. -/
theorem C126_superpose {v : SliceEnv A σ S} {box psfBox : Nat} (hv : SoundEnv v box psfBox)
    (hro : v.cfg.rejectOutliers = false)
    (hm : ∀ ra dec raPsf decPsf, ∀ s ∈ v.sources ra dec raPsf decPsf, ∀ bm, s.reads.bmask = .ok bm →
      Unflagged v.cfg.noiseFlags bm)
    (hid : ∀ ra dec raPsf decPsf, ((v.sources ra dec raPsf decPsf).map (·.imageId)).Nodup)
    (hl : v.ext.LinearInterp) (two three : ℚ → ℚ → ℚ → ℚ → List Src)
    (h2 : ∀ ra dec raPsf decPsf, List.Forall₂ OtherPixels (v.sources ra dec raPsf decPsf) (two ra dec raPsf decPsf))
    (h3 : ∀ ra dec raPsf decPsf, List.Forall₂ OtherPixels (v.sources ra dec raPsf decPsf) (three ra dec raPsf decPsf))
    (hv2 : SoundEnv { v with sources := two } box psfBox) (hv3 : SoundEnv { v with sources := three } box psfBox)
    {α β : ℚ} (hs : ∀ ra dec raPsf decPsf, ∀ s1 ∈ v.sources ra dec raPsf decPsf, ∀ s2 ∈ two ra dec raPsf decPsf,
      ∀ s3 ∈ three ra dec raPsf decPsf, s2.imageId = s1.imageId → s3.imageId = s1.imageId → SumOf α β s1 s2 s3)
    {i seed1 seed2 seed3 : Nat} {r1 r2 r3 : SliceRes Flt EpochRow} {p1 p2 p3 : SlicePix Flt}
    (e1 : coaddSingleSlice v i seed1 = .ok r1) (e2 : coaddSingleSlice { v with sources := two } i seed2 = .ok r2)
    (e3 : coaddSingleSlice { v with sources := three } i seed3 = .ok r3)
    (u2 : (usedWeights r2).map Prod.fst = (usedWeights r1).map Prod.fst)
    (u3 : (usedWeights r3).map Prod.fst = (usedWeights r1).map Prod.fst)
    (q1 : r1.pix = some p1) (q2 : r2.pix = some p2) (q3 : r3.pix = some p3) :
    SumOfLists (box * box) α β p1.image p2.image p3.image ∧
    ∀ k < v.nExtra + 1, ∃ n1 n2 n3, p1.noises[k]? = some n1 ∧ p2.noises[k]? = some n2 ∧ p3.noises[k]? = some n3 ∧
      SumOfLists (box * box) α β n1 n2 n3 := by
  obtain ⟨F, W, F1, F2, F3⟩ := C126_map hv hro hm hid i
  have hrefl : ∀ ra dec raPsf decPsf, List.Forall₂ OtherPixels (v.sources ra dec raPsf decPsf)
      (v.sources ra dec raPsf decPsf) := fun _ _ _ _ => List.forall₂_same.2 fun s _ => .refl s
  obtain ⟨_, l1, s1, i1, n1⟩ := F3 v.sources hrefl hv seed1 r1 p1 e1 q1
  obtain ⟨_, l2, s2, i2, n2⟩ := F3 two h2 hv2 seed2 r2 p2 e2 q2
  obtain ⟨_, l3, s3, i3, n3⟩ := F3 three h3 hv3 seed3 r3 p3 e3 q3
  have d1 : (l1.map (·.imageId)).Nodup := by
    obtain ⟨row, lay, _, _, rfl⟩ := s1
    exact hid _ _ _ _
  have o2 : List.Forall₂ OtherPixels l1 l2 := SourcesOf.other h2 s1 s2
  have o3 : List.Forall₂ OtherPixels l1 l3 := SourcesOf.other h3 s1 s3
  have d2 : (l2.map (·.imageId)).Nodup := by rw [OtherPixels.ids o2]; exact d1
  have hsum : ∀ x ∈ l1, ∀ y ∈ l2, ∀ z ∈ l3, y.imageId = x.imageId → z.imageId = x.imageId → SumOf α β x y z := by
    obtain ⟨row, lay, r1, r2, rfl⟩ := s1
    obtain ⟨row', lay', r3, r4, rfl⟩ := s2
    obtain ⟨row'', lay'', r5, r6, rfl⟩ := s3
    cases r1.symm.trans r3
    cases r2.symm.trans r4
    cases r1.symm.trans r5
    cases r2.symm.trans r6
    exact hs _ _ _ _
  rw [u2] at i2 n2
  rw [u3] at i3 n3
  have lin := F1 hl ((usedWeights r1).map Prod.fst)
  have hF : ∀ f g, F ((usedWeights r1).map Prod.fst) (α • f + β • g) =
      α • F ((usedWeights r1).map Prod.fst) f + β • F ((usedWeights r1).map Prod.fst) g := by
    intro f g
    rw [lin.map_add, lin.map_smul, lin.map_smul]
  constructor
  · obtain ⟨f, hf⟩ := imagePlanes_exist d1
    obtain ⟨g, hg⟩ := imagePlanes_exist d2
    refine sumOfLists_of (i1 f hf) (i2 g hg) (i3 (α • f + β • g) ?_) (hF f g)
    intro z hz im bkg z1 z2 r hr c hc
    obtain ⟨x, hx, y, hy, xy, xz⟩ := forall₂_mem_both o2 o3 z hz
    obtain ⟨⟨im1, bkg1, im2, bkg2, im3, bkg3, a1, a2, a3, a4, a5, a6, a7⟩, _⟩ :=
      hsum x hx y hy z hz xy.dim.2.2 xz.dim.2.2
    cases z1.symm.trans a5
    cases z2.symm.trans a6
    rw [xz.dim.1] at hr
    rw [xz.dim.2.1] at hc
    rw [a7 r hr c hc, ← hf x hx im1 bkg1 a1 a2 r hr c hc,
      ← hg y hy im2 bkg2 a3 a4 r (by rw [xy.dim.1]; exact hr) c (by rw [xy.dim.2.1]; exact hc), xy.dim.2.2, xz.dim.2.2]
    rfl
  · intro k hk
    obtain ⟨m1, b1, c1⟩ := n1 k hk
    obtain ⟨m2, b2, c2⟩ := n2 k hk
    obtain ⟨m3, b3, c3⟩ := n3 k hk
    refine ⟨m1, m2, m3, b1, b2, b3, ?_⟩
    obtain ⟨f, hf⟩ := noisePlanes_exist d1 k
    obtain ⟨g, hg⟩ := noisePlanes_exist d2 k
    refine sumOfLists_of (c1 f hf) (c2 g hg) (c3 (α • f + β • g) ?_) (hF f g)
    intro z hz ns a z1 z2 r hr c hc
    obtain ⟨x, hx, y, hy, xy, xz⟩ := forall₂_mem_both o2 o3 z hz
    obtain ⟨_, ns1, ns2, ns3, a1, a2, a3, a7⟩ := hsum x hx y hy z hz xy.dim.2.2 xz.dim.2.2
    cases z1.symm.trans a3
    have k1 : k < ns1.length := by
      obtain ⟨row, lay, _, _, rfl⟩ := s1
      rw [hv.noises _ _ _ _ x hx ns1 a1]
      exact hk
    have k2 : k < ns2.length := by
      obtain ⟨row, lay, _, _, rfl⟩ := s2
      rw [hv2.noises _ _ _ _ y hy ns2 a2]
      exact hk
    have j1 := List.getElem?_eq_getElem k1
    have j2 := List.getElem?_eq_getElem k2
    rw [xz.dim.1] at hr
    rw [xz.dim.2.1] at hc
    rw [a7 k _ _ _ j1 j2 z2 r hr c hc, ← hf x hx ns1 _ a1 j1 r hr c hc,
      ← hg y hy ns2 _ a2 j2 r (by rw [xy.dim.1]; exact hr) c (by rw [xy.dim.2.1]; exact hc), xy.dim.2.2, xz.dim.2.2]
    rfl

theorem OtherPixels.masked {s s' : Src} (h : OtherPixels s s') : MoreMasked s s' ∧ MoreMasked s' s := by
  have hb : s'.reads.bmask = s.reads.bmask := by rw [h]
  have hw : s'.reads.weight = s.reads.weight := by rw [h]
  have : MoreMasked s s' := by
    refine ⟨?_, ?_, ?_, ?_, ?_, ?_, ?_, ?_, ?_, ?_, fun b b' h1 h2 => ?_, fun a a' h1 h2 => ?_⟩
    · rw [h]
    · rw [h]
    · rw [h]
    · rw [h]
    · rw [h]
    · rw [h]
    · rw [h]
    · rw [h]
    · rw [h]
    · rw [h]
    · rw [hb, h1] at h2
      cases h2
      exact .refl b
    · rw [hw, h1] at h2
      cases h2
      exact .refl a
  exact ⟨this, this.symm hb hw⟩

/-- **C126** The same SE images are used whatever the pixels are. -/
theorem C126_same_used {v : SliceEnv A σ S} {box psfBox : Nat} (hv : SoundEnv v box psfBox)
    (hx : v.ext.RotatesMore) (hro : v.cfg.rejectOutliers = false)
    (other : ℚ → ℚ → ℚ → ℚ → List Src)
    (ho : ∀ ra dec raPsf decPsf, List.Forall₂ OtherPixels (v.sources ra dec raPsf decPsf) (other ra dec raPsf decPsf))
    (hv' : SoundEnv { v with sources := other } box psfBox) {i seed seed' : Nat} {r r' : SliceRes Flt EpochRow}
    (h : coaddSingleSlice v i seed = .ok r) (h' : coaddSingleSlice { v with sources := other } i seed' = .ok r') :
    (usedWeights r').map Prod.fst = (usedWeights r).map Prod.fst :=
  C125_values hv hx hro other hv' (fun a b c d => (ho a b c d).imp fun _ _ h => h.masked) h h'

theorem holdsPlane_unique {n : Nat} {l l' : List Flt} {f : Nat → Nat → ℚ} (h : HoldsPlane n l f) (h' : HoldsPlane n l' f) :
    l = l' := by
  refine List.ext_getElem? fun j => ?_
  by_cases hj : j < n * n
  · have hn : 0 < n := Nat.pos_of_mul_pos_left (Nat.zero_lt_of_lt hj)
    have g1 := h.2 _ (Nat.div_lt_of_lt_mul hj) _ (Nat.mod_lt j hn)
    have g2 := h'.2 _ (Nat.div_lt_of_lt_mul hj) _ (Nat.mod_lt j hn)
    have hjj : j / n * n + j % n = j := by rw [Nat.mul_comm]; exact Nat.div_add_mod j n
    rw [hjj] at g1 g2
    rw [g1, g2]
  · rw [List.getElem?_eq_none (by rw [h.1]; omega), List.getElem?_eq_none (by rw [h'.1]; omega)]

/-- **C126** A noise field that holds the calibrated pixels of the image of each SE image gives the image of the slice. -/
theorem C126_noise_as_image {v : SliceEnv A σ S} {box psfBox : Nat} (hv : SoundEnv v box psfBox)
    (hro : v.cfg.rejectOutliers = false)
    (hm : ∀ ra dec raPsf decPsf, ∀ s ∈ v.sources ra dec raPsf decPsf, ∀ bm, s.reads.bmask = .ok bm →
      Unflagged v.cfg.noiseFlags bm)
    (hid : ∀ ra dec raPsf decPsf, ((v.sources ra dec raPsf decPsf).map (·.imageId)).Nodup) {k : Nat}
    (hk : k < v.nExtra + 1)
    (hs : ∀ ra dec raPsf decPsf, ∀ s ∈ v.sources ra dec raPsf decPsf, ∀ ns a, s.reads.noises = .ok ns → ns[k]? = some a →
      ∃ im bkg, s.reads.image = .ok im ∧ s.reads.bkg = .ok bkg ∧ ∀ r < s.nrow, ∀ c < s.ncol,
        a.px r c = calibrated s im bkg r c)
    {i seed : Nat} {r : SliceRes Flt EpochRow} {p : SlicePix Flt} (h : coaddSingleSlice v i seed = .ok r)
    (hp : r.pix = some p) : p.noises[k]? = some p.image := by
  obtain ⟨F, W, -, -, F3⟩ := C126_map hv hro hm hid i
  obtain ⟨_, l, s1, i1, n1⟩ := F3 v.sources (fun _ _ _ _ => List.forall₂_same.2 fun s _ => .refl s) hv seed r p h hp
  obtain ⟨row, lay, _, _, rfl⟩ := s1
  obtain ⟨q, q1, q2⟩ := n1 k hk
  obtain ⟨f, hf⟩ := imagePlanes_exist (hid row.ra row.dec lay.raPsf lay.decPsf)
  rw [q1, holdsPlane_unique (q2 f ?_) (i1 f hf)]
  intro s hs' ns a h1 h2 y hy x hx
  obtain ⟨im, bkg, j1, j2, j3⟩ := hs _ _ _ _ s hs' ns a h1 h2
  rw [hf s hs' im bkg j1 j2 y hy x hx, j3 y hy x hx]

/-- **C126** Two noise fields with the same pixels in each SE image give the same noise images. -/
theorem C126_noises_alike {v : SliceEnv A σ S} {box psfBox : Nat} (hv : SoundEnv v box psfBox)
    (hro : v.cfg.rejectOutliers = false)
    (hm : ∀ ra dec raPsf decPsf, ∀ s ∈ v.sources ra dec raPsf decPsf, ∀ bm, s.reads.bmask = .ok bm →
      Unflagged v.cfg.noiseFlags bm)
    (hid : ∀ ra dec raPsf decPsf, ((v.sources ra dec raPsf decPsf).map (·.imageId)).Nodup) {k k' : Nat}
    (hk : k < v.nExtra + 1) (hk' : k' < v.nExtra + 1)
    (hs : ∀ ra dec raPsf decPsf, ∀ s ∈ v.sources ra dec raPsf decPsf, ∀ ns a b, s.reads.noises = .ok ns → ns[k]? = some a →
      ns[k']? = some b → ∀ r < s.nrow, ∀ c < s.ncol, a.px r c = b.px r c)
    {i seed : Nat} {r : SliceRes Flt EpochRow} {p : SlicePix Flt} (h : coaddSingleSlice v i seed = .ok r)
    (hp : r.pix = some p) : p.noises[k]? = p.noises[k']? := by
  obtain ⟨F, W, -, -, F3⟩ := C126_map hv hro hm hid i
  obtain ⟨_, l, s1, i1, n1⟩ := F3 v.sources (fun _ _ _ _ => List.forall₂_same.2 fun s _ => .refl s) hv seed r p h hp
  obtain ⟨row, lay, _, _, rfl⟩ := s1
  obtain ⟨q, q1, q2⟩ := n1 k hk
  obtain ⟨q', q1', q2'⟩ := n1 k' hk'
  obtain ⟨f, hf⟩ := noisePlanes_exist (hid row.ra row.dec lay.raPsf lay.decPsf) k
  rw [q1, q1', holdsPlane_unique (q2 f hf) (q2' f ?_)]
  intro s hs' ns b h1 h2 y hy x hx
  have hkn : k < ns.length := by
    rw [hv.noises _ _ _ _ s hs' ns h1]
    exact hk
  have hget := List.getElem?_eq_getElem hkn
  rw [hf s hs' ns _ h1 hget y hy x hx, hs _ _ _ _ s hs' ns _ b h1 hget h2 y hy x hx]

/-- **C126** The image of a slice does not depend on the noise fields, nor a noise image on the image or the other noise
fields: only the pixels that it is made of count. -/
theorem C126_own_pixels {v : SliceEnv A σ S} {box psfBox : Nat} (hv : SoundEnv v box psfBox)
    (hro : v.cfg.rejectOutliers = false)
    (hm : ∀ ra dec raPsf decPsf, ∀ s ∈ v.sources ra dec raPsf decPsf, ∀ bm, s.reads.bmask = .ok bm →
      Unflagged v.cfg.noiseFlags bm)
    (hid : ∀ ra dec raPsf decPsf, ((v.sources ra dec raPsf decPsf).map (·.imageId)).Nodup)
    (other : ℚ → ℚ → ℚ → ℚ → List Src)
    (ho : ∀ ra dec raPsf decPsf, List.Forall₂ OtherPixels (v.sources ra dec raPsf decPsf) (other ra dec raPsf decPsf))
    (hv' : SoundEnv { v with sources := other } box psfBox) {i seed seed' : Nat} {r r' : SliceRes Flt EpochRow}
    {p p' : SlicePix Flt} (h : coaddSingleSlice v i seed = .ok r)
    (h' : coaddSingleSlice { v with sources := other } i seed' = .ok r')
    (hu : (usedWeights r').map Prod.fst = (usedWeights r).map Prod.fst) (hp : r.pix = some p) (hp' : r'.pix = some p') :
    usedWeights r' = usedWeights r ∧
    ((∀ ra dec raPsf decPsf, List.Forall₂ (fun s s' => s'.reads.image = s.reads.image ∧ s'.reads.bkg = s.reads.bkg)
      (v.sources ra dec raPsf decPsf) (other ra dec raPsf decPsf)) → p'.image = p.image) ∧
    ∀ k < v.nExtra + 1, (∀ ra dec raPsf decPsf, List.Forall₂ (fun s s' => ∃ ns ns', s.reads.noises = .ok ns ∧
      s'.reads.noises = .ok ns' ∧ ns'[k]? = ns[k]?)
      (v.sources ra dec raPsf decPsf) (other ra dec raPsf decPsf)) → p'.noises[k]? = p.noises[k]? := by
  obtain ⟨F, W, -, -, F3⟩ := C126_map hv hro hm hid i
  obtain ⟨w1, l, s1, i1, n1⟩ := F3 v.sources (fun _ _ _ _ => List.forall₂_same.2 fun s _ => .refl s) hv seed r p h hp
  obtain ⟨w1', l', s1', i1', n1'⟩ := F3 other ho hv' seed' r' p' h' hp'
  have d1 : (l.map (·.imageId)).Nodup := by
    obtain ⟨row, lay, _, _, rfl⟩ := s1
    exact hid _ _ _ _
  have oo : List.Forall₂ OtherPixels l l' := SourcesOf.other ho s1 s1'
  rw [hu] at i1' n1'
  refine ⟨?_, fun hs => ?_, fun k hk hs => ?_⟩
  · rw [w1', hu, ← w1]
  · have os := SourcesOf.other hs s1 s1'
    obtain ⟨f, hf⟩ := imagePlanes_exist d1
    refine holdsPlane_unique (i1' f ?_) (i1 f hf)
    intro s' hs' im bkg h1 h2 y hy x hx
    obtain ⟨s0, t1, ⟨t3, t4⟩, t5⟩ := forall₂_mem_right (forall₂_and os oo) s' hs'
    rw [t3] at h1
    rw [t4] at h2
    rw [t5.dim.1] at hy
    rw [t5.dim.2.1] at hx
    rw [t5.dim.2.2, hf s0 t1 im bkg h1 h2 y hy x hx, t5]
    rfl
  · have os := SourcesOf.other hs s1 s1'
    obtain ⟨f, hf⟩ := noisePlanes_exist d1 k
    obtain ⟨q, q1, q2⟩ := n1 k hk
    obtain ⟨q', q1', q2'⟩ := n1' k hk
    rw [q1, q1']
    congr 1
    refine holdsPlane_unique (q2' f ?_) (q2 f hf)
    intro s' hs' ns' a h1 h2 y hy x hx
    obtain ⟨s0, t1, ⟨ns, ns2, t3, t4, t6⟩, t5⟩ := forall₂_mem_right (forall₂_and os oo) s' hs'
    cases h1.symm.trans t4
    rw [t5.dim.1] at hy
    rw [t5.dim.2.1] at hx
    rw [t5.dim.2.2, hf s0 t1 ns a t3 (t6.symm.trans h2) y hy x hx]

end Pizza
