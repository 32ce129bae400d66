import Mathlib.Analysis.SpecialFunctions.Pow.Real
import Verif.Lemmas.ZeroPoint
import Verif.Props.Calibrated

/-! C154: another zero point multiplies the fluxes and changes nothing else. -/

namespace Pizza

section
variable {A σ S P : Type} {x : Ext A σ} {c : BuildCfg A} {k : ℚ}

theorem ImgTimes.eq {a b : Img ℚ} (h : ImgTimes k a b) : b = a.sc k := by
  obtain ⟨r, n, p⟩ := a
  obtain ⟨r', n', p'⟩ := b
  obtain ⟨h1, h2, h3⟩ := h
  cases h1
  cases h2
  have : p' = fun r c => k * p r c := funext fun r => funext fun c => h3 r c
  rw [this]
  rfl

theorem forall₂_eq_map {α β : Type} {R : α → β → Prop} {f : α → β} (hf : ∀ a b, R a b → b = f a) {l : List α} {l' : List β}
    (h : List.Forall₂ R l l') : l' = l.map f := by
  induction h with
  | nil => rfl
  | cons h _ ih => rw [hf _ _ h, ih, List.map_cons]

theorem OtherUnits.eq {s s' : Src} (h : OtherUnits k s s') (hi : s.init = .ok ()) : s' = s.sc k := by
  rw [h.rest, h.scale hi]
  unfold Src.sc SEReads.sc
  rcases h.noises hi with ⟨e, h1, h2⟩ | ⟨ns, ns', h1, h2, h3⟩
  · rw [h1, h2]
    rfl
  · rw [h1, h2, forall₂_eq_map (f := Img.sc k) (fun _ _ h => h.eq) h3]
    rfl

theorem OtherUnits.cut {s s' : Src} (h : OtherUnits k s s') : roughCut c s' = (roughCut c s).map (List.map (Cand.sc k)) := by
  cases hi : s.init with
  | ok u => rw [h.eq hi, roughCut_sc]
  | error e =>
    have h1 : s'.imageFlags = s.imageFlags := by rw [h.rest]
    have h2 : s'.init = s.init := by rw [h.rest]
    unfold roughCut
    rw [h1, h2, hi]
    split <;> rfl

theorem possibleSlices_sc {l l' : List Src} (h : List.Forall₂ (OtherUnits k) l l') :
    possibleSlices c l' = (possibleSlices c l).map (List.map (Cand.sc k)) := by
  induction h with
  | nil => rfl
  | @cons s s' l l' h _ ih =>
    unfold possibleSlices
    rw [h.cut, ih]
    cases roughCut c s with
    | error e => rfl
    | ok a =>
    simp only [Except.map, ok_bind]
    cases possibleSlices c l with
    | error e => rfl
    | ok b =>
      show Except.ok _ = Except.ok _
      rw [List.map_append]

theorem buildSliceInputs_units (hk : 0 < k) (hx : x.Follows k) {l l' : List Src} (h : List.Forall₂ (OtherUnits k) l l')
    (rng : σ) : buildSliceInputs x c l' rng = (buildSliceInputs x c l rng).map (Inputs.scEnd k) := by
  have h1 := possibleSlices_sc (c := c) h
  cases hp : possibleSlices c l with
  | ok cands =>
    rw [hp] at h1
    exact buildInputs_sc hk hx hp h1 rng
  | error e =>
    rw [hp] at h1
    unfold buildSliceInputs
    rw [hp, h1]
    rfl

theorem forall₂_fin (l : List ℚ) : List.Forall₂ (Flt.Times k) (l.map Flt.fin) ((l.map (k * ·)).map Flt.fin) := by
  induction l with
  | nil => exact .nil
  | cons a l ih => exact .cons (.fin a) ih

theorem overSq_times (v : Flt) : Flt.Times (1 / k ^ 2) v (v.overSq k) := by
  cases v with
  | fin q => exact .fin q
  | posInf => exact .posInf
  | negInf => exact .negInf
  | nan => exact .nan

theorem pixOf_sc (co : Coadd) (sigma : ℚ) : FluxTimes k (pixOf co sigma) (pixOf (co.sc k) sigma) where
  image := by
    show List.Forall₂ _ (co.image.values.map Flt.fin) ((co.image.sc k).values.map Flt.fin)
    rw [values_sc]
    exact forall₂_fin _
  noises := by
    show List.Forall₂ _ (co.noises.map fun a => a.values.map Flt.fin) ((co.noises.map (Img.sc k)).map fun a => a.values.map Flt.fin)
    generalize co.noises = l
    induction l with
    | nil => exact .nil
    | cons a l ih =>
      refine .cons ?_ ih
      show List.Forall₂ _ (a.values.map Flt.fin) ((a.sc k).values.map Flt.fin)
      rw [values_sc]
      exact forall₂_fin _
  weight := by
    show List.Forall₂ _ co.weight.values (co.weight.map (Flt.overSq k)).values
    have : (co.weight.map (Flt.overSq k)).values = co.weight.values.map (Flt.overSq k) := by
      unfold Img.values
      rw [List.map_flatMap]
      congr 1
      funext r
      rw [List.map_map]
      rfl
    rw [this]
    generalize co.weight.values = l
    induction l with
    | nil => exact .nil
    | cons a l ih => exact .cons (overSq_times a) ih
  rest := rfl

theorem coaddChosen_sc (hk : 0 < k) (v v' : SliceEnv A σ S) (hn : v'.nExtra = v.nExtra) (hf : v'.ext = v.ext)
    (row : ObjRow) (lay : PsfLayout) (i : Nat) (inp : Inputs) :
    SliceTimes k (coaddChosen v row lay i inp) (coaddChosen v' row lay i (inp.scEnd k)) := by
  unfold coaddChosen
  have h1 : makeEpochsInfo row.id (inp.scEnd k).weights (inp.scEnd k).slices (inp.scEnd k).notUsed (inp.scEnd k).flags =
      makeEpochsInfo row.id inp.weights inp.slices inp.notUsed inp.flags := makeEpochsInfo_sc ..
  have h2 : (inp.scEnd k).weights = inp.weights := rfl
  have h3 : (inp.scEnd k).slices.map (resampleEpoch row lay) =
      (inp.slices.map (resampleEpoch row lay)).map (Except.map (EpochData.sc k)) := by
    show (inp.slices.map (Epoch.sc k)).map _ = _
    rw [List.map_map, List.map_map]
    congr 1
    funext e
    exact resampleEpoch_sc row lay e
  rw [h1, h2, h3, hn, hf, coaddSliceInputs_sc hk]
  cases makeEpochsInfo row.id inp.weights inp.slices inp.notUsed inp.flags with
  | error e => exact .error e
  | ok epochs =>
  simp only [ok_bind]
  split
  · cases coaddSliceInputs row.boxSize.toNat row.psfBoxSize.toNat v.nExtra (inp.slices.map (resampleEpoch row lay)) inp.weights with
    | error e => exact .error e
    | ok co =>
    simp only [Except.map, ok_bind]
    have h4 : (co.sc k).psf = co.psf := rfl
    rw [h4]
    cases v.ext.fwhm co.psf with
    | error e => exact .error e
    | ok sigma => exact .pixels _ _ _ _ _ (pixOf_sc co sigma)
  · exact .empty _ _ _

/-- **C154** If the zero-point factors of all SE images, and with them the noise fields, are `k` times as large, the image and
the noise images of a slice are `k` times as large and the weight map is divided by the square of `k`.  The slice is otherwise the
same: the images that are used, their weights, flags and masks, the masked fractions and the PSF, or the error. -/
theorem C154_slice (hk : 0 < k) (v v' : SliceEnv A σ S) (hx : v.ext.Follows k) (hv : v' = { v with sources := v'.sources })
    (hs : ∀ ra dec a b, List.Forall₂ (OtherUnits k) (v.sources ra dec a b) (v'.sources ra dec a b)) (i seed : Nat) :
    SliceTimes k (coaddSingleSlice v i seed) (coaddSingleSlice v' i seed) := by
  unfold coaddSingleSlice
  have e1 : v'.objects = v.objects := by rw [hv]
  have e2 : v'.fwd = v.fwd := by rw [hv]
  have e3 : v'.inv = v.inv := by rw [hv]
  have e4 : v'.offset = v.offset := by rw [hv]
  have e5 : v'.ext = v.ext := by rw [hv]
  have e6 : v'.seeded = v.seeded := by rw [hv]
  have e7 : ∀ row, gaiaFor v' row = gaiaFor v row := by
    intro row
    rw [hv]
    rfl
  have e8 : ∀ row g, cfgFor v' row g = cfgFor v row g := by
    intro row g
    rw [hv]
    rfl
  have e9 : v'.nExtra = v.nExtra := by rw [hv]
  rw [e1]
  cases objRow v.objects i with
  | error e => exact .error e
  | ok row =>
  simp only [ok_bind]
  rw [e2, e3, e4]
  cases coaddPsfLayout v.fwd v.inv row.ra row.dec row.psfBoxSize v.offset with
  | error e => exact .error e
  | ok lay =>
  simp only [ok_bind]
  rw [e7]
  cases gaiaFor v row with
  | error e => exact .error e
  | ok gaia =>
  simp only [ok_bind]
  rw [e5, e6, e8, buildSliceInputs_units hk hx (hs _ _ _ _)]
  cases buildSliceInputs v.ext (cfgFor v row gaia) (v.sources row.ra row.dec lay.raPsf lay.decPsf) (v.seeded seed) with
  | error e => exact .error e
  | ok inp => exact coaddChosen_sc hk v v' e9 e5 row lay i inp

variable {w w' : ProcWorld A σ S P} {t t' : Tile A S P}

theorem freshNoise_units (hn : w.NoiseFollows k) (hw : w' = { w with zpScale := w'.zpScale }) {e e' : Entry P}
    (he : e' = { e with magzp := e'.magzp }) (h0 : 0 < w.zpScale e.magzp) (hz : w'.zpScale e'.magzp = k * w.zpScale e.magzp)
    (seed : Nat) : freshNoise w' e' seed = (freshNoise w e seed).map (Img.sc k) := by
  have h1 : w'.original e'.weight = w.original e.weight := by
    rw [hw, he]
    rfl
  have h2 : w'.memNoise = w.memNoise := by rw [hw]
  unfold freshNoise
  rw [h1, h2, hz]
  cases w.original e.weight with
  | error y => rfl
  | ok a =>
  simp only
  cases ht : maxPositive a.asNum with
  | error y => rfl
  | ok top =>
    have htop := maxPositive_pos ht
    simp only [Except.map]
    have := hn seed ⟨a.asNum.nrow, a.asNum.ncol, fun r c =>
        if 0 < a.asNum.px r c then a.asNum.px r c / w.zpScale e.magzp ^ 2 else top / w.zpScale e.magzp ^ 2⟩ (by
      intro r c
      simp only
      split <;> positivity)
    show Except.ok _ = Except.ok (Img.map _ _)
    rw [← this]
    congr 2
    unfold Img.map
    simp only
    congr 1
    funext r c
    split <;> rw [div_div, mul_pow, mul_comm]

theorem freshSrc_units (hn : w.NoiseFollows k) (hw : w' = { w with zpScale := w'.zpScale })
    (ht : t' = { t with entries := t'.entries }) {e e' : Entry P} (he : e' = { e with magzp := e'.magzp })
    (h0 : 0 < w.zpScale e.magzp) (hz : w'.zpScale e'.magzp = k * w.zpScale e.magzp) (ra dec a b : ℚ) :
    OtherUnits k (freshSrc w t ra dec a b e) (freshSrc w' t' ra dec a b e') := by
  have hi : (seInit w'.disk e'.src e'.offset t'.wcs t'.psf).out = (seInit w.disk e.src e.offset t.wcs t.psf).out := by
    rw [hw, ht, he]
  have hns : e'.noiseSeeds.mapM (freshNoise w' e') = (e.noiseSeeds.mapM (freshNoise w e)).map (List.map (Img.sc k)) := by
    rw [show e'.noiseSeeds = e.noiseSeeds by rw [he]]
    generalize e.noiseSeeds = l
    induction l with
    | nil => rfl
    | cons s l ih =>
      rw [List.mapM_cons, List.mapM_cons, ih, freshNoise_units hn hw he h0 hz]
      cases freshNoise w e s with
      | error y => rfl
      | ok n =>
      simp only [Except.map, ok_bind]
      cases l.mapM (freshNoise w e) <;> rfl
  cases hc : (seInit w.disk e.src e.offset t.wcs t.psf).out with
  | error y =>
    rw [hc] at hi
    have q : freshSrc w' t' ra dec a b e' = freshSrc w t ra dec a b e := by
      unfold freshSrc
      rw [hc, hi, he]
    rw [q]
    have q2 : (freshSrc w t ra dec a b e).init = .error y := by
      unfold freshSrc
      rw [hc]
    refine ⟨rfl, fun h => ?_, fun h => ?_⟩ <;> · rw [q2] at h; cases h
  | ok con =>
    rw [hc] at hi
    have q : ∀ (w : ProcWorld A σ S P) (t : Tile A S P) (e : Entry P),
        (seInit w.disk e.src e.offset t.wcs t.psf).out = .ok con →
        (freshSrc w t ra dec a b e).reads = freshReads w t e ∧
        (freshSrc w t ra dec a b e).scale = w.zpScale e.magzp := by
      intro w t e h
      unfold freshSrc
      rw [h]
      exact ⟨rfl, rfl⟩
    obtain ⟨q1, q2⟩ := q w t e hc
    obtain ⟨q3, q4⟩ := q w' t' e' hi
    refine ⟨?_, fun _ => by rw [q2, q4, hz], fun _ => ?_⟩
    · unfold freshSrc freshReads freshMask freshFlag
      rw [hw, ht, he]
      simp only [hc]
      rfl
    · rw [q1, q3]
      show (∃ e₁, e.noiseSeeds.mapM (freshNoise w e) = .error e₁ ∧ e'.noiseSeeds.mapM (freshNoise w' e') = .error e₁) ∨ ∃ ns ns',
        e.noiseSeeds.mapM (freshNoise w e) = .ok ns ∧ e'.noiseSeeds.mapM (freshNoise w' e') = .ok ns' ∧ _
      rw [hns]
      cases e.noiseSeeds.mapM (freshNoise w e) with
      | error y => exact .inl ⟨y, rfl, rfl⟩
      | ok ns =>
        refine .inr ⟨ns, _, rfl, rfl, ?_⟩
        induction ns with
        | nil => exact .nil
        | cons n ns ih => exact .cons ⟨rfl, rfl, fun _ _ => rfl⟩ ih

/-- **C154** The same for a tile with other zero points, or another reference zero point: every slice computed from the same files
has fluxes that are `k` times as large and is otherwise the same. -/
theorem C154_tile (hk : 0 < k) (h : OtherZeroPoint k w w' t t') (hx : w.ext.Follows k) (hn : w.NoiseFollows k) (i seed : Nat) :
    SliceTimes k (coaddSingleSlice (freshEnv w t) i seed) (coaddSingleSlice (freshEnv w' t') i seed) := by
  have hw := h.world
  have ht := h.tile
  refine C154_slice hk (freshEnv w t) (freshEnv w' t') hx ?_ (fun ra dec a b => ?_) i seed
  · have h1 : freshEnv w' t' = { freshEnv w' t with sources := (freshEnv w' t').sources } := by
      unfold freshEnv
      rw [ht]
    rw [h1]
    have h2 : freshEnv w' t = { freshEnv w t with sources := (freshEnv w' t).sources } := by
      unfold freshEnv
      rw [hw]
    rw [h2]
  · show List.Forall₂ _ (t.entries.map _) (t'.entries.map _)
    rw [List.forall₂_map_left_iff, List.forall₂_map_right_iff]
    exact h.entries.imp fun e e' he => freshSrc_units hn hw ht he.1 he.2.1 he.2.2 ra dec a b

/-- **C154** The same in processes that have done anything before. -/
theorem C154_process {U U' : Tile A S P → Prop} (hk : 0 < k) (h : OtherZeroPoint k w w' t t') (hx : w.ext.Follows k)
    (hn : w.NoiseFollows k) (ho : Orderly w U) (ho' : Orderly w' U') (hU : U t) (hU' : U' t')
    (sizes sizes' : CacheId → Nat) (count count' : Nat) (ops ops' : List (ProcOp A S P)) (hops : OpsIn U ops)
    (hops' : OpsIn U' ops') (i seed : Nat) :
    SliceTimes k (coaddSingleSliceP w t i seed (procRun w (Proc.fresh sizes w.arrays count) ops)).1
      (coaddSingleSliceP w' t' i seed (procRun w' (Proc.fresh sizes' w'.arrays count') ops')).1 := by
  rw [C113_slice ho sizes count ops hops t hU, C113_slice ho' sizes' count' ops' hops' t' hU']
  exact C154_tile hk h hx hn i seed

end

/-- **C154** Zero points that are smaller by `d` magnitudes, or a reference zero point that is larger by `d`, make the factor
`10^(0.4 d)` times as large. -/
theorem C154_magnitudes (m d : ℝ) : zpScale (m - d) = (10 : ℝ) ^ (0.4 * d) * zpScale m ∧
    (10 : ℝ) ^ ((0.4 : ℝ) * (30 + d - m)) = (10 : ℝ) ^ (0.4 * d) * zpScale m := by
  unfold zpScale
  constructor
  · rw [← Real.rpow_add (by norm_num)]
    congr 1
    ring
  · rw [← Real.rpow_add (by norm_num)]
    congr 1
    ring

/-- `C154_magnitudes`: five magnitudes are a factor of 100. -/
example : zpScale (30 - 5) = 100 * zpScale 30 := by
  rw [(C154_magnitudes 30 5).1]
  norm_num

end Pizza
