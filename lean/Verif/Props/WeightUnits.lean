import Verif.Lemmas.Calibrated
import Verif.Props.Linear
import Verif.Props.ZeroPoint
import Verif.Spec.WeightUnits

/-!
C161: the coadding weights and the image of a slice do not depend on the units of the weight maps.
-/

namespace Pizza

section
variable {A σ S : Type} {k : ℚ}

theorem ImgTimes.eq_sc {a b : Img ℚ} (h : ImgTimes k a b) : b = a.sc k := by
  obtain ⟨n, m, p⟩ := a
  obtain ⟨n', m', p'⟩ := b
  obtain ⟨h1, h2, h3⟩ := h
  simp only at h1 h2 h3
  subst h1 h2
  unfold Img.sc Img.map
  simp only
  congr 1
  funext r c
  exact h3 r c

theorem forall₂_imgTimes_eq {l m : List (Img ℚ)} (h : List.Forall₂ (ImgTimes k) l m) : m = l.map (Img.sc k) := by
  induction h with
  | nil => rfl
  | cons h1 _ ih => rw [List.map_cons, ih, h1.eq_sc]

/-- The image in units in which its weight map has the old values. -/
def Src.un (k : ℚ) (s : Src) : Src :=
  { s with
    scale := k * s.scale
    reads := { s.reads with
      image := s.reads.image.map (Img.map (· / k))
      bkg := s.reads.bkg.map (Img.map (· / k))
      weight := s.reads.weight.map (Img.map (· * k ^ 2)) } }

theorem un_sameCut (hk : 0 < k) (s : Src) : SameCut s (s.un k) := by
  refine ⟨rfl, fun B o e h => ⟨o, ?_, fun _ => rfl⟩⟩
  rw [← h]
  unfold Src.un SEObj.setSlice
  simp only
  have hk' := hk.ne'
  split
  · rfl
  cases s.reads.image with
  | error e => rfl
  | ok im =>
  cases s.reads.bkg with
  | error e => rfl
  | ok bkg =>
  simp only [Except.map]
  have h1 : ∀ y0 y1 x0 x1, Img.map (· * (k * s.scale)) (Img.slice ⟨(im.map (· / k)).nrow, (im.map (· / k)).ncol,
      fun r c => (im.map (· / k)).px r c - (bkg.map (· / k)).px r c⟩ y0 y1 x0 x1) =
      Img.map (· * s.scale) (Img.slice ⟨im.nrow, im.ncol, fun r c => im.px r c - bkg.px r c⟩ y0 y1 x0 x1) := by
    intro y0 y1 x0 x1
    unfold Img.slice Img.map
    simp only
    congr 1
    funext r c
    field_simp
  simp only [h1]
  show (if im.nrow ≠ bkg.nrow ∨ im.ncol ≠ bkg.ncol then _ else _) = _
  split
  · rfl
  cases s.reads.bmask with
  | error e => rfl
  | ok bm =>
  cases s.reads.weight with
  | error e => rfl
  | ok w =>
  have h2 : ∀ y0 y1 x0 x1, Img.map (· / (k * s.scale) ^ 2) (Img.slice (w.map (· * k ^ 2)) y0 y1 x0 x1) =
      Img.map (· / s.scale ^ 2) (Img.slice w y0 y1 x0 x1) := by
    intro y0 y1 x0 x1
    unfold Img.slice Img.map
    simp only
    congr 1
    funext r c
    rw [mul_pow, mul_comm (k ^ 2), mul_div_mul_right _ _ (pow_ne_zero 2 hk')]
  simp only [h2]

theorem WeightsOver.other (hk : 0 < k) {s s' : Src} (h : WeightsOver k s s') : OtherPixels (s.sc k) (s'.un k) ∧
    (s'.un k).reads.noises = (s.sc k).reads.noises ∧ s'.reads.image = s.reads.image ∧ s'.reads.bkg = s.reads.bkg := by
  obtain ⟨h1, h2, h3⟩ := h
  have hk' := hk.ne'
  have hw : (s'.un k).reads.weight = s.reads.weight := by
    show s'.reads.weight.map _ = _
    rcases h2 with ⟨e, a1, a2⟩ | ⟨a, a', a1, a2, a3⟩
    · rw [a1, a2]
      rfl
    · rw [a1, a2, a3.eq_sc]
      show Except.ok _ = Except.ok _
      congr 1
      obtain ⟨n, m, p⟩ := a
      unfold Img.sc Img.map
      simp only
      congr 1
      funext r c
      field_simp
  have hn : (s'.un k).reads.noises = (s.sc k).reads.noises := by
    show s'.reads.noises = s.reads.noises.map _
    rcases h3 with ⟨e, a1, a2⟩ | ⟨a, a', a1, a2, a3⟩
    · rw [a1, a2]
      rfl
    · rw [a1, a2, forall₂_imgTimes_eq a3]
      rfl
  refine ⟨?_, hn, by rw [h1], by rw [h1]⟩
  generalize hq : s'.un k = q at hw
  have : q = { s.sc k with reads := { (s.sc k).reads with
      image := q.reads.image, bkg := q.reads.bkg, weight := q.reads.weight, noises := q.reads.noises } } := by
    rw [← hq, h1]
    rfl
  unfold OtherPixels
  rw [hw] at this
  exact this

theorem sc_otherUnits (s : Src) : OtherUnits k s (s.sc k) := by
  refine ⟨rfl, fun _ => rfl, fun _ => ?_⟩
  cases h : s.reads.noises with
  | error e =>
    refine .inl ⟨e, rfl, ?_⟩
    show s.reads.noises.map _ = _
    rw [h]
    rfl
  | ok ns =>
    refine .inr ⟨ns, ns.map (Img.sc k), rfl, ?_, ?_⟩
    · show s.reads.noises.map _ = _
      rw [h]
      rfl
    · rw [List.forall₂_map_right_iff, List.forall₂_same]
      exact fun a _ => ⟨rfl, rfl, fun _ _ => rfl⟩

theorem sc_sound {v : SliceEnv A σ S} {box psfBox : Nat} (hv : SoundEnv v box psfBox) :
    SoundEnv { v with sources := fun a b c d => (v.sources a b c d).map (Src.sc k) } box psfBox := by
  refine ⟨hv.boxPos, hv.psfOdd, hv.rows, hv.frac, ?_, ?_, ?_, hv.keeps, hv.fwhm⟩
  · intro a b c d s' hs'
    obtain ⟨s, hs, rfl⟩ := List.mem_map.1 hs'
    obtain ⟨w1, w2, w3, w4⟩ := hv.shape _ _ _ _ s hs
    refine ⟨w1, w2, w3, fun l hl => ?_⟩
    cases hn : s.reads.noises with
    | error e =>
      have : s.reads.noises.map (List.map (Img.sc k)) = .ok l := hl
      rw [hn] at this
      cases this
    | ok ns =>
      have : s.reads.noises.map (List.map (Img.sc k)) = .ok l := hl
      rw [hn] at this
      cases this
      intro a ha
      obtain ⟨b, hb, rfl⟩ := List.mem_map.1 ha
      exact w4 ns hn b hb
  · intro a b c d s' hs' l hl
    obtain ⟨s, hs, rfl⟩ := List.mem_map.1 hs'
    have : s.reads.noises.map (List.map (Img.sc k)) = .ok l := hl
    cases hn : s.reads.noises with
    | error e =>
      rw [hn] at this
      cases this
    | ok ns =>
      rw [hn] at this
      cases this
      rw [List.length_map]
      exact hv.noises _ _ _ _ s hs ns hn
  · intro a b c d s' hs'
    obtain ⟨s, hs, rfl⟩ := List.mem_map.1 hs'
    exact hv.psf _ _ _ _ s hs

theorem un_sound {v : SliceEnv A σ S} {box psfBox : Nat} (hv : SoundEnv v box psfBox) :
    SoundEnv { v with sources := fun a b c d => (v.sources a b c d).map (Src.un k) } box psfBox := by
  refine ⟨hv.boxPos, hv.psfOdd, hv.rows, hv.frac, ?_, ?_, ?_, hv.keeps, hv.fwhm⟩
  · intro a b c d s' hs'
    obtain ⟨s, hs, rfl⟩ := List.mem_map.1 hs'
    obtain ⟨w1, w2, w3, w4⟩ := hv.shape _ _ _ _ s hs
    refine ⟨fun l hl => ?_, w2, fun l hl => ?_, w4⟩
    · have : s.reads.image.map (Img.map (· / k)) = .ok l := hl
      cases hn : s.reads.image with
      | error e =>
        rw [hn] at this
        cases this
      | ok ns =>
        rw [hn] at this
        cases this
        exact w1 ns hn
    · have : s.reads.weight.map (Img.map (· * k ^ 2)) = .ok l := hl
      cases hn : s.reads.weight with
      | error e =>
        rw [hn] at this
        cases this
      | ok ns =>
        rw [hn] at this
        cases this
        exact w3 ns hn
  · intro a b c d s' hs'
    obtain ⟨s, hs, rfl⟩ := List.mem_map.1 hs'
    exact hv.noises _ _ _ _ s hs
  · intro a b c d s' hs'
    obtain ⟨s, hs, rfl⟩ := List.mem_map.1 hs'
    exact hv.psf _ _ _ _ s hs

/-- The weight map of a slice is settled by its first noise image. -/
theorem slice_weight_of_noise {v v' : SliceEnv A σ S} {box psfBox : Nat} (hv : SoundEnv v box psfBox)
    (hv' : SoundEnv v' box psfBox) {i i' seed seed' : Nat} {r r' : SliceRes Flt EpochRow} {p p' : SlicePix Flt}
    (h : coaddSingleSlice v i seed = .ok r) (h' : coaddSingleSlice v' i' seed' = .ok r') (hp : r.pix = some p)
    (hp' : r'.pix = some p') (hn : p'.noises[0]? = p.noises[0]?) : p'.weight = p.weight := by
  have comb : ∀ {v : SliceEnv A σ S} {i seed : Nat} {r : SliceRes Flt EpochRow} {p : SlicePix Flt}, SoundEnv v box psfBox →
      coaddSingleSlice v i seed = .ok r → r.pix = some p → ∃ ps, CombinationOf box psfBox v.nExtra ps p := by
    intro v i seed r p hv h hp
    obtain ⟨-, row, lay, gaia, cfg, inp, -, -, -, -, -, -, -, h2, h3⟩ := C93_slice v box psfBox hv i seed r h
    by_cases hs : inp.slices = []
    · rw [(h2 hs).2] at hp
      cases hp
    · obtain ⟨-, -, p0, ds, hp0, -, hc⟩ := h3 hs
      rw [hp] at hp0
      cases hp0
      exact ⟨_, hc⟩
  obtain ⟨ps, hc⟩ := comb hv h hp
  obtain ⟨ps', hc'⟩ := comb hv' h' hp'
  obtain ⟨l, l1, l2⟩ := hc.noise 0 (by omega)
  obtain ⟨l', l1', l2'⟩ := hc'.noise 0 (by omega)
  rw [hn, l1] at l1'
  cases l1'
  obtain ⟨w, -, w2, w3⟩ := hc.weight
  obtain ⟨w', -, w2', w3'⟩ := hc'.weight
  have hw : w' = w := by
    refine isVariance_unique hv.boxPos (fun a ha b hb => ?_) w2' w2
    obtain ⟨x, x1, x2⟩ := l2.2 a ha b hb
    obtain ⟨y, y1, y2⟩ := l2'.2 a ha b hb
    rw [x1] at y1
    cases y1
    rw [x2] at y2
    exact (Flt.fin.inj y2).symm
  subst hw
  refine List.ext_getElem? fun t => ?_
  by_cases ht : t < box * box
  · have hb : 0 < box := hv.boxPos
    obtain ⟨x, x1, x2⟩ := w3.2 _ (Nat.div_lt_of_lt_mul ht) _ (Nat.mod_lt t hb)
    obtain ⟨y, y1, y2⟩ := w3'.2 _ (Nat.div_lt_of_lt_mul ht) _ (Nat.mod_lt t hb)
    have hjj : t / box * box + t % box = t := by rw [Nat.mul_comm]; exact Nat.div_add_mod t box
    rw [hjj] at x1 y1
    rw [x1, y1, x2, y2]
  · rw [List.getElem?_eq_none (by rw [w3'.1]; omega), List.getElem?_eq_none (by rw [w3.1]; omega)]

/-- **C161** If the weight maps of all SE images are divided by the square of `k`, and with them the noise fields are `k` times as
large, then the same SE images are used in a slice with the same coadding weights, its image is the same, its noise images are `k`
times as large and its weight map is divided by the square of `k`. -/
theorem C161_slice (hk : 0 < k) {v : SliceEnv A σ S} {box psfBox : Nat} (hv : SoundEnv v box psfBox)
    (hx : v.ext.Follows k) (hr : v.ext.RotatesMore) (hl : v.ext.LinearInterp) (hro : v.cfg.rejectOutliers = false)
    (hm : ∀ ra dec raPsf decPsf, ∀ s ∈ v.sources ra dec raPsf decPsf, ∀ bm, s.reads.bmask = .ok bm →
      Unflagged v.cfg.noiseFlags bm)
    (hid : ∀ ra dec raPsf decPsf, ((v.sources ra dec raPsf decPsf).map (·.imageId)).Nodup)
    (other : ℚ → ℚ → ℚ → ℚ → List Src)
    (ho : ∀ ra dec raPsf decPsf, List.Forall₂ (WeightsOver k) (v.sources ra dec raPsf decPsf) (other ra dec raPsf decPsf))
    (hv' : SoundEnv { v with sources := other } box psfBox) {i seed seed' : Nat} {r r' : SliceRes Flt EpochRow}
    {p p' : SlicePix Flt} (h : coaddSingleSlice v i seed = .ok r)
    (h' : coaddSingleSlice { v with sources := other } i seed' = .ok r') (hp : r.pix = some p) (hp' : r'.pix = some p') :
    usedWeights r' = usedWeights r ∧ p'.image = p.image ∧ List.Forall₂ (Flt.Times (1 / k ^ 2)) p.weight p'.weight ∧
    ∀ j < v.nExtra + 1, ∃ n n', p.noises[j]? = some n ∧ p'.noises[j]? = some n' ∧ List.Forall₂ (Flt.Times k) n n' := by
  have hk' := hk.ne'
  set s1 : ℚ → ℚ → ℚ → ℚ → List Src := fun a b c d => (v.sources a b c d).map (Src.sc k) with hs1
  set s3 : ℚ → ℚ → ℚ → ℚ → List Src := fun a b c d => (other a b c d).map (Src.un k) with hs3
  -- the slice in the larger units
  have t1 := C154_slice hk v { v with sources := s1 } hx rfl (fun a b c d => by
    rw [hs1]
    show List.Forall₂ _ _ ((v.sources a b c d).map _)
    rw [List.forall₂_map_right_iff, List.forall₂_same]
    exact fun s _ => sc_otherUnits s) i seed
  rw [h] at t1
  obtain ⟨r1, p1, q1, q2, q3, q4⟩ : ∃ r1 p1, coaddSingleSlice { v with sources := s1 } i seed = .ok r1 ∧ r1.pix = some p1 ∧
      usedWeights r1 = usedWeights r ∧ FluxTimes k p p1 := by
    generalize coaddSingleSlice { v with sources := s1 } i seed = res at t1
    cases t1 with
    | empty _ _ _ => cases hp
    | pixels _ _ _ p0 p1 hf =>
      cases hp
      exact ⟨_, p1, rfl, rfl, rfl, hf⟩
  -- the slice with the old weight maps
  have t3 : coaddSingleSlice { v with sources := s3 } i seed' = .ok r' := by
    rw [← h']
    refine coaddSingleSlice_strip { v with sources := other } { v with sources := s3 } rfl (fun a b c d => ?_) i seed'
    show List.Forall₂ _ _ ((other a b c d).map _)
    rw [List.forall₂_map_right_iff, List.forall₂_same]
    exact fun s _ => un_sameCut hk s
  have hv1 : SoundEnv { v with sources := s1 } box psfBox := sc_sound hv
  have hv3 : SoundEnv { v with sources := s3 } box psfBox := un_sound hv'
  have hall : ∀ a b c d, List.Forall₂ (fun x y => ∃ s s', x = Src.sc k s ∧ y = Src.un k s' ∧ WeightsOver k s s')
      (s1 a b c d) (s3 a b c d) := by
    intro a b c d
    show List.Forall₂ _ ((v.sources a b c d).map _) ((other a b c d).map _)
    rw [List.forall₂_map_left_iff, List.forall₂_map_right_iff]
    exact (ho a b c d).imp fun s s' hw => ⟨s, s', rfl, rfl, hw⟩
  have ho3 : ∀ a b c d, List.Forall₂ OtherPixels (s1 a b c d) (s3 a b c d) := by
    intro a b c d
    refine (hall a b c d).imp ?_
    rintro x y ⟨s, s', rfl, rfl, hw⟩
    exact (hw.other hk).1
  have hm1 : ∀ ra dec raPsf decPsf, ∀ s ∈ s1 ra dec raPsf decPsf, ∀ bm, s.reads.bmask = .ok bm →
      Unflagged v.cfg.noiseFlags bm := by
    intro a b c d s' hs' bm hb
    obtain ⟨s, hs, rfl⟩ := List.mem_map.1 hs'
    exact hm _ _ _ _ s hs bm hb
  have hid1 : ∀ ra dec raPsf decPsf, ((s1 ra dec raPsf decPsf).map (·.imageId)).Nodup := by
    intro a b c d
    show (((v.sources a b c d).map _).map _).Nodup
    rw [List.map_map]
    exact hid a b c d
  have hu : (usedWeights r').map Prod.fst = (usedWeights r1).map Prod.fst :=
    C126_same_used (v := { v with sources := s1 }) hv1 hr hro s3 ho3 hv3 q1 t3
  obtain ⟨F, W, F1, -, F3⟩ := C126_map (v := { v with sources := s1 }) hv1 hro hm1 hid1 i
  obtain ⟨w1, l1, so1, i1, n1⟩ := F3 s1 (fun _ _ _ _ => List.forall₂_same.2 fun s _ => .refl s) hv1 seed r1 p1 q1 q2
  obtain ⟨w3, l3, so3, i3, n3⟩ := F3 s3 ho3 hv3 seed' r' p' t3 hp'
  have d1 : (l1.map (·.imageId)).Nodup := by
    obtain ⟨row, lay, _, _, rfl⟩ := so1
    exact hid1 _ _ _ _
  have oo := SourcesOf.other (v := { v with sources := s1 }) hall so1 so3
  rw [hu] at i3 n3
  have same : ∀ j < v.nExtra + 1, ∃ n', p1.noises[j]? = some n' ∧ p'.noises[j]? = some n' := by
    intro j hj
    obtain ⟨f, hf⟩ := noisePlanes_exist d1 j
    obtain ⟨n', a1, a2⟩ := n1 j hj
    obtain ⟨n3', b1, b2⟩ := n3 j hj
    have hsame : n3' = n' := by
      refine holdsPlane_unique (b2 f ?_) (a2 f hf)
      intro y hy ns a h1 h2 c hc d hd
      obtain ⟨x, hx1, s, s', rfl, rfl, hw⟩ := forall₂_mem_right oo y hy
      obtain ⟨z1, z2, -, -⟩ := hw.other hk
      rw [z2] at h1
      rw [z1.dim.1] at hc
      rw [z1.dim.2.1] at hd
      rw [z1.dim.2.2]
      exact hf _ hx1 ns a h1 h2 c hc d hd
    exact ⟨n', a1, by rw [b1, hsame]⟩
  refine ⟨?_, ?_, ?_, fun j hj => ?_⟩
  · rw [w3, hu, ← w1, q3]
  · obtain ⟨f, hf⟩ := imagePlanes_exist d1
    have g1 := i1 f hf
    have g3 := i3 ((1 / k) • f) (by
      intro y hy im bkg h1 h2 a ha b hb
      obtain ⟨x, hx1, s, s', rfl, rfl, hw⟩ := forall₂_mem_right oo y hy
      obtain ⟨z1, -, z2, z3⟩ := hw.other hk
      have h1' : s'.reads.image.map (Img.map (· / k)) = .ok im := h1
      have h2' : s'.reads.bkg.map (Img.map (· / k)) = .ok bkg := h2
      rw [z2] at h1'
      rw [z3] at h2'
      cases e1 : s.reads.image with
      | error e =>
        rw [e1] at h1'
        cases h1'
      | ok im0 =>
      cases e2 : s.reads.bkg with
      | error e =>
        rw [e2] at h2'
        cases h2'
      | ok bkg0 =>
      rw [e1] at h1'
      rw [e2] at h2'
      cases h1'
      cases h2'
      rw [z1.dim.1] at ha
      rw [z1.dim.2.1] at hb
      have hfa := hf _ hx1 im0 bkg0 e1 e2 a ha b hb
      have hsc : (s'.un k).scale = k * s.scale := by
        rw [z1]
        rfl
      rw [z1.dim.2.2]
      show 1 / k * f (s.sc k).imageId a b = _
      rw [hfa]
      unfold calibrated
      rw [hsc]
      show 1 / k * ((im0.px a b - bkg0.px a b) * (k * s.scale)) = (im0.px a b / k - bkg0.px a b / k) * (k * s.scale)
      ring)
    rw [(F1 hl _).map_smul] at g3
    have hi := q4.image
    refine List.ext_getElem? fun t => ?_
    have len : p1.image.length = p.image.length := hi.length_eq.symm
    by_cases ht : t < box * box
    · have hn : 0 < box := hv.boxPos
      have e1 := g1.2 _ (Nat.div_lt_of_lt_mul ht) _ (Nat.mod_lt t hn)
      have e3 := g3.2 _ (Nat.div_lt_of_lt_mul ht) _ (Nat.mod_lt t hn)
      have hjj : t / box * box + t % box = t := by rw [Nat.mul_comm]; exact Nat.div_add_mod t box
      rw [hjj] at e1 e3
      have hlt : t < p.image.length := by rw [← len, g1.1]; exact ht
      have hlt1 : t < p1.image.length := by rw [g1.1]; exact ht
      have hR := List.Forall₂.get hi hlt hlt1
      rw [List.getElem?_eq_getElem hlt1] at e1
      rw [e3, List.getElem?_eq_getElem hlt]
      have e1' := Option.some.inj e1
      simp only [List.get_eq_getElem] at hR
      rw [e1'] at hR
      generalize p.image[t] = z at hR ⊢
      generalize hy : F ((usedWeights r1).map Prod.fst) f (t / box) (t % box) = y at hR
      show some (Flt.fin (1 / k * F ((usedWeights r1).map Prod.fst) f (t / box) (t % box))) = _
      rw [hy]
      cases hR with
      | fin q =>
        congr 2
        field_simp
    · rw [List.getElem?_eq_none (by rw [g3.1]; omega), List.getElem?_eq_none (by rw [← len, g1.1]; omega)]
  · obtain ⟨n', a1, b1⟩ := same 0 (by omega)
    rw [slice_weight_of_noise hv1 hv3 q1 t3 q2 hp' (b1.trans a1.symm)]
    exact q4.weight
  · obtain ⟨n', a1, b1⟩ := same j hj
    have hn := q4.noises
    have hlt1 : j < p1.noises.length := by
      by_contra hge
      rw [List.getElem?_eq_none (by omega)] at a1
      cases a1
    have hlt : j < p.noises.length := by rw [hn.length_eq]; exact hlt1
    have hR := List.Forall₂.get hn hlt hlt1
    rw [List.getElem?_eq_getElem hlt1] at a1
    simp only [List.get_eq_getElem] at hR
    rw [Option.some.inj a1] at hR
    exact ⟨_, _, List.getElem?_eq_getElem hlt, b1, hR⟩

variable {P : Type} {w w' : ProcWorld A σ S P} {t : Tile A S P}

theorem freshNoise_over (hk : 0 < k) (hn : w.NoiseFollows k) (hw : OtherWeights k w w' t) {e : Entry P} (he : e ∈ t.entries)
    (seed : Nat) : freshNoise w' e seed = (freshNoise w e seed).map (Img.sc k) := by
  have h2 : w'.memNoise = w.memNoise := by rw [hw.world]
  have h3 : w'.zpScale = w.zpScale := by rw [hw.world]
  obtain ⟨h0, h1⟩ := hw.weights e he
  unfold freshNoise
  rw [h2, h3]
  rcases h1 with ⟨x, a1, a2⟩ | ⟨a, a', a1, a2, a3⟩
  · rw [a1, a2]
    rfl
  · rw [a1, a2]
    simp only
    have ha : a'.asNum = a.asNum.sw k := by
      rw [a3.eq_sc]
      unfold Img.sc Img.sw Img.map
      congr 1
      funext r c
      ring
    rw [ha, maxPositive_sc hk]
    cases ht : maxPositive a.asNum with
    | error y => rfl
    | ok top =>
      have htop := maxPositive_pos ht
      simp only [Except.map]
      have := hn seed ⟨a.asNum.nrow, a.asNum.ncol, fun r c =>
          if 0 < a.asNum.px r c then a.asNum.px r c / w.zpScale e.magzp ^ 2 else top / w.zpScale e.magzp ^ 2⟩ (by
        intro r c
        simp only
        split <;> positivity)
      show Except.ok _ = Except.ok (Img.map _ _)
      rw [← this]
      congr 2
      unfold Img.map Img.sw Img.map
      simp only
      congr 1
      funext r c
      simp only [div_pos_iff' hk]
      split <;> rw [div_div, div_div, mul_comm]

theorem freshSrc_over (hk : 0 < k) (hn : w.NoiseFollows k) (hw : OtherWeights k w w' t) {e : Entry P} (he : e ∈ t.entries)
    (ra dec a b : ℚ) : WeightsOver k (freshSrc w t ra dec a b e) (freshSrc w' t ra dec a b e) := by
  have hi : (seInit w'.disk e.src e.offset t.wcs t.psf).out = (seInit w.disk e.src e.offset t.wcs t.psf).out := by
    rw [hw.world]
  have hns : e.noiseSeeds.mapM (freshNoise w' e) = (e.noiseSeeds.mapM (freshNoise w e)).map (List.map (Img.sc k)) := by
    generalize e.noiseSeeds = l
    induction l with
    | nil => rfl
    | cons s l ih =>
      rw [List.mapM_cons, List.mapM_cons, ih, freshNoise_over hk hn hw he]
      cases freshNoise w e s with
      | error y => rfl
      | ok n =>
      simp only [Except.map, ok_bind]
      cases l.mapM (freshNoise w e) <;> rfl
  obtain ⟨o1, o2, o3⟩ := hw.others e he
  cases hc : (seInit w.disk e.src e.offset t.wcs t.psf).out with
  | error y =>
    rw [hc] at hi
    unfold freshSrc
    rw [hc, hi]
    exact ⟨rfl, .inl ⟨_, rfl, rfl⟩, .inl ⟨_, rfl, rfl⟩⟩
  | ok con =>
    rw [hc] at hi
    have q : ∀ w : ProcWorld A σ S P, (seInit w.disk e.src e.offset t.wcs t.psf).out = .ok con →
        (freshSrc w t ra dec a b e).reads = freshReads w t e := by
      intro w h
      unfold freshSrc
      rw [h]
    have q1 := q w hc
    have q3 := q w' hi
    have hm : freshMask w' t e = freshMask w t e := by
      unfold freshMask
      rw [o3]
    refine ⟨?_, ?_, ?_⟩
    · rw [q3, q1]
      have r1 : freshReads w' t e =
          { freshReads w t e with weight := (freshReads w' t e).weight, noises := (freshReads w' t e).noises } := by
        unfold freshReads
        rw [o1, o2, hm]
      rw [← r1]
      have hww := hw.world
      unfold freshSrc
      simp only [hc, hi]
      generalize freshReads w' t e = rd
      rw [hww]
      rfl
    · rw [q3, q1]
      unfold freshReads
      simp only
      rcases (hw.weights e he).2 with ⟨x, a1, a2⟩ | ⟨a, a', a1, a2, a3⟩
      · rw [a1, a2]
        exact .inl ⟨x, rfl, rfl⟩
      · rw [a1, a2]
        exact .inr ⟨_, _, rfl, rfl, a3⟩
    · rw [q3, q1]
      show (∃ e₁, e.noiseSeeds.mapM (freshNoise w e) = .error e₁ ∧ e.noiseSeeds.mapM (freshNoise w' e) = .error e₁) ∨ ∃ ns ns',
        e.noiseSeeds.mapM (freshNoise w e) = .ok ns ∧ e.noiseSeeds.mapM (freshNoise w' e) = .ok ns' ∧ _
      rw [hns]
      cases e.noiseSeeds.mapM (freshNoise w e) with
      | error y => exact .inl ⟨y, rfl, rfl⟩
      | ok ns =>
        refine .inr ⟨ns, _, rfl, rfl, ?_⟩
        rw [List.forall₂_map_right_iff, List.forall₂_same]
        exact fun _ _ => ⟨rfl, rfl, fun _ _ => rfl⟩

/-- **C161** The same for the files: with weight maps divided by the square of `k`, and the noise fields drawn from them, every
slice of a tile has the same SE images with the same coadding weights and the same image; the noise images are `k` times as large
and the weight map is divided by the square of `k`. -/
theorem C161_tile (hk : 0 < k) (hw : OtherWeights k w w' t) {box psfBox : Nat} (hv : SoundEnv (freshEnv w t) box psfBox)
    (hv' : SoundEnv (freshEnv w' t) box psfBox) (hx : w.ext.Follows k) (hn : w.NoiseFollows k) (hr : w.ext.RotatesMore)
    (hl : w.ext.LinearInterp) (hro : t.cfg.rejectOutliers = false)
    (hm : ∀ ra dec raPsf decPsf, ∀ s ∈ (freshEnv w t).sources ra dec raPsf decPsf, ∀ bm, s.reads.bmask = .ok bm →
      Unflagged t.cfg.noiseFlags bm)
    (hid : (t.entries.map (·.imageId)).Nodup) {i seed seed' : Nat} {r r' : SliceRes Flt EpochRow}
    {p p' : SlicePix Flt} (h : coaddSingleSlice (freshEnv w t) i seed = .ok r)
    (h' : coaddSingleSlice (freshEnv w' t) i seed' = .ok r') (hp : r.pix = some p) (hp' : r'.pix = some p') :
    usedWeights r' = usedWeights r ∧ p'.image = p.image ∧ List.Forall₂ (Flt.Times (1 / k ^ 2)) p.weight p'.weight ∧
    ∀ j < t.nExtra + 1, ∃ n n', p.noises[j]? = some n ∧ p'.noises[j]? = some n' ∧ List.Forall₂ (Flt.Times k) n n' := by
  have he : freshEnv w' t = { freshEnv w t with sources := (freshEnv w' t).sources } := by
    have hww := hw.world
    generalize hs : (freshEnv w' t).sources = so
    have h1 : freshEnv w' t = { freshEnv w' t with sources := so } := by rw [← hs]
    rw [h1, hww]
    rfl
  have hids : ∀ (w : ProcWorld A σ S P) ra dec a b e, (freshSrc w t ra dec a b e).imageId = e.imageId := by
    intro w ra dec a b e
    unfold freshSrc
    split <;> rfl
  refine C161_slice hk hv hx hr hl hro hm (fun a b c d => ?_) (freshEnv w' t).sources (fun a b c d => ?_) (by rw [← he]; exact hv') h
    (by rw [← he]; exact h') hp hp'
  · show ((t.entries.map _).map _).Nodup
    rw [List.map_map]
    have : ((fun x : Src => x.imageId) ∘ freshSrc w t a b c d) = fun e => e.imageId := by
      funext e
      exact hids w a b c d e
    rw [this]
    exact hid
  · show List.Forall₂ _ (t.entries.map _) (t.entries.map _)
    rw [List.forall₂_map_left_iff, List.forall₂_map_right_iff, List.forall₂_same]
    exact fun e he => freshSrc_over hk hn hw he a b c d

/-- **C161** The same in processes with any history. -/
theorem C161_process {U U' : Tile A S P → Prop} (hk : 0 < k) (hw : OtherWeights k w w' t) {box psfBox : Nat}
    (hv : SoundEnv (freshEnv w t) box psfBox) (hv' : SoundEnv (freshEnv w' t) box psfBox) (hx : w.ext.Follows k)
    (hn : w.NoiseFollows k) (hr : w.ext.RotatesMore) (hl : w.ext.LinearInterp) (hro : t.cfg.rejectOutliers = false)
    (hm : ∀ ra dec raPsf decPsf, ∀ s ∈ (freshEnv w t).sources ra dec raPsf decPsf, ∀ bm, s.reads.bmask = .ok bm →
      Unflagged t.cfg.noiseFlags bm)
    (hid : (t.entries.map (·.imageId)).Nodup) (ho : Orderly w U) (ho' : Orderly w' U') (hU : U t) (hU' : U' t)
    (sizes sizes' : CacheId → Nat) (count count' : Nat) (ops ops' : List (ProcOp A S P)) (hops : OpsIn U ops)
    (hops' : OpsIn U' ops') {i seed seed' : Nat} {r r' : SliceRes Flt EpochRow} {p p' : SlicePix Flt}
    (h : (coaddSingleSliceP w t i seed (procRun w (Proc.fresh sizes w.arrays count) ops)).1 = .ok r)
    (h' : (coaddSingleSliceP w' t i seed' (procRun w' (Proc.fresh sizes' w'.arrays count') ops')).1 = .ok r')
    (hp : r.pix = some p) (hp' : r'.pix = some p') :
    usedWeights r' = usedWeights r ∧ p'.image = p.image ∧ List.Forall₂ (Flt.Times (1 / k ^ 2)) p.weight p'.weight ∧
    ∀ j < t.nExtra + 1, ∃ n n', p.noises[j]? = some n ∧ p'.noises[j]? = some n' ∧ List.Forall₂ (Flt.Times k) n n' := by
  rw [C113_slice ho sizes count ops hops t hU] at h
  rw [C113_slice ho' sizes' count' ops' hops' t hU'] at h'
  exact C161_tile hk hw hv hv' hx hn hr hl hro hm hid h h' hp hp'

end
end Pizza
