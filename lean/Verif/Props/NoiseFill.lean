import Verif.Lemmas.NoiseFill
import Verif.Props.BuildExamples

/-! Property C104: the noise that replaces noise-flagged pixels; and the values of the coadding weights
(C49). -/

namespace Pizza

/-- Pixel `(r, j)` of field `f` (0 the image, `f + 1` the noise field `f`) of the used epoch `i` carries a
noise flag, and is not interpolated or repaired afterwards. -/
def NoiseFilled {A : Type} (c : BuildCfg A) (out : Inputs) (i f r j : Nat) : Prop :=
  ∃ e w b ns, out.slices[i]? = some e ∧ e.obj.weight = some w ∧ e.obj.bmask = some b ∧
    e.obj.noises = some ns ∧ f ≤ ns.length ∧ r < sliceSide c ∧ j < sliceSide c ∧
    Carries (b.px r j) c.noiseFlags ∧ ¬ Unusable w b c.splineFlags (r, j)

theorem digits_unique {n a b a' b' : Nat} (hb : b < n) (hb' : b' < n) (h : a * n + b = a' * n + b') :
    a = a' ∧ b = b' := by
  have h1 : (a * n + b) / n = a := by
    rw [mul_comm, Nat.mul_add_div (by omega), Nat.div_eq_of_lt hb, add_zero]
  have h2 : (a' * n + b') / n = a' := by
    rw [mul_comm, Nat.mul_add_div (by omega), Nat.div_eq_of_lt hb', add_zero]
  have : a = a' := by rw [← h1, h, h2]
  subst this
  exact ⟨rfl, by omega⟩

/-- **C104** In every used epoch each noise-flagged pixel (that is not interpolated later) holds a normal
deviate of the generator times the square root of the inverse weight, in the image and in every noise
field; and no deviate is used for two pixels, two fields or two epochs, nor one drawn before. -/
theorem C104_noise_fill {A : Type} (x : Ext A Nat) (z : Nat → ℚ) (hz : x.normals = streamNormals z)
    (c : BuildCfg A) (srcs : List Src) (rng : Nat) (out : Inputs) (hx : Sane x c srcs)
    (h : buildSliceInputs x c srcs rng = .ok out) :
    ∃ idx : Nat → Nat → Nat → Nat → Nat,
      (∀ i e, out.slices[i]? = some e → ∃ w b im ns, e.obj.weight = some w ∧ e.obj.bmask = some b ∧
        e.obj.image = some im ∧ e.obj.noises = some ns ∧
        ∀ r < sliceSide c, ∀ j < sliceSide c, Carries (b.px r j) c.noiseFlags →
          ¬ Unusable w b c.splineFlags (r, j) →
          im.px r j = z (idx i 0 r j) * x.invSqrt (w.px r j) ∧
          ∀ f a, ns[f]? = some a → a.px r j = z (idx i (f + 1) r j) * x.invSqrt (w.px r j)) ∧
      (∀ i f r j, NoiseFilled c out i f r j → rng ≤ idx i f r j) ∧
      (∀ i f r j i' f' r' j', NoiseFilled c out i f r j → NoiseFilled c out i' f' r' j' →
        idx i f r j = idx i' f' r' j' → i = i' ∧ f = f' ∧ r = r' ∧ j = j') := by
  set n := sliceSide c with hn
  have hn1 : 1 ≤ n := (sliceSide_pos hx.box hx.frac).1
  have hchain : DrawChain x z c n rng out.slices := by
    obtain ⟨cands0, h1, h2⟩ := buildSliceInputs_ok hx.keeps hx.box hx.frac h
    rcases h2 with ⟨h2, rfl⟩ | ⟨h2, cands, sl, wt, nu, fl, _, h4, h5, h5', rfl, _⟩
    · trivial
    · obtain ⟨new, e1, e2⟩ := processAll_stream hz hn1 (fun k hk => ⟨h5' k hk, hx.shape _ (mem_srcs hx h1 h5 hk)⟩) h4
      simp only [List.nil_append] at e1
      rw [e1]; exact e2
  obtain ⟨base, hbase⟩ := hchain.base
  have range : ∀ i f r j, NoiseFilled c out i f r j → rng ≤ base i ∧ ∃ next,
      base i + f * (n * n) + r * n + j < next ∧ ∀ i' e', i < i' → out.slices[i']? = some e' → next ≤ base i' := by
    rintro i f r j ⟨e, w, b, ns, h1, h2, h3, h4, h5, h6, h7, h8, h9⟩
    obtain ⟨g1, next, g2, ⟨w', b', im, ns', q1, q2, q3, q4, q5, q6⟩, g4⟩ := hbase i e h1
    rw [h2] at q1; cases q1
    rw [h3] at q2; cases q2
    rw [h4] at q4; cases q4
    refine ⟨g1, next, ?_, g4⟩
    rw [q5.1 ⟨r, h6, j, h7, h8⟩]
    have a1 : r * n + j < n * n := by
      have : r * n + n ≤ n * n := by rw [← Nat.succ_mul]; exact Nat.mul_le_mul_right n h6
      omega
    have a2 : f * (n * n) ≤ ns.length * (n * n) := Nat.mul_le_mul_right _ h5
    have a3 : (1 + ns.length) * (n * n) = n * n + ns.length * (n * n) := by ring
    omega
  refine ⟨fun i f r j => base i + f * (n * n) + r * n + j, ?_, ?_, ?_⟩
  · intro i e he
    obtain ⟨_, next, _, ⟨w, b, im, ns, q1, q2, q3, q4, q5, q6⟩, _⟩ := hbase i e he
    refine ⟨w, b, im, ns, q1, q2, q3, q4, fun r hr j hj hcar hg => ?_⟩
    simpa using q6 r hr j hj hcar hg
  · intro i f r j hf
    have := (range i f r j hf).1
    simp only
    omega
  · intro i f r j i' f' r' j' hf hf' he
    simp only at he
    have key : ∀ i f r j i' f' r' j', NoiseFilled c out i f r j → NoiseFilled c out i' f' r' j' → i < i' →
        base i + f * (n * n) + r * n + j < base i' + f' * (n * n) + r' * n + j' := by
      intro i f r j i' f' r' j' hf hf' hlt
      obtain ⟨_, next, a1, a2⟩ := range i f r j hf
      obtain ⟨e, _, _, _, h1, _⟩ := hf'
      have := a2 i' e hlt h1
      omega
    rcases lt_trichotomy i i' with hlt | rfl | hlt
    · have := key _ _ _ _ _ _ _ _ hf hf' hlt; omega
    · obtain ⟨_, _, _, _, _, _, _, _, _, hr, hj, _⟩ := hf
      obtain ⟨_, _, _, _, _, _, _, _, _, hr', hj', _⟩ := hf'
      have e1 : (f * n + r) * n + j = (f' * n + r') * n + j' := by
        have e2 : (f * n + r) * n + j = f * (n * n) + r * n + j := by ring
        have e3 : (f' * n + r') * n + j' = f' * (n * n) + r' * n + j' := by ring
        omega
      obtain ⟨e4, rfl⟩ := digits_unique hj hj' e1
      obtain ⟨rfl, rfl⟩ := digits_unique hr hr' e4
      exact ⟨rfl, rfl, rfl, rfl⟩
    · have := key _ _ _ _ _ _ _ _ hf' hf hlt; omega

/-- External functions with the stream `0, 1, 2, …`. -/
def exStreamExt : Ext Unit Nat := { exExt with normals := streamNormals fun k => (k : ℚ) }

/-- `C104_noise_fill`: two epochs with a noise-flagged centre; the deviates are number 4 and, after the nine of the first
epoch, number 13 (the inverse square root of the example is the identity, and the weights are 2 and 1). -/
example : ∃ out, exStreamExt.normals = streamNormals (fun k => (k : ℚ)) ∧
    Sane exStreamExt exCfg [exSrc 0 2 1 false, exSrc 0 1 1 false] ∧
    buildSliceInputs exStreamExt exCfg [exSrc 0 2 1 false, exSrc 0 1 1 false] 0 = .ok out ∧
    exViewOf out = ⟨[⟨some 8, some 2, some (BitVec.twoPow 32 28)⟩, ⟨some 13, some 1, some (BitVec.twoPow 32 28)⟩],
      [2 / 3, 1 / 3], 0, []⟩ := by
  have hrun : exView (buildSliceInputs exStreamExt exCfg [exSrc 0 2 1 false, exSrc 0 1 1 false] 0) =
      some ⟨[⟨some 8, some 2, some (BitVec.twoPow 32 28)⟩, ⟨some 13, some 1, some (BitVec.twoPow 32 28)⟩],
        [2 / 3, 1 / 3], 0, []⟩ := by decide +kernel
  obtain ⟨out, h1, h2⟩ := exView_some hrun
  have hs := exSane [exSrc 0 2 1 false, exSrc 0 1 1 false] (by
    intro s hs
    simp only [List.mem_cons, List.not_mem_nil, or_false] at hs
    rcases hs with rfl | rfl <;> exact ⟨_, _, _, _, rfl⟩) exCfg rfl rfl
  exact ⟨out, rfl, ⟨hs.box, hs.frac, hs.shape, hs.keeps⟩, h1, h2⟩

/-- The weight of an epoch before normalisation: the largest weight of its slice, for `noise-fwhm`
divided by the fourth power of the width of its PSF. -/
def RawWeight {A σ : Type} (x : Ext A σ) (c : BuildCfg A) (e : Epoch) (v : ℚ) : Prop :=
  ∃ w psf top, e.obj.weight = some w ∧ e.obj.psf = some psf ∧
    (∃ r < w.nrow, ∃ j < w.ncol, w.px r j = top) ∧ (∀ r < w.nrow, ∀ j < w.ncol, w.px r j ≤ top) ∧
    ((c.coaddingWeight = .noise ∧ v = top) ∨
     (c.coaddingWeight = .noiseFwhm ∧ ∃ f, x.fwhm psf = .ok f ∧ v = top / f ^ 4))

theorem imgMax_spec {w : Img ℚ} {v : ℚ} (h : w.npMax = .ok v) :
    (∃ r < w.nrow, ∃ j < w.ncol, w.px r j = v) ∧ ∀ r < w.nrow, ∀ j < w.ncol, w.px r j ≤ v := by
  unfold Img.npMax at h
  have hne : ((List.range w.nrow).flatMap fun r => (List.range w.ncol).map fun c => w.px r c) ≠ [] := by
    intro h0; rw [h0] at h; cases h
  obtain ⟨m, h1, h2, h3⟩ := qmax?_spec hne
  rw [h1] at h
  cases h
  constructor
  · obtain ⟨r, hr, h4⟩ := List.mem_flatMap.1 h2
    obtain ⟨j, hj, h5⟩ := List.mem_map.1 h4
    exact ⟨r, List.mem_range.1 hr, j, List.mem_range.1 hj, h5⟩
  · intro r hr j hj
    exact h3 _ (List.mem_flatMap.2 ⟨r, List.mem_range.2 hr, List.mem_map.2 ⟨j, List.mem_range.2 hj, rfl⟩⟩)

/-- C49: the weights are the largest weights of the slices (over the fourth power of the PSF width for
`noise-fwhm`) divided by their sum; these are positive, if the widths are. -/
theorem C49_values {A σ : Type} (x : Ext A σ) (c : BuildCfg A) (srcs : List Src) (rng : σ)
    (out : Inputs) (hx : Sane x c srcs) (h : buildSliceInputs x c srcs rng = .ok out) :
    ∃ raw : List ℚ, List.Forall₂ (RawWeight x c) out.slices raw ∧
      out.weights = raw.map (· / raw.sum) ∧
      ((c.coaddingWeight = .noiseFwhm → ∀ im v, x.fwhm im = .ok v → 0 < v) → ∀ v ∈ raw, 0 < v) := by
  obtain ⟨cands0, h1, h2⟩ := buildSliceInputs_ok hx.keeps hx.box hx.frac h
  rcases h2 with ⟨h2, rfl⟩ | ⟨h2, cands, sl, wt, nu, fl, _, _, h5, h5', rfl, h6, h7, h8, h9, h10⟩
  · exact ⟨[], .nil, rfl, fun _ v hv => by cases hv⟩
  · refine ⟨wt, ?_, rfl, ?_⟩
    swap
    · intro hfw v hv
      obtain ⟨i, hi, rfl⟩ := List.getElem_of_mem hv
      have hmem : (sl[i]'(h7 ▸ hi), wt[i]) ∈ sl.zip wt := by
        rw [← List.getElem_zip (h := by simp [h7 ▸ hi, hi])]
        exact List.getElem_mem _
      obtain ⟨k, hk, g, g', a1, a2⟩ := h9 _ _ hmem
      have hn := (sliceSide_pos hx.box hx.frac).1
      obtain ⟨d, w0, g, w, b, o, e1, e2, e3, e5, e6, e4⟩ :=
        epoch_facts rfl hn (h5' k hk) (hx.shape _ (mem_srcs hx h1 h5 hk)) a1 a2
      rcases e4 with ⟨_, _, f', a2, _⟩ | ⟨_, _, a3⟩
      · cases a2
      · exact weight_pos hfw hn e5 a3
    simp only
    rw [List.forall₂_iff_zip]
    refine ⟨h7, fun {e v} hm => ?_⟩
    obtain ⟨k, hk, g, g', a1, a2⟩ := h9 e v hm
    have hn := (sliceSide_pos hx.box hx.frac).1
    obtain ⟨d, w0, g, w, b, o, e1, e2, e3, e5, e6, e4⟩ :=
      epoch_facts rfl hn (h5' k hk) (hx.shape _ (mem_srcs hx h1 h5 hk)) a1 a2
    rcases e4 with ⟨_, _, f', a2, _⟩ | ⟨_, _, w', b', _, _, _, a3⟩
    · cases a2
    rcases a3 with ⟨c1, c2⟩ | ⟨c1, ⟨c2, c3⟩ | ⟨c2, im, ns, pm, q, c3, c4, ⟨c5, c6⟩ |
      ⟨c5, o', wt', psf, c6, _, _, _, _, r1, _, r2, r3, _, _, _, hbw⟩⟩⟩
    · cases c2
    · cases c3
    · cases c6
    · cases c6
      unfold buildCoaddWeight at hbw
      cases hk : c.coaddingWeight with
      | noise =>
        rw [hk] at hbw
        obtain ⟨m1, m2⟩ := imgMax_spec hbw
        exact ⟨w, psf, _, r1.trans e2, r2.trans r3, m1, m2, .inl ⟨hk, rfl⟩⟩
      | noiseFwhm =>
        rw [hk] at hbw
        obtain ⟨m, q1, hbw⟩ := bind_eq_ok.1 hbw
        obtain ⟨f, q2, hbw⟩ := bind_eq_ok.1 hbw
        obtain ⟨m1, m2⟩ := imgMax_spec q1
        exact ⟨w, psf, m, r1.trans e2, r2.trans r3, m1, m2, .inr ⟨hk, f, q2, (Except.ok.inj hbw).symm⟩⟩
      | unknown => rw [hk] at hbw; cases hbw

/-- `C49_values` for the run of `exRun`. -/
example (out : Inputs) (h : buildSliceInputs exExt exCfg exSrcs 0 = .ok out) :=
  C49_values exExt exCfg exSrcs 0 out exSrcs_sane h

end Pizza
