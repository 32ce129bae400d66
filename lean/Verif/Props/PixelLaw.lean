import Verif.Spec.PixelLaw
import Verif.Props.Slice

/-!
Property C119: the pixels of a coadded slice in terms of the pixels of the SE files.
-/

namespace Pizza

variable {A σ S : Type}

/-! ### sums over a window -/

theorem sum_window {n N s : Nat} (h : s + n ≤ N) (g : Nat → ℚ)
    (hg : ∀ r, ¬ (s ≤ r ∧ r < s + n) → g r = 0) :
    ∑ r ∈ Finset.range N, g r = ∑ r ∈ Finset.range n, g (s + r) := by
  symm
  apply Finset.sum_of_injOn (fun r : Nat => s + r)
  · intro i _ j _ h; simpa using h
  · intro i hi
    simp only [Finset.coe_range, Set.mem_Iio] at hi ⊢
    omega
  · intro r _ hr
    apply hg
    rintro ⟨h1, h2⟩
    exact hr ⟨r - s, by simp; omega, by simp; omega⟩
  · intro i _; rfl

theorem kcut_shift (y : ℚ) (s r : Nat) : kcut 3 (y - s) r = kcut 3 y (s + r) := by
  unfold kcut InKernel
  have e : y - (s : ℚ) - (r : ℚ) = y - ((s + r : Nat) : ℚ) := by push_cast; ring
  rw [e]
  congr 1
  push_cast
  apply propext
  constructor <;> rintro ⟨h1, h2⟩ <;> constructor <;> linarith

theorem kernelSum_eq (sinc : ℚ → ℚ) (hs : ∀ t, sincPade t = .ok (sinc t)) (nrow ncol : Nat) (x y : ℚ)
    (f : Nat → Nat → ℚ) :
    kernelSum sinc nrow ncol x y f =
      ∑ r ∈ Finset.range nrow, ∑ c ∈ Finset.range ncol, f r c * (kcut 3 x c * kcut 3 y r) := by
  have hS' : ∀ t, sinc t = sincVal t := fun t => by
    have := hs t
    rw [sincPade_eq] at this
    exact (Except.ok.inj this).symm
  unfold kernelSum
  refine Finset.sum_congr rfl fun r _ => Finset.sum_congr rfl fun c _ => ?_
  unfold kcut lanczos3
  by_cases h1 : InKernel 3 y r <;> by_cases h2 : InKernel 3 x c <;> simp [h1, h2, hS', kern]

/-- The interpolation of a window at a position relative to it is that of the whole image, with nothing
outside of the window. -/
theorem lanczosSum_window (sinc : ℚ → ℚ) (hs : ∀ t, sincPade t = .ok (sinc t)) (nrow ncol n y0 x0 : Nat)
    (hr : y0 + n ≤ nrow) (hc : x0 + n ≤ ncol) (a : Img ℚ) (ha : a.Sq n) (f : Nat → Nat → ℚ)
    (hin : ∀ i < n, ∀ j < n, f (y0 + i) (x0 + j) = a.px i j)
    (hout : ∀ r c, ¬ ((y0 ≤ r ∧ r < y0 + n) ∧ x0 ≤ c ∧ c < x0 + n) → f r c = 0) (x y : ℚ) :
    lanczosSum a 3 (y - y0) (x - x0) = kernelSum sinc nrow ncol x y f := by
  rw [lanczosSum_eq, kernelSum_eq sinc hs, ha.1, ha.2, sum_window hr]
  · refine Finset.sum_congr rfl fun r hr' => ?_
    rw [Finset.mem_range] at hr'
    rw [sum_window hc]
    · refine Finset.sum_congr rfl fun c hc' => ?_
      rw [Finset.mem_range] at hc'
      rw [hin r hr' c hc', kcut_shift, kcut_shift]
    · intro c hc'
      rw [hout _ _ (fun h => hc' h.2), zero_mul]
  · intro r hr'
    refine Finset.sum_eq_zero fun c _ => ?_
    rw [hout _ _ (fun h => hr' h.1), zero_mul]

/-! ### the window of a used epoch -/

theorem isWindow_px {α β : Type} {out : Img β} {a : Img α} {f : α → β} {r0 c0 : Nat} {n : Nat}
    (h : IsWindow out a f r0 c0 n) : ∀ i < n, ∀ j < n, out.px i j = f (a.px (r0 + i) (c0 + j)) := by
  intro i hi j hj
  obtain ⟨v, h1, h2⟩ := h.2.2 i j (by omega) (by omega)
  unfold Img.getZ? at h1
  split at h1
  · have : v = a.px (r0 + i) (c0 + j) := by
      rw [← Option.some.inj h1]
      congr 1
    rw [h2, this]
  · cases h1

/-- The window of a used epoch is on its CCD and holds the calibrated pixels of the files. -/
theorem used_window {x : Ext A σ} {c : BuildCfg A} {srcs : List Src} {rng : σ} {out : Inputs}
    (hx : Sane x c srcs) (h : buildSliceInputs x c srcs rng = .ok out) {e : Epoch} (he : e ∈ out.slices) :
    ∃ (y0 x0 : Nat) (im bkg : Img ℚ) (ns : List (Img ℚ)) (d : SESlice),
      e.obj.yStart = some (y0 : ℤ) ∧ e.obj.xStart = some (x0 : ℤ) ∧ e.obj.boxSize = some (sliceSide c : ℤ) ∧
      y0 + sliceSide c ≤ e.src.nrow ∧ x0 + sliceSide c ≤ e.src.ncol ∧
      e.src.reads.image = .ok im ∧ e.src.reads.bkg = .ok bkg ∧ e.src.reads.noises = .ok ns ∧
      e.src.ReadsAs c d ∧
      (∀ i < sliceSide c, ∀ j < sliceSide c, d.image.px i j = calibrated e.src im bkg (y0 + i) (x0 + j)) ∧
      d.noises.length = ns.length ∧
      ∀ (k : Nat) a o, ns[k]? = some a → d.noises[k]? = some o →
        ∀ i < sliceSide c, ∀ j < sliceSide c, o.px i j = a.px (y0 + i) (x0 + j) := by
  obtain ⟨hmem, hpass, _, d, w0, g, w, b, w', b', im', ns', pm, q, a1, _⟩ := used_epoch x c srcs rng out hx h e he
  obtain ⟨col, row, im, bkg, bm, wt, ns, r1, r2, r3, r4, r5, r6, r7⟩ := a1.reads
  obtain ⟨col', row', psf, px, py, p1, p2, p3, p4, _⟩ :=
    buildSliceInputs_place hx h e (List.mem_append_left _ he)
  cases r1.symm.trans p1
  obtain ⟨_, _, _, col', row', p1', hin⟩ := hpass
  cases r1.symm.trans p1'
  obtain ⟨side, B, hB, s1, s2, _, _, s3, _⟩ :=
    C07_slice_bounds col row c.fracBuffer c.boxSize (by linarith [hx.frac]) (by have := hx.box; omega)
  have hn := sliceSide_pos hx.box hx.frac
  have hside : side = sliceSide c := by
    rw [hn.2, ← s2, ← hB]; simp only [computeSliceBounds]; ring
  rw [hB] at p2 p3 p4 r7
  have q1 := hin B.rowmin B.colmin B hB le_rfl (by omega) le_rfl (by omega)
  have q2 := hin B.rowmax B.colmax B hB (by omega) le_rfl (by omega) le_rfl
  obtain ⟨w1, w2, w3, w4⟩ := hx.shape _ hmem
  have hcon : ccdContainsBounds e.src.nrow e.src.ncol B c.edgeBuffer = true := by
    rw [C08_contains_iff _ _ _ _ (by omega) (by omega)]
    exact fun i j => hin i j B hB
  obtain ⟨d', t1, t2, t3, t4, ⟨diff, t5, _, _, t6⟩, _, _, t7, t8⟩ :=
    C08_set_slice ⟨im, ⟨e.src.nrow, e.src.ncol, bkg.px⟩, bm, wt, ns⟩ e.src.nrow e.src.ncol e.src.scale B
      c.edgeBuffer (w1 _ r2) ⟨rfl, rfl⟩ (w2 _ r4) (w3 _ r5) (w4 _ r6) (by omega) (by omega) hcon
  have hd : d = d' := by
    have : setSlice ⟨im, ⟨e.src.nrow, e.src.ncol, bkg.px⟩, bm, wt, ns⟩ e.src.scale B =
        setSlice ⟨im, bkg, bm, wt, ns⟩ e.src.scale B := rfl
    rw [this, r7] at t1
    exact Except.ok.inj t1
  subst hd
  obtain ⟨y0, hy0⟩ := Int.eq_ofNat_of_zero_le (show 0 ≤ B.rowmin by omega)
  obtain ⟨x0, hx0⟩ := Int.eq_ofNat_of_zero_le (show 0 ≤ B.colmin by omega)
  have hbox : d.boxSize = (sliceSide c : ℤ) := by rw [t4]; omega
  rw [hbox, hy0, hx0] at t5
  refine ⟨y0, x0, im, bkg, ns, d, by rw [p3, hy0], by rw [p2, hx0], by rw [p4]; congr 1; omega, by omega,
    by omega, r2, r3, r6, a1.reads, ?_, t7, ?_⟩
  · intro i hi j hj
    rw [isWindow_px t5 i hi j hj, t6]
    rfl
  · intro k a o ha ho
    have := t8 k o a ho ha
    rw [hbox, hy0, hx0] at this
    exact isWindow_px this

/-- Pixels of a used epoch that are usable are used as read. -/
theorem used_good {x : Ext A σ} {c : BuildCfg A} {srcs : List Src} {rng : σ} {out : Inputs}
    (hx : Sane x c srcs) (h : buildSliceInputs x c srcs rng = .ok out) {e : Epoch} (he : e ∈ out.slices)
    {d : SESlice} (hd : e.src.ReadsAs c d) :
    ∃ w b im ns, e.obj.weight = some w ∧ e.obj.bmask = some b ∧ e.obj.image = some im ∧
      e.obj.noises = some ns ∧ w.Sq (sliceSide c) ∧ im.Sq (sliceSide c) ∧
      SameShapes d.noises ns ∧
      ∀ i < sliceSide c, ∀ j < sliceSide c, 0 < w.px i j →
        ¬ Carries (b.px i j) (c.splineFlags ||| c.noiseFlags) →
        im.px i j = d.image.px i j ∧ SameAt d.noises ns i j := by
  obtain ⟨_, _, _, d', w0, g, w, b, w', b', im, ns, pm, q, a1, a2, a3, a4, a5, a6, a7, a8, a9, a10,
    a11, a12, a13, a14, a15⟩ := used_epoch x c srcs rng out hx h e he
  have := readsAs_unique a1.reads hd
  subst this
  refine ⟨w, b, im, ns, a4, a5, a6, a7, a2, a13.im_sq, a13.shapes, ?_⟩
  intro i hi j hj hw hc
  have hor : ∀ f g : BitVec 32, Carries (b.px i j) f ∨ Carries (b.px i j) g → Carries (b.px i j) (f ||| g) := by
    rintro f g (⟨k, hk, h1, h2⟩ | ⟨k, hk, h1, h2⟩) <;> exact ⟨k, hk, h1, by simp [h2]⟩
  have hs : ¬ Carries (b.px i j) c.splineFlags := fun h => hc (hor _ _ (.inl h))
  have hnf : ¬ Carries (b.px i j) c.noiseFlags := fun h => hc (hor _ _ (.inr h))
  have hun : ¬ Unusable w b c.splineFlags (i, j) := by
    rintro (h | h)
    · exact absurd hw (not_lt.2 h)
    · exact hs h
  have hrep : ∀ e', ¬ Repaired w b c.splineFlags e' i j := by
    rintro e' ⟨h1, h2, _⟩
    exact hun (h2 i j h1)
  have hun' : ¬ Unusable w' b' c.splineFlags (i, j) := by
    by_cases hcp : c.copyEdges = true
    · obtain ⟨⟨_, _, hw'⟩, _, _, hb'⟩ := a10.1 hcp
      have e1 := (hw' i (a2.1.symm ▸ hi) j (a2.2.symm ▸ hj)).2 hrep
      have e2 := (hb' i (a2.1.symm ▸ hi) j (a2.2.symm ▸ hj)).2 hrep
      simp only [Unusable] at hun ⊢
      rw [e1, e2]
      exact hun
    · rw [(a10.2.1 (by simpa using hcp)).1, (a10.2.1 (by simpa using hcp)).2]
      exact hun
  by_contra hne
  rw [not_and_or] at hne
  rcases a13.altered i hi j hj hne with h27 | h28
  · rcases a13.sound i hi j hj h27 with h' | ⟨_, e', h'⟩
    · exact hun' h'
    · exact hrep e' h'
  · exact hnf ((a13.noise i hi j hj).1 h28)

/-! ### what an epoch contributes -/

/-- An array over the whole SE image that is the array `a` in the window and nothing outside. -/
def inFrame (n y0 x0 : Nat) (a : Img ℚ) (r c : Nat) : ℚ :=
  if (y0 ≤ r ∧ r < y0 + n) ∧ x0 ≤ c ∧ c < x0 + n then a.px (r - y0) (c - x0) else 0

theorem inFrame_in {n y0 x0 : Nat} (a : Img ℚ) {i j : Nat} (hi : i < n) (hj : j < n) :
    inFrame n y0 x0 a (y0 + i) (x0 + j) = a.px i j := by
  unfold inFrame
  rw [if_pos (by omega), Nat.add_sub_cancel_left, Nat.add_sub_cancel_left]

theorem flux_window (sinc : ℚ → ℚ) (hs : ∀ t, sincPade t = .ok (sinc t)) {s : Src} {w : Lookups}
    {n y0 x0 : Nat} (hr : y0 + n ≤ s.nrow) (hc : x0 + n ≤ s.ncol) (a : Img ℚ) (x y u v : ℚ) :
    lanczosSum (perArea a (fun r c => w.areaSe ((c : ℚ) + ((x0 : ℤ) : ℚ)) ((r : ℚ) + ((y0 : ℤ) : ℚ))) n) 3
      (y - ((y0 : ℤ) : ℚ)) (x - ((x0 : ℤ) : ℚ)) * w.areaCoadd u v =
    fluxAt sinc s w x y u v (inFrame n y0 x0 a) := by
  unfold fluxAt
  rw [mul_comm]
  congr 1
  rw [Int.cast_natCast, Int.cast_natCast]
  refine lanczosSum_window sinc hs s.nrow s.ncol n y0 x0 hr hc _ ⟨rfl, rfl⟩ _ ?_ ?_ x y
  · intro i hi j hj
    rw [inFrame_in a hi hj]
    show _ = a.px i j / _
    congr 2 <;> push_cast <;> ring
  · intro r c hrc
    unfold inFrame
    rw [if_neg hrc, zero_div]

theorem seen_frame {cfg : BuildCfg A} {e : Epoch} {n y0 x0 : Nat} {w : Img ℚ} {b : Img (BitVec 32)}
    (hy : e.obj.yStart = some (y0 : ℤ)) (hx : e.obj.xStart = some (x0 : ℤ))
    (hn : e.obj.boxSize = some (n : ℤ)) (hw : e.obj.weight = some w) (hb : e.obj.bmask = some b)
    (hsq : w.Sq n) (a : Img ℚ) (raw : Nat → Nat → ℚ)
    (h : ∀ i < n, ∀ j < n, 0 < w.px i j → ¬ Carries (b.px i j) (cfg.splineFlags ||| cfg.noiseFlags) →
      a.px i j = raw (y0 + i) (x0 + j)) : SeenPixels cfg e raw (inFrame n y0 x0 a) := by
  constructor
  · intro r c ho
    unfold inFrame
    rw [if_neg]
    intro hin
    exact ho ⟨x0, y0, n, hx, hy, hn, by omega, by omega, by omega, by omega⟩
  · rintro r c ⟨x0', y0', w', b', g1, g2, g3, g4, i, j, g5, g6, g7, g8, g9, g10⟩
    rw [hx] at g1
    rw [hy] at g2
    rw [hw] at g3
    rw [hb] at g4
    cases g1
    cases g2
    cases g3
    cases g4
    rw [hsq.1] at g7
    rw [hsq.2] at g8
    have e1 : r = y0 + i := by omega
    have e2 : c = x0 + j := by omega
    subst e1
    subst e2
    rw [inFrame_in a g7 g8]
    exact h i g7 j g8 g9 g10

theorem contributes {x : Ext A σ} {c : BuildCfg A} {srcs : List Src} {rng : σ} {out : Inputs}
    (hx : Sane x c srcs) (h : buildSliceInputs x c srcs rng = .ok out) {e : Epoch} (he : e ∈ out.slices)
    (sinc : ℚ → ℚ) (hs : ∀ t, sincPade t = .ok (sinc t)) {row : ObjRow} {lay : PsfLayout} {d : EpochData}
    (hd : SeenAs row lay e d) : Contributes sinc c row row.boxSize.toNat e d := by
  obtain ⟨y0, x0, im, bkg, ns, q, f1, f2, f3, f4, f5, f6, f7, f8, f9, f10, f11, f12⟩ := used_window hx h he
  obtain ⟨w, b, im', ns', g1, g2, g3, g4, g5, g6, g7, g8⟩ := used_good hx h he f9
  obtain ⟨lk, out', l1, l2, l3⟩ := hd
  obtain ⟨selfBox, sx, sy, image, iom, frac, noises, bm, pm, F⟩ := resample_facts l2
  have e1 := F.hbox
  have e2 := F.hx
  have e3 := F.hy
  have e4 := F.himage
  have e5 := F.hnoises
  rw [f3] at e1
  rw [f2] at e2
  rw [f1] at e3
  rw [g3] at e4
  rw [g4] at e5
  cases e1
  cases e2
  cases e3
  cases e4
  cases e5
  have hlen : ns'.length = ns.length := by rw [← g7.length_eq, f11]
  subst l3
  refine ⟨lk, im, bkg, ns, inFrame (sliceSide c) y0 x0 im',
    fun k => inFrame (sliceSide c) y0 x0 (ns'[k]?.getD ⟨0, 0, fun _ _ => 0⟩), l1, f6, f7, f8,
    F.lenNoises.trans hlen, ?_, ?_, ?_⟩
  · exact seen_frame f1 f2 f3 g1 g2 g5 _ _ fun i hi j hj p1 p2 =>
      ((g8 i hi j hj p1 p2).1).trans (f10 i hi j hj)
  · intro k a ha
    refine seen_frame f1 f2 f3 g1 g2 g5 _ _ fun i hi j hj p1 p2 => ?_
    have hk : k < ns.length := (List.getElem?_eq_some_iff.1 ha).1
    have hk1 : k < q.noises.length := by omega
    have hk2 : k < ns'.length := by omega
    rw [List.getElem?_eq_getElem hk2, Option.getD_some,
      ← f12 k a _ ha (List.getElem?_eq_getElem hk1) i hi j hj]
    exact (List.forall₂_iff_get.1 (g8 i hi j hj p1 p2).2).2 k hk1 hk2
  · intro r hr cc hc u v hu hv
    have P := (F.px r hr cc hc).1
    have N : ∀ k < ns.length, noisePx k r cc (out'.toEpoch (decide (out'.psf.total ≠ 0))) =
        (lanczosAt (perArea (ns'[k]?.getD ⟨0, 0, fun _ _ => 0⟩)
          (fun r c => lk.areaSe ((c : ℚ) + ((x0 : ℤ) : ℚ)) ((r : ℚ) + ((y0 : ℤ) : ℚ))) (sliceSide c))
          (localPos lk row.origStartCol row.origStartRow ((x0 : ℤ) : ℚ) ((y0 : ℤ) : ℚ) r cc)).1 *
          lk.areaCoadd ((cc : ℚ) + row.origStartCol) ((r : ℚ) + row.origStartRow) := by
      intro k hk
      have hk2 : k < ns'.length := by omega
      have hk3 : k < out'.noises.length := by rw [F.lenNoises]; exact hk2
      have := (F.noisePx k _ _ (List.getElem?_eq_getElem hk2) (List.getElem?_eq_getElem hk3)).2.2.2.2 r hr cc hc
      rw [List.getElem?_eq_getElem hk2, Option.getD_some]
      rw [Int.toNat_natCast] at this
      rw [← this]
      unfold noisePx
      show (out'.noises[k]?).elim 0 _ = _
      rw [List.getElem?_eq_getElem hk3]
      rfl
    rw [← hu, ← hv] at N
    rw [← hu, ← hv, Int.toNat_natCast] at P
    unfold localPos at N P
    rw [← hu, ← hv] at N P
    refine ⟨fun hn => ?_, fun x y hxy => ?_⟩
    · rw [hn] at N P
      refine ⟨P.trans (zero_mul _), fun k hk => (N k hk).trans (zero_mul _)⟩
    · rw [hxy] at N P
      refine ⟨P.trans ?_, fun k hk => (N k hk).trans ?_⟩
      · exact flux_window sinc hs f4 f5 im' x y u v
      · exact flux_window sinc hs f4 f5 _ x y u v

/-! ### epochs without defects near a pixel -/

theorem kernelSum_congr (sinc : ℚ → ℚ) (nrow ncol : Nat) (x y : ℚ) (f g : Nat → Nat → ℚ)
    (h : ∀ r < nrow, ∀ c < ncol, InKernel 3 y r → InKernel 3 x c → f r c = g r c) :
    kernelSum sinc nrow ncol x y f = kernelSum sinc nrow ncol x y g := by
  unfold kernelSum
  refine Finset.sum_congr rfl fun r hr => Finset.sum_congr rfl fun c hc => ?_
  split
  · rename_i hk
    rw [h r (Finset.mem_range.1 hr) c (Finset.mem_range.1 hc) hk.1 hk.2]
  · rfl

theorem flux_good {sinc : ℚ → ℚ} {cfg : BuildCfg A} {e : Epoch} {w : Lookups} {x y u v : ℚ}
    {raw seen : Nat → Nat → ℚ} (hs : SeenPixels cfg e raw seen)
    (hg : ∀ i j : ℤ, y - 3 < i → i ≤ y + 3 → x - 3 < j → j ≤ x + 3 → GoodPixel cfg e i j) :
    fluxAt sinc e.src w x y u v seen = fluxAt sinc e.src w x y u v raw := by
  unfold fluxAt
  congr 1
  refine kernelSum_congr _ _ _ _ _ _ _ fun r _ c _ h1 h2 => ?_
  rw [hs.good r c (hg r c (by exact_mod_cast h1.1) (by exact_mod_cast h1.2) (by exact_mod_cast h2.1)
    (by exact_mod_cast h2.2))]

theorem clean_value {sinc : ℚ → ℚ} {cfg : BuildCfg A} {row : ObjRow} {box r c : Nat} (hr : r < box)
    (hc : c < box) {e : Epoch} {d : EpochData} {f : ℚ} (hd : Contributes sinc cfg row box e d)
    (hf : CleanValue sinc cfg row r c e f) : d.image.px r c = f := by
  obtain ⟨w, im, bkg, ns, seen, seenN, a1, a2, a3, a4, a5, a6, a7, a8⟩ := hd
  obtain ⟨w', im', bkg', x, y, b1, b2, b3, b4, b5, b6⟩ := hf
  cases a1.symm.trans b1
  cases a2.symm.trans b2
  cases a3.symm.trans b3
  rw [((a8 r hr c hc _ _ rfl rfl).2 x y b4).1, b6, flux_good a6 b5]

theorem clean_noise {sinc : ℚ → ℚ} {cfg : BuildCfg A} {row : ObjRow} {box k r c : Nat} (hr : r < box)
    (hc : c < box) {e : Epoch} {d : EpochData} {f : ℚ} (hd : Contributes sinc cfg row box e d)
    (hf : CleanNoise sinc cfg row k r c e f) : noisePx k r c d = f := by
  obtain ⟨w, im, bkg, ns, seen, seenN, a1, a2, a3, a4, a5, a6, a7, a8⟩ := hd
  obtain ⟨w', ns', a, x, y, b1, b2, b3, b4, b5, b6⟩ := hf
  cases a1.symm.trans b1
  cases a4.symm.trans b2
  rw [((a8 r hr c hc _ _ rfl rfl).2 x y b4).2 k (List.getElem?_eq_some_iff.1 b3).1, b6,
    flux_good (a7 k a b3) b5]

theorem mean_of {α : Type} {R : α → EpochData → Prop} {V : α → ℚ → Prop} {g : EpochData → ℚ}
    {es : List α} {ds : List EpochData} {vs ws : List ℚ}
    (h1 : List.Forall₂ R es ds) (h2 : List.Forall₂ V es vs) (hl : ws.length = es.length)
    (hw : ws.sum = 1) (hg : ∀ e d f, R e d → V e f → g d = f) : wMean (ds.zip ws) g = (List.zipWith (· * ·) ws vs).sum := by
  have hl' : ds.length = ws.length := by rw [hl, h1.length_eq]
  unfold wMean
  rw [(zip_fst_snd hl').2, hw, div_one]
  congr 1
  clear hw hl'
  induction h1 generalizing vs ws with
  | nil =>
    cases h2
    cases ws <;> simp_all
  | @cons e d es ds he _ ih =>
    cases h2 with
    | @cons _ f _ vs hf h2 =>
      cases ws with
      | nil => simp at hl
      | cons w ws =>
        rw [List.zip_cons_cons, List.map_cons, List.zipWith_cons_cons, ih h2 (by simpa using hl),
          hg e d f he hf]

/-- C119: the pixels of a slice are the weighted mean, over the used epochs, of the calibrated pixels of the
SE files divided by the area of the SE pixel, interpolated at the place of the coadd pixel on the SE image, and
multiplied by the area of the coadd pixel.  Only pixels of the window around the slice take part, and of these
only those are replaced by something else that have no positive weight or carry a flag of pixels to be
replaced.  The noise images go through the same. -/
theorem C119_value (v : SliceEnv A σ S) (box psfBox : Nat) (hv : SoundEnv v box psfBox)
    (sinc : ℚ → ℚ) (hs : ∀ t, sincPade t = .ok (sinc t)) (i seed : Nat)
    (r : SliceRes Flt EpochRow) (h : coaddSingleSlice v i seed = .ok r) :
    ∃ row lay gaia cfg inp, v.objects[i]? = some row ∧
      coaddPsfLayout v.fwd v.inv row.ra row.dec row.psfBoxSize v.offset = .ok lay ∧
      StarMask v row gaia ∧ SliceCfg v row gaia cfg ∧
      buildSliceInputs v.ext cfg (v.sources row.ra row.dec lay.raPsf lay.decPsf)
        (v.seeded seed) = .ok inp ∧
      r.weights = inp.weights ∧ r.weights.length = inp.slices.length ∧
      (inp.slices ≠ [] → r.weights.sum = 1 ∧
        ∃ p ds, r.pix = some p ∧ List.Forall₂ (Contributes sinc cfg row box) inp.slices ds ∧
          CombinationOf box psfBox v.nExtra (ds.zip r.weights) p) := by
  obtain ⟨_, row, lay, gaia, cfg, inp, h1, h2, h3, h4, h5, h6, _, _, h8⟩ :=
    C93_slice v box psfBox hv i seed r h
  have hr := List.mem_of_getElem? h1
  have hx := hv.sane hr gaia row.ra row.dec lay.raPsf lay.decPsf
  rw [← h4.eq] at hx
  have hl := (C49_weights v.ext _ _ _ inp hx (fun _ => hv.fwhm) h5).1
  refine ⟨row, lay, gaia, cfg, inp, h1, h2, h3, h4, h5, h6, h6 ▸ hl, fun hne => ?_⟩
  obtain ⟨_, w2, p, ds, p1, p2, p3⟩ := h8 hne
  refine ⟨w2, p, ds, p1, ?_, p3⟩
  rw [List.forall₂_iff_get] at p2 ⊢
  refine ⟨p2.1, fun k hk1 hk2 => ?_⟩
  have hb : row.boxSize.toNat = box := by rw [(hv.rows row hr).1, Int.toNat_natCast]
  have := contributes hx h5 (List.getElem_mem hk1) sinc hs (p2.2 k hk1 hk2)
  rw [hb] at this
  exact this

/-- C119: a pixel near which no used epoch has a defect is exactly the weighted mean of the epochs' calibrated
pixels interpolated at its place: nothing that depends on the random numbers or on neighbouring defects enters.
The same holds for each noise image. -/
theorem C119_clean (v : SliceEnv A σ S) (box psfBox : Nat) (hv : SoundEnv v box psfBox)
    (sinc : ℚ → ℚ) (hs : ∀ t, sincPade t = .ok (sinc t)) (i seed : Nat)
    (r : SliceRes Flt EpochRow) (h : coaddSingleSlice v i seed = .ok r) :
    ∃ row lay gaia cfg inp, v.objects[i]? = some row ∧
      coaddPsfLayout v.fwd v.inv row.ra row.dec row.psfBoxSize v.offset = .ok lay ∧
      StarMask v row gaia ∧ SliceCfg v row gaia cfg ∧
      buildSliceInputs v.ext cfg (v.sources row.ra row.dec lay.raPsf lay.decPsf)
        (v.seeded seed) = .ok inp ∧
      (inp.slices ≠ [] → ∃ p, r.pix = some p ∧ ∀ y < box, ∀ x < box, ∀ vs : List ℚ,
        (List.Forall₂ (CleanValue sinc cfg row y x) inp.slices vs →
          p.image[y * box + x]? = some (.fin (List.zipWith (· * ·) r.weights vs).sum)) ∧
        ∀ k < v.nExtra + 1, ∃ l, p.noises[k]? = some l ∧
          (List.Forall₂ (CleanNoise sinc cfg row k y x) inp.slices vs →
            l[y * box + x]? = some (.fin (List.zipWith (· * ·) r.weights vs).sum))) := by
  obtain ⟨row, lay, gaia, cfg, inp, h1, h2, h3, h4, h5, h6, h7, h8⟩ := C119_value v box psfBox hv sinc hs i seed r h
  refine ⟨row, lay, gaia, cfg, inp, h1, h2, h3, h4, h5, fun hne => ?_⟩
  obtain ⟨w1, p, ds, p1, p2, p3⟩ := h8 hne
  refine ⟨p, p1, fun y hy x hx vs => ⟨fun hc => ?_, fun k hk => ?_⟩⟩
  · obtain ⟨z, z1, z2⟩ := p3.image.2 y hy x hx
    rw [z1, z2, mean_of (g := fun d => d.image.px y x) p2 hc h7 w1 fun e d f a b => clean_value hy hx a b]
  · obtain ⟨l, l1, l2⟩ := p3.noise k hk
    refine ⟨l, l1, fun hc => ?_⟩
    obtain ⟨z, z1, z2⟩ := l2.2 y hy x hx
    rw [z1, z2, mean_of (g := noisePx k y x) p2 hc h7 w1 fun e d f a b => clean_noise hy hx a b]

/-- C119: so are the pixels of the file of a finished run, after conversion to the type of the extension. -/
theorem C119_file (v : SliceEnv A σ S) (box psfBox : Nat) (hv : SoundEnv v box psfBox)
    (sinc : ℚ → ℚ) (hsinc : ∀ t, sincPade t = .ok (sinc t))
    (ops : PixelOps Flt) (hops : ops.KeepsSign) (pars : Option (List (String × String)))
    (rows0 : List RunRow) (hrows : rows0.length = v.objects.length) (fits : List (Hdu Flt))
    (hf : reserveImages ops pars (v.objects.length * (box * box)) (v.objects.length * (psfBox * psfBox))
      v.nExtra (box * box) (psfBox * psfBox) = .ok fits)
    (slices seeds : List Nat) (hs : slices.Nodup) (nChunks nJobs cap k : Nat)
    (chunks : List (List (Nat × Nat))) (hch : allChunks slices seeds nChunks = .ok chunks)
    (s : PState Flt EpochRow)
    (hrun : Steps (runShapeOf v ops pars box psfBox) (coaddSingleSlice v) slices.length nJobs cap k
      (PState.init chunks ⟨fits, rows0, []⟩) s) (hd : s.status = .done) (i : Nat) (hi : i ∈ slices) :
    ∃ row lay gaia cfg inp, v.objects[i]? = some row ∧
      coaddPsfLayout v.fwd v.inv row.ra row.dec row.psfBoxSize v.offset = .ok lay ∧
      StarMask v row gaia ∧ SliceCfg v row gaia cfg ∧
      buildSliceInputs v.ext cfg (v.sources row.ra row.dec lay.raPsf lay.decPsf)
        (v.seeded (seeds.getD i 0)) = .ok inp ∧
      (inp.slices ≠ [] → ∀ h ∈ s.out.fits, ∀ y < box, ∀ x < box, ∀ vs : List ℚ,
        (h.name = "image_cutouts" → List.Forall₂ (CleanValue sinc cfg row y x) inp.slices vs →
          h.px (i * (box * box) + (y * box + x)) =
            ops.cast h.dtype (.fin (List.zipWith (· * ·) inp.weights vs).sum)) ∧
        (h.name = "noise_cutouts" → List.Forall₂ (CleanNoise sinc cfg row 0 y x) inp.slices vs →
          h.px (i * (box * box) + (y * box + x)) =
            ops.cast h.dtype (.fin (List.zipWith (· * ·) inp.weights vs).sum))) := by
  obtain ⟨row, lay, gaia, cfg, inp, h1, h2, h3, h4, h5, _, h7⟩ := C95_file v box psfBox hv ops hops pars rows0 hrows
    fits hf slices seeds hs nChunks nJobs cap k chunks hch s hrun hd i hi
  have hr := List.mem_of_getElem? h1
  have hx := hv.sane hr gaia row.ra row.dec lay.raPsf lay.decPsf
  rw [← h4.eq] at hx
  have hl := (C49_weights v.ext _ _ _ inp hx (fun _ => hv.fwhm) h5).1
  refine ⟨row, lay, gaia, cfg, inp, h1, h2, h3, h4, h5, fun hne => ?_⟩
  obtain ⟨_, w1, _, p, ds, p2, p3, p4⟩ := h7 hne
  have hb : row.boxSize.toNat = box := by rw [(hv.rows row hr).1, Int.toNat_natCast]
  have p2' : List.Forall₂ (Contributes sinc cfg row box) inp.slices ds := by
    rw [List.forall₂_iff_get] at p2 ⊢
    refine ⟨p2.1, fun k hk1 hk2 => ?_⟩
    have := contributes hx h5 (List.getElem_mem hk1) sinc hsinc (p2.2 k hk1 hk2)
    rw [hb] at this
    exact this
  intro h hh y hy x hx' vs
  refine ⟨fun hn hc => ?_, fun hn hc => ?_⟩
  · obtain ⟨z, z1, z2⟩ := p3.image.2 y hy x hx'
    obtain ⟨q1, q2⟩ := p4 h hh p.image (hn ▸ .image)
    obtain ⟨z3, z4⟩ := List.getElem?_eq_some_iff.1 z1
    have := q2 _ z3
    rw [z4, z2, mean_of (g := fun d => d.image.px y x) p2' hc hl w1 fun e d f a b => clean_value hy hx' a b, hn]
      at this
    exact this
  · obtain ⟨l, l1, l2⟩ := p3.noise 0 (by omega)
    obtain ⟨z, z1, z2⟩ := l2.2 y hy x hx'
    obtain ⟨q1, q2⟩ := p4 h hh l (hn ▸ .noise l l1)
    obtain ⟨z3, z4⟩ := List.getElem?_eq_some_iff.1 z1
    have := q2 _ z3
    rw [z4, z2, mean_of (g := noisePx 0 y x) p2' hc hl w1 fun e d f a b => clean_noise hy hx' a b, hn] at this
    exact this

end Pizza
