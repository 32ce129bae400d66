import Verif.Lemmas.BuildCand
import Mathlib.Tactic.Positivity

/-!
Properties C46-C53: `_build_slice_inputs`.

`symmetrizeSlice` (C16-C19), `setSlice` (C08) and `mapImage` (C40) have their own properties; here
they only say which arrays the cuts are about.
-/

namespace Pizza

/-- The arrays of a source that the cuts look at: the data `d` as read, the weight `w0` (that of
`d` unless outliers were rejected), the GAIA mask `g`, and the symmetrised weight and mask. -/
structure Seen {A σ : Type} (x : Ext A σ) (c : BuildCfg A) (s : Src) (d : SESlice) (w0 : Img ℚ)
    (g : Option (Img Bool)) (w : Img ℚ) (b : Img (BitVec 32)) : Prop where
  reads : s.ReadsAs c d
  weight : c.rejectOutliers = false → w0 = d.weight
  gaia : SeesGaia c s d g
  sym : symmetrizeSlice x.rotate c.symmetrize g (c.splineFlags ||| c.noiseFlags) w0 d.bmask = .ok (w, b)

/-- One of the initial cuts rejects the source. -/
def InitialCut {A : Type} (c : BuildCfg A) (s : Src) (g : Option (Img Bool)) (w : Img ℚ)
    (b : Img (BitVec 32)) : Prop :=
  CutEdge c w b ∨ CutFlags c (sliceSide c) b ∨ CutFraction c (sliceSide c) g w b ∨ s.psfFlag = .ok true

/-- The standing assumptions: a patch of at least one pixel, files of the shape of the CCD, and an
outlier rejection that keeps shapes. -/
structure Sane {A σ : Type} (x : Ext A σ) (c : BuildCfg A) (srcs : List Src) : Prop where
  box : 1 ≤ c.boxSize
  frac : 1 ≤ c.fracBuffer
  shape : ∀ s ∈ srcs, s.WellShaped
  keeps : x.KeepsShape

/-! ### C46 -/

open Classical in
/-- C46: every source that passes the geometric cuts is in exactly one list, in order, unless no
such source has a usable PSF, in which case nothing is returned. -/
theorem C46_accounted {A σ : Type} (x : Ext A σ) (c : BuildCfg A) (srcs : List Src) (rng : σ)
    (out : Inputs) (hx : Sane x c srcs) (h : buildSliceInputs x c srcs rng = .ok out) :
    ((∃ s ∈ srcs, s.Passes c ∧ s.psfFlag = .ok false) →
      Interleave (srcs.filter fun s => decide (s.Passes c)) (out.slices.map Epoch.src)
        (out.notUsed.map Epoch.src)) ∧
    ((¬ ∃ s ∈ srcs, s.Passes c ∧ s.psfFlag = .ok false) → out.slices = [] ∧ out.notUsed = []) ∧
    out.weights.length = out.slices.length ∧ out.flags.length = out.notUsed.length := by
  obtain ⟨cands0, h1, h2⟩ := buildSliceInputs_ok hx.keeps hx.box hx.frac h
  obtain ⟨f1, f2⟩ := possibleSlices_facts hx.box hx.frac h1
  have key : (∃ s ∈ srcs, s.Passes c ∧ s.psfFlag = .ok false) ↔ ∃ k ∈ cands0, k.psfFlag = false := by
    constructor
    · rintro ⟨s, hs, hp, hpsf⟩
      have : s ∈ cands0.map Cand.src := by rw [f1]; simp [hs, hp]
      obtain ⟨k, hk, rfl⟩ := List.mem_map.1 this
      refine ⟨k, hk, ?_⟩
      have := (f2 k hk).psfFlag
      rw [hpsf] at this
      exact (Except.ok.inj this).symm
    · rintro ⟨k, hk, hpsf⟩
      have : k.src ∈ srcs.filter (fun s => decide (s.Passes c)) := by
        rw [← f1]; exact List.mem_map_of_mem hk
      exact ⟨k.src, (List.mem_filter.1 this).1, (f2 k hk).passes, by rw [(f2 k hk).psfFlag, hpsf]⟩
  rw [key]
  rcases h2 with ⟨h2, rfl⟩ | ⟨h2, cands, sl, wt, nu, fl, _, _, h5, _, rfl, h6, h7, h8, _⟩
  · refine ⟨?_, fun _ => ⟨rfl, rfl⟩, rfl, rfl⟩
    rintro ⟨k, hk, hf⟩
    rw [h2 k hk] at hf
    cases hf
  · refine ⟨fun _ => ?_, fun h => absurd h2 h, by simp [h7], h8.symm⟩
    rw [← f1, ← h5]
    exact h6

/-! ### C47, C50, C51 -/

theorem mem_srcs {A σ : Type} {x : Ext A σ} {c : BuildCfg A} {srcs : List Src} (hx : Sane x c srcs)
    {cands0 cands : List Cand} (h1 : possibleSlices c srcs = .ok cands0)
    (h2 : cands.map Cand.src = cands0.map Cand.src) {k : Cand} (hk : k ∈ cands) : k.src ∈ srcs := by
  classical
  have : k.src ∈ cands.map Cand.src := List.mem_map_of_mem hk
  rw [h2, (possibleSlices_facts hx.box hx.frac h1).1] at this
  exact (List.mem_filter.1 this).1

/-- Everything known about a used or unused epoch. -/
theorem epoch_facts {A σ : Type} {x : Ext A σ} {c : BuildCfg A} {s : Src} {k : Cand} {n : Nat}
    (hn : n = sliceSide c) (h1 : 1 ≤ n) (hk : PrepFacts c n k) (hs : k.src.WellShaped) (hks : k.src = s)
    {rng rng' : σ} {r : Outcome} (h : processCand x c k rng = .ok (r, rng')) :
    ∃ d w0 g w b o, Seen x c s d w0 g w b ∧ o.weight = some w ∧ o.bmask = some b ∧
      w.Sq n ∧ b.Sq n ∧
      ((InitialCut c s g w b ∧ rng' = rng ∧ ∃ f, r = .unused o f ∧ ∀ j, f.getLsbD j = true ↔
          (j = 0 ∧ CutEdge c w b) ∨ (j = 1 ∧ CutFlags c n b) ∨ (j = 2 ∧ CutFraction c n g w b) ∨
          (j = 5 ∧ s.psfFlag = .ok true)) ∨
       (¬ InitialCut c s g w b ∧ s.psfFlag = .ok false ∧ Late x c n g o d.image d.noises w b r)) := by
  subst hks hn
  obtain ⟨d, w0, g, w, b, o, e1, e2, e3, e4, e5, e6, e7, e8, e9, e10, e11, e12, e13, e14⟩ :=
    processCand_ok h1 hk hs h
  have hpsf : k.psfFlag = true ↔ k.src.psfFlag = .ok true := by
    rw [hk.psfFlag]; simp
  rw [hpsf] at e14
  refine ⟨d, w0, g, w, b, o, ⟨e1, e3, e4, e5⟩, by rw [e11], by rw [e11], e9, e10, ?_⟩
  rcases e14 with ⟨a1, a2, a3⟩ | ⟨a1, a2⟩
  · exact .inl ⟨a1, a2, a3⟩
  · refine .inr ⟨a1, ?_, a2⟩
    rw [hk.psfFlag] at a1 ⊢
    cases hb : k.psfFlag
    · rfl
    · exact absurd (.inr (.inr (.inr (by rw [hb])))) a1

theorem unused_facts {A σ : Type} {x : Ext A σ} {c : BuildCfg A} {srcs : List Src} {rng : σ}
    {out : Inputs} (hx : Sane x c srcs) (h : buildSliceInputs x c srcs rng = .ok out) {e : Epoch}
    {f : BitVec 32} (he : (e, f) ∈ out.notUsed.zip out.flags) :
    e.src ∈ srcs ∧ ∃ k, PrepFacts c (sliceSide c) k ∧ k.src.WellShaped ∧ k.src = e.src ∧ ∃ g g',
      processCand x c k g = .ok (.unused e.obj f, g') := by
  obtain ⟨cands0, h1, h2⟩ := buildSliceInputs_ok hx.keeps hx.box hx.frac h
  rcases h2 with ⟨h2, rfl⟩ | ⟨h2, cands, sl, wt, nu, fl, _, _, h5, h5', rfl, h6, h7, h8, h9, h10⟩
  · simp at he
  · obtain ⟨k, hk, g, g', a1, a2⟩ := h10 e f he
    have := mem_srcs hx h1 h5 hk
    exact ⟨a1 ▸ this, k, h5' k hk, hx.shape _ this, a1, g, g', a2⟩

theorem used_facts {A σ : Type} {x : Ext A σ} {c : BuildCfg A} {srcs : List Src} {rng : σ}
    {out : Inputs} (hx : Sane x c srcs) (h : buildSliceInputs x c srcs rng = .ok out) {e : Epoch}
    (he : e ∈ out.slices) :
    e.src ∈ srcs ∧ ∃ k, PrepFacts c (sliceSide c) k ∧ k.src.WellShaped ∧ k.src = e.src ∧ ∃ g g' wt,
      processCand x c k g = .ok (.used e.obj wt, g') := by
  obtain ⟨cands0, h1, h2⟩ := buildSliceInputs_ok hx.keeps hx.box hx.frac h
  rcases h2 with ⟨h2, rfl⟩ | ⟨h2, cands, sl, wt, nu, fl, _, _, h5, h5', rfl, h6, h7, h8, h9, h10⟩
  · simp at he
  · simp only at he
    obtain ⟨i, hi, rfl⟩ := List.getElem_of_mem he
    have hmem : (sl[i], wt[i]'(h7 ▸ hi)) ∈ sl.zip wt := by
      rw [← List.getElem_zip (h := by simp [h7 ▸ hi, hi])]
      exact List.getElem_mem _
    obtain ⟨k, hk, g, g', a1, a2⟩ := h9 _ _ hmem
    have := mem_srcs hx h1 h5 hk
    exact ⟨a1 ▸ this, k, h5' k hk, hx.shape _ this, a1, g, g', _, a2⟩

/-- The late cuts, in the order in which they are made: `w'`, `b'` are weight and mask after edge
copying, the flag word has the single bit given. -/
def LateCut {A : Type} (c : BuildCfg A) (d : SESlice) (g : Option (Img Bool)) (w : Img ℚ)
    (b : Img (BitVec 32)) (bit : Nat) : Prop :=
  ∃ w' b', AfterCopy c.copyEdges c.splineFlags w b w' b' ∧
    ((FullEdge w' b' c.splineFlags ∧ bit = 0) ∨
     (¬ FullEdge w' b' c.splineFlags ∧ TooMuchBad (sliceSide c) w' b' c.splineFlags ∧ bit = 4) ∨
     (¬ FullEdge w' b' c.splineFlags ∧ ¬ TooMuchBad (sliceSide c) w' b' c.splineFlags ∧ bit = 2 ∧
      ∃ im ns pm q, InterpFacts (sliceSide c) c.noiseFlags c.splineFlags c.copyEdges d.image d.noises
          w b w' b' im ns pm ∧
        IsFraction (sliceSide c) g (fun p => pm.px p.1 p.2 ≠ 0) q ∧ c.maxMaskedFraction ≤ q))

/-- C47: the flag word of an unused epoch.  Bits: 0 FULL_EDGE_MASKED, 1 SLICE_HAS_FLAGS,
2 HIGH_MASKED_FRAC, 4 HIGH_INTERP_MASKED_FRAC, 5 BAD_PSF_MODEL. -/
theorem C47_flags {A σ : Type} (x : Ext A σ) (c : BuildCfg A) (srcs : List Src) (rng : σ)
    (out : Inputs) (hx : Sane x c srcs) (h : buildSliceInputs x c srcs rng = .ok out) (e : Epoch)
    (f : BitVec 32) (he : (e, f) ∈ out.notUsed.zip out.flags) :
    ∃ d w0 g w b, Seen x c e.src d w0 g w b ∧ e.obj.weight = some w ∧ e.obj.bmask = some b ∧
      (InitialCut c e.src g w b → ∀ j, f.getLsbD j = true ↔
          (j = 0 ∧ CutEdge c w b) ∨ (j = 1 ∧ CutFlags c (sliceSide c) b) ∨
          (j = 2 ∧ CutFraction c (sliceSide c) g w b) ∨ (j = 5 ∧ e.src.psfFlag = .ok true)) ∧
      (¬ InitialCut c e.src g w b → ∃ bit, LateCut c d g w b bit ∧
        ∀ j, f.getLsbD j = true ↔ j = bit) := by
  obtain ⟨_, k, hk, hs, hks, rg, rg', hp⟩ := unused_facts hx h he
  obtain ⟨d, w0, g, w, b, o, e1, e2, e3, _, _, e4⟩ :=
    epoch_facts rfl (sliceSide_pos hx.box hx.frac).1 hk hs hks hp
  have two : ∀ (k : Nat), k < 32 → ∀ j, (BitVec.twoPow 32 k).getLsbD j = true ↔ j = k := by
    intro k hk j
    rw [BitVec.getLsbD_twoPow]
    by_cases h : j = k
    · simp [h, hk]
    · have : ¬ k = j := fun h' => h h'.symm
      simp [h, this]
  rcases e4 with ⟨a1, _, f', a2, a3⟩ | ⟨a1, _, w', b', a2, _, _, a3⟩
  · cases a2
    exact ⟨d, w0, g, w, b, e1, e2, e3, fun _ => a3, fun h => absurd a1 h⟩
  · rcases a3 with ⟨c1, c2⟩ | ⟨c1, ⟨c2, c3⟩ | ⟨c2, im, ns, pm, q, c3, c4, ⟨c5, c6⟩ | ⟨c5, _, _, _, c6, _⟩⟩⟩
    · cases c2
      exact ⟨d, w0, g, w, b, e1, e2, e3, fun h => absurd h a1, fun _ => ⟨0, ⟨w', b', a2, .inl ⟨c1, rfl⟩⟩,
        two 0 (by omega)⟩⟩
    · cases c3
      exact ⟨d, w0, g, w, b, e1, e2, e3, fun h => absurd h a1, fun _ => ⟨4, ⟨w', b', a2,
        .inr (.inl ⟨c1, c2, rfl⟩)⟩, two 4 (by omega)⟩⟩
    · cases c6
      exact ⟨d, w0, g, w, b, e1, e2, e3, fun h => absurd h a1, fun _ => ⟨2, ⟨w', b', a2,
        .inr (.inr ⟨c1, c2, rfl, im, ns, pm, q, c3, c4, c5⟩)⟩, two 2 (by omega)⟩⟩
    · cases c6

/-- C47: the flag word is never zero and only has documented bits. -/
theorem C47_nonzero {A σ : Type} (x : Ext A σ) (c : BuildCfg A) (srcs : List Src) (rng : σ)
    (out : Inputs) (hx : Sane x c srcs) (h : buildSliceInputs x c srcs rng = .ok out) (f : BitVec 32)
    (hf : f ∈ out.flags) :
    f ≠ 0 ∧ ∀ j, f.getLsbD j = true → j ∈ [0, 1, 2, 4, 5] := by
  have hlen := (C46_accounted x c srcs rng out hx h).2.2.2
  obtain ⟨i, hi, rfl⟩ := List.getElem_of_mem hf
  have hmem : (out.notUsed[i]'(hlen ▸ hi), out.flags[i]) ∈ out.notUsed.zip out.flags := by
    rw [← List.getElem_zip (h := by simp; omega)]
    exact List.getElem_mem _
  obtain ⟨d, w0, g, w, b, _, _, _, h1, h2⟩ := C47_flags x c srcs rng out hx h _ _ hmem
  have nz : (∃ j, (out.flags[i]).getLsbD j = true) → out.flags[i] ≠ 0 := by
    rintro ⟨j, hj⟩ h0
    rw [h0] at hj
    simp at hj
  by_cases hc : InitialCut c (out.notUsed[i]'(hlen ▸ hi)).src g w b
  · refine ⟨nz ?_, fun j hj => ?_⟩
    · rcases id hc with hc' | hc' | hc' | hc'
      · exact ⟨0, (h1 hc 0).2 (.inl ⟨rfl, hc'⟩)⟩
      · exact ⟨1, (h1 hc 1).2 (.inr (.inl ⟨rfl, hc'⟩))⟩
      · exact ⟨2, (h1 hc 2).2 (.inr (.inr (.inl ⟨rfl, hc'⟩)))⟩
      · exact ⟨5, (h1 hc 5).2 (.inr (.inr (.inr ⟨rfl, hc'⟩)))⟩
    · rcases (h1 hc j).1 hj with ⟨h, _⟩ | ⟨h, _⟩ | ⟨h, _⟩ | ⟨h, _⟩ <;> simp [h]
  · obtain ⟨bit, ⟨w', b', _, h3⟩, h4⟩ := h2 hc
    refine ⟨nz ⟨bit, (h4 bit).2 rfl⟩, fun j hj => ?_⟩
    rw [(h4 j).1 hj]
    rcases h3 with ⟨_, h⟩ | ⟨_, _, h⟩ | ⟨_, _, h, _⟩ <;> simp [h]

/-- A used epoch: what `_build_slice_inputs` guarantees about it. -/
theorem used_epoch {A σ : Type} (x : Ext A σ) (c : BuildCfg A) (srcs : List Src) (rng : σ)
    (out : Inputs) (hx : Sane x c srcs) (h : buildSliceInputs x c srcs rng = .ok out) (e : Epoch)
    (he : e ∈ out.slices) :
    e.src ∈ srcs ∧ e.src.Passes c ∧ e.src.psfFlag = .ok false ∧
    ∃ d w0 g w b w' b' im ns pm q, Seen x c e.src d w0 g w b ∧ w.Sq (sliceSide c) ∧
      b.Sq (sliceSide c) ∧
      e.obj.weight = some w ∧ e.obj.bmask = some b ∧
      e.obj.image = some im ∧ e.obj.noises = some ns ∧ e.obj.pmask = some pm ∧
      ¬ InitialCut c e.src g w b ∧
      AfterCopy c.copyEdges c.splineFlags w b w' b' ∧ ¬ FullEdge w' b' c.splineFlags ∧
      ¬ TooMuchBad (sliceSide c) w' b' c.splineFlags ∧
      InterpFacts (sliceSide c) c.noiseFlags c.splineFlags c.copyEdges d.image d.noises w b w' b'
        im ns pm ∧
      IsFraction (sliceSide c) g (fun p => pm.px p.1 p.2 ≠ 0) q ∧ q < c.maxMaskedFraction := by
  obtain ⟨hmem, k, hk, hs, hks, rg, rg', wt, hp⟩ := used_facts hx h he
  have hn := (sliceSide_pos hx.box hx.frac).1
  obtain ⟨d, w0, g, w, b, o, e1, e2, e3, e5, e6, e4⟩ := epoch_facts rfl hn hk hs hks hp
  rcases e4 with ⟨_, _, f', a2, _⟩ | ⟨a1, a1', w', b', a2, _, _, a3⟩
  · cases a2
  · rcases a3 with ⟨c1, c2⟩ | ⟨c1, ⟨c2, c3⟩ | ⟨c2, im, ns, pm, q, c3, c4, ⟨c5, c6⟩ |
      ⟨c5, o', wt', psf, c6, _, q1, q2, q3, q4, q5, _⟩⟩⟩
    · cases c2
    · cases c3
    · cases c6
    · cases c6
      exact ⟨hmem, hks ▸ hk.passes, a1', d, w0, g, w, b, w', b', im, ns, pm, q, e1, e5, e6,
        by rw [q4, e2], by rw [q5, e3], q1, q2, q3, a1, a2, c1, c2, c3, c4, c5⟩

/-- C50: every used epoch satisfies every cut. -/
theorem C50_cuts {A σ : Type} (x : Ext A σ) (c : BuildCfg A) (srcs : List Src) (rng : σ)
    (out : Inputs) (hx : Sane x c srcs) (h : buildSliceInputs x c srcs rng = .ok out) (e : Epoch)
    (he : e ∈ out.slices) :
    e.src ∈ srcs ∧ e.src.Passes c ∧ e.src.psfFlag = .ok false ∧
    ∃ d w0 g w b w' b' pm, Seen x c e.src d w0 g w b ∧ e.obj.weight = some w ∧
      e.obj.bmask = some b ∧ e.obj.pmask = some pm ∧
      (∀ r < sliceSide c, ∀ j < sliceSide c, ¬ Carries (b.px r j) c.badImageFlags) ∧
      (∃ q, IsFraction (sliceSide c) g (Unusable w b (c.splineFlags ||| c.noiseFlags)) q ∧
        q < c.maxMaskedFraction) ∧
      (∃ q, IsFraction (sliceSide c) g (fun p => pm.px p.1 p.2 ≠ 0) q ∧ q < c.maxMaskedFraction) ∧
      AfterCopy c.copyEdges c.splineFlags w b w' b' ∧ ¬ FullEdge w' b' c.splineFlags := by
  obtain ⟨h1, h2, h3, d, w0, g, w, b, w', b', im, ns, pm, q, a1, a2, a3, a4, a5, a6, a7, a8, a9, a10,
    a11, a12, a13, a14, a15⟩ := used_epoch x c srcs rng out hx h e he
  refine ⟨h1, h2, h3, d, w0, g, w, b, w', b', pm, a1, a4, a5, a8, ?_, ?_, ⟨q, a14, a15⟩, a10, a11⟩
  · intro r hr j hj hcar
    exact a9 (.inr (.inl ⟨r, hr, j, hj, hcar⟩))
  · obtain ⟨q0, _, hq⟩ := maskedFraction_eq (bmask := b) (flags := c.splineFlags ||| c.noiseFlags)
      (g := g) a2 (sliceSide_pos hx.box hx.frac).1
    refine ⟨q0, hq, ?_⟩
    by_contra hlt
    exact a9 (.inr (.inr (.inl ⟨q0, hq, not_lt.1 hlt⟩)))

/-- C51: in a used epoch every altered pixel is flagged (27 SPLINE_INTERP, 28 NOISE_INTERP),
NOISE_INTERP marks exactly the pixels with a noise flag, and pixels with a spline flag that were not
repaired by edge copying are marked SPLINE_INTERP. -/
theorem C51_altered {A σ : Type} (x : Ext A σ) (c : BuildCfg A) (srcs : List Src) (rng : σ)
    (out : Inputs) (hx : Sane x c srcs) (h : buildSliceInputs x c srcs rng = .ok out) (e : Epoch)
    (he : e ∈ out.slices) :
    ∃ d w0 g w b im ns pm, Seen x c e.src d w0 g w b ∧ e.obj.weight = some w ∧
      e.obj.bmask = some b ∧ e.obj.image = some im ∧ e.obj.noises = some ns ∧
      e.obj.pmask = some pm ∧ SameShapes d.noises ns ∧
      ∀ r < sliceSide c, ∀ j < sliceSide c,
        ((im.px r j ≠ d.image.px r j ∨ ¬ SameAt d.noises ns r j) →
          (pm.px r j).getLsbD 27 = true ∨ (pm.px r j).getLsbD 28 = true) ∧
        ((pm.px r j).getLsbD 28 = true ↔ Carries (b.px r j) c.noiseFlags) ∧
        (Carries (b.px r j) c.splineFlags →
          (c.copyEdges = false ∨ ∀ e', ¬ Repaired w b c.splineFlags e' r j) →
          (pm.px r j).getLsbD 27 = true) ∧
        (∀ i, (pm.px r j).getLsbD i = true → i = 27 ∨ i = 28) := by
  obtain ⟨h1, h2, h3, d, w0, g, w, b, w', b', im, ns, pm, q, a1, a2, a3, a4, a5, a6, a7, a8, a9, a10,
    a11, a12, a13, a14, a15⟩ := used_epoch x c srcs rng out hx h e he
  refine ⟨d, w0, g, w, b, im, ns, pm, a1, a4, a5, a6, a7, a8, a13.shapes, fun r hr j hj => ⟨a13.altered r hr j hj,
    a13.noise r hr j hj, ?_, a13.only r hr j hj⟩⟩
  intro hcar hrep
  apply a13.spline r hr j hj
  right
  by_cases hcp : c.copyEdges = true
  · obtain ⟨_, _, hb⟩ := (a10.1 hcp).2
    have hrep' : ∀ e', ¬ Repaired w b c.splineFlags e' r j := by
      rcases hrep with hrep | hrep
      · rw [hcp] at hrep; cases hrep
      · exact hrep
    rw [(hb r (by rw [a2.1]; exact hr) j (by rw [a2.2]; exact hj)).2 hrep']
    exact hcar
  · rw [(a10.2.1 (by simpa using hcp)).2]
    exact hcar

/-- C52 (partial): a pixel that is replaced by the interpolator (unusable after edge copying)
carries SPLINE_INTERP if it carries a spline flag or has a negative weight; with weight exactly 0
and no flag it is marked (SPLINE_INTERP, or NOISE_INTERP before) only if its value changed.  Only
replaced or repaired pixels carry SPLINE_INTERP.  Missing: weight 0 with a coinciding value, see
`C52_interpolated_fails`. -/
theorem C52_interpolated_partial {A σ : Type} (x : Ext A σ) (c : BuildCfg A) (srcs : List Src) (rng : σ)
    (out : Inputs) (hx : Sane x c srcs) (h : buildSliceInputs x c srcs rng = .ok out) (e : Epoch)
    (he : e ∈ out.slices) :
    ∃ d w0 g w b w' b' im ns pm, Seen x c e.src d w0 g w b ∧
      AfterCopy c.copyEdges c.splineFlags w b w' b' ∧ e.obj.image = some im ∧
      e.obj.noises = some ns ∧ e.obj.pmask = some pm ∧
      ∀ r < sliceSide c, ∀ j < sliceSide c,
        (Unusable w' b' c.splineFlags (r, j) → (w'.px r j ≠ 0 ∨ Carries (b'.px r j) c.splineFlags) →
          (pm.px r j).getLsbD 27 = true) ∧
        (Unusable w' b' c.splineFlags (r, j) →
          (im.px r j ≠ d.image.px r j ∨ ¬ SameAt d.noises ns r j) →
          (pm.px r j).getLsbD 27 = true ∨ (pm.px r j).getLsbD 28 = true) ∧
        ((pm.px r j).getLsbD 27 = true → Unusable w' b' c.splineFlags (r, j) ∨
          (c.copyEdges = true ∧ ∃ e', Repaired w b c.splineFlags e' r j)) := by
  obtain ⟨h1, h2, h3, d, w0, g, w, b, w', b', im, ns, pm, q, a1, a2, a3, a4, a5, a6, a7, a8, a9, a10,
    a11, a12, a13, a14, a15⟩ := used_epoch x c srcs rng out hx h e he
  refine ⟨d, w0, g, w, b, w', b', im, ns, pm, a1, a10, a6, a7, a8, fun r hr j hj => ⟨?_, ?_, a13.sound r hr j hj⟩⟩
  · intro hu hz
    apply a13.spline r hr j hj
    rcases hz with hz | hz
    · rcases hu with hu | hu
      · exact .inl (lt_of_le_of_ne hu hz)
      · exact .inr hu
    · exact .inr hz
  · exact fun _ hch => a13.altered r hr j hj hch

/-! ### C48 -/

theorem possibleSlices_filter {A : Type} (c : BuildCfg A) (srcs : List Src) :
    possibleSlices c (srcs.filter fun s => decide (s.imageFlags = 0)) = possibleSlices c srcs := by
  induction srcs with
  | nil => rfl
  | cons s l ih =>
    by_cases hs : s.imageFlags = 0
    · rw [List.filter_cons, if_pos (by simpa using hs)]
      unfold possibleSlices
      rw [ih]
    · rw [List.filter_cons, if_neg (by simpa using hs), ih]
      conv_rhs => unfold possibleSlices
      unfold roughCut
      rw [if_neg hs]
      change _ = (possibleSlices c l >>= fun t => pure ([] ++ t))
      cases possibleSlices c l <;> rfl

/-- C48: removing the flagged images changes nothing, not even the errors. -/
theorem C48_removed {A σ : Type} (x : Ext A σ) (c : BuildCfg A) (srcs : List Src) (rng : σ) :
    buildSliceInputs x c (srcs.filter fun s => decide (s.imageFlags = 0)) rng =
      buildSliceInputs x c srcs rng := by
  unfold buildSliceInputs
  rw [possibleSlices_filter]

/-- C48: flagged images are never opened: whatever their files, WCS and PSF answer (including
errors), the outcome is the same. -/
theorem C48_never_opened {A σ : Type} (x : Ext A σ) (c : BuildCfg A) (srcs srcs' : List Src) (rng : σ)
    (h : List.Forall₂ (fun s s' => s = s' ∨ (s.imageFlags ≠ 0 ∧ s'.imageFlags ≠ 0)) srcs srcs') :
    buildSliceInputs x c srcs rng = buildSliceInputs x c srcs' rng := by
  rw [← C48_removed x c srcs, ← C48_removed x c srcs']
  congr 1
  induction h with
  | nil => rfl
  | cons h _ ih =>
    rcases h with rfl | ⟨h, h'⟩
    · rw [List.filter_cons, List.filter_cons, ih]
    · rw [List.filter_cons, List.filter_cons, if_neg (by simpa using h), if_neg (by simpa using h'), ih]

/-! ### C49 -/

theorem npMax_pos {w : Img ℚ} {v : ℚ} (h : w.npMax = .ok v)
    (hp : ∃ r < w.nrow, ∃ c < w.ncol, 0 < w.px r c) : 0 < v := by
  obtain ⟨r, hr, c, hc, hpos⟩ := hp
  unfold Img.npMax at h
  have hm : w.px r c ∈ (List.range w.nrow).flatMap fun r => (List.range w.ncol).map fun c => w.px r c := by
    rw [List.mem_flatMap]
    exact ⟨r, List.mem_range.2 hr, List.mem_map.2 ⟨c, List.mem_range.2 hc, rfl⟩⟩
  obtain ⟨m, h1, _, h3⟩ := qmax?_spec (List.ne_nil_of_mem hm)
  rw [h1] at h
  cases h
  exact lt_of_lt_of_le hpos (h3 _ hm)

theorem usable_of_not_tooMuch {n : Nat} {w : Img ℚ} {b : Img (BitVec 32)} {flags : BitVec 32} (hn : 1 ≤ n)
    (h : ¬ TooMuchBad n w b flags) : ∃ p : Nat × Nat, p.1 < n ∧ p.2 < n ∧ ¬ Unusable w b flags p := by
  classical
  by_contra hno
  push Not at hno
  apply h
  have hcard : (Finset.range n ×ˢ Finset.range n).card = n * n := by simp
  refine ⟨Finset.range n ×ˢ Finset.range n, fun p => ?_, ?_, .inl hcard⟩
  · simp only [Finset.mem_product, Finset.mem_range]
    exact ⟨fun hp => ⟨hp.1, hp.2, hno p hp.1 hp.2⟩, fun hp => ⟨hp.1, hp.2.1⟩⟩
  · rw [hcard]; exact Nat.mul_ne_zero (by omega) (by omega)

theorem weight_pos {A σ : Type} {x : Ext A σ} {c : BuildCfg A} {n : Nat} {g : Option (Img Bool)} {o : SEObj}
    {im0 : Img ℚ} {ns0 : List (Img ℚ)} {w : Img ℚ} {b : Img (BitVec 32)} {o' : SEObj} {wt : ℚ}
    (hfw : c.coaddingWeight = .noiseFwhm → ∀ im v, x.fwhm im = .ok v → 0 < v) (hn : 1 ≤ n) (hw : w.Sq n)
    (h : Late x c n g o im0 ns0 w b (.used o' wt)) : 0 < wt := by
  obtain ⟨w', b', a2, hw', hb', a3⟩ := h
  rcases a3 with ⟨c1, c2⟩ | ⟨c1, ⟨c2, c3⟩ | ⟨c2, im, ns, pm, q, c3, c4, ⟨c5, c6⟩ |
    ⟨c5, o', wt', psf, c6, _, _, _, _, _, _, _, _, _, _, _, hbw⟩⟩⟩
  · cases c2
  · cases c3
  · cases c6
  · cases c6
    obtain ⟨p, p1, p2, p3⟩ := usable_of_not_tooMuch hn c2
    have hp' : 0 < w'.px p.1 p.2 := by
      by_contra hle
      exact p3 (.inl (not_lt.1 hle))
    have hpos : ∃ r < w.nrow, ∃ j < w.ncol, 0 < w.px r j := by
      by_cases hcp : c.copyEdges = true
      · obtain ⟨_, _, hr⟩ := (a2.1 hcp).1
        obtain ⟨r1, r2⟩ := hr p.1 (by rw [hw.1]; exact p1) p.2 (by rw [hw.2]; exact p2)
        by_cases hrep : ∃ e, Repaired w b c.splineFlags e p.1 p.2
        · obtain ⟨e, he⟩ := hrep
          rw [r1 e he] at hp'
          have := inner_inRange w (a2.2.2 hcp).1 (a2.2.2 hcp).2 e p.1 p.2 he.1
          exact ⟨_, this.1, _, this.2, hp'⟩
        · rw [r2 fun e he => hrep ⟨e, he⟩] at hp'
          exact ⟨p.1, by rw [hw.1]; exact p1, p.2, by rw [hw.2]; exact p2, hp'⟩
      · rw [(a2.2.1 (by simpa using hcp)).1] at hp'
        exact ⟨p.1, by rw [hw.1]; exact p1, p.2, by rw [hw.2]; exact p2, hp'⟩
    unfold buildCoaddWeight at hbw
    cases hk : c.coaddingWeight with
    | noise => rw [hk] at hbw; exact npMax_pos hbw hpos
    | noiseFwhm =>
      rw [hk] at hbw
      obtain ⟨m, h1, hbw⟩ := bind_eq_ok.1 hbw
      obtain ⟨f, h2, hbw⟩ := bind_eq_ok.1 hbw
      rw [← Except.ok.inj hbw]
      have := npMax_pos h1 hpos
      have := hfw hk _ _ h2
      positivity
    | unknown => rw [hk] at hbw; cases hbw

/-- C49: if any epoch is used, the weights are positive and sum to one.  (`measure_fwhm` is
assumed to return positive values; it is only called for the weight type `noise-fwhm`.) -/
theorem C49_weights {A σ : Type} (x : Ext A σ) (c : BuildCfg A) (srcs : List Src) (rng : σ)
    (out : Inputs) (hx : Sane x c srcs)
    (hfw : c.coaddingWeight = .noiseFwhm → ∀ im v, x.fwhm im = .ok v → 0 < v)
    (h : buildSliceInputs x c srcs rng = .ok out) :
    out.weights.length = out.slices.length ∧
    (out.slices ≠ [] → (∀ v ∈ out.weights, 0 < v) ∧ out.weights.sum = 1) := by
  refine ⟨(C46_accounted x c srcs rng out hx h).2.2.1, fun hne => ?_⟩
  obtain ⟨cands0, h1, h2⟩ := buildSliceInputs_ok hx.keeps hx.box hx.frac h
  rcases h2 with ⟨h2, rfl⟩ | ⟨h2, cands, sl, wt, nu, fl, _, _, h5, h5', rfl, h6, h7, h8, h9, h10⟩
  · exact absurd rfl hne
  · simp only at hne ⊢
    have hpos : ∀ v ∈ wt, 0 < v := by
      intro v hv
      obtain ⟨i, hi, rfl⟩ := List.getElem_of_mem hv
      have hmem : (sl[i]'(h7 ▸ hi), wt[i]) ∈ sl.zip wt := by
        rw [← List.getElem_zip (h := by simp [h7 ▸ hi, hi])]
        exact List.getElem_mem _
      obtain ⟨k, hk, g, g', a1, a2⟩ := h9 _ _ hmem
      have hn := (sliceSide_pos hx.box hx.frac).1
      obtain ⟨d, w0, g, w, b, o, e1, e2, e3, e5, e6, e4⟩ :=
        epoch_facts rfl hn (h5' k hk) (hx.shape _ (mem_srcs hx h1 h5 hk)) a1 a2
      rcases e4 with ⟨_, _, f', a2, _⟩ | ⟨_, _, a3⟩
      · cases a2
      · exact weight_pos hfw hn e5 a3
    have hsum : 0 < wt.sum := by
      apply List.sum_pos _ hpos
      rintro rfl
      rw [List.length_nil, List.length_eq_zero_iff] at h7
      exact hne h7
    constructor
    · intro v hv
      obtain ⟨u, hu, rfl⟩ := List.mem_map.1 hv
      exact div_pos (hpos u hu) hsum
    · have : ∀ (l : List ℚ) (s : ℚ), (l.map (· / s)).sum = l.sum / s := by
        intro l s
        induction l with
        | nil => simp
        | cons a l ih => simp [ih, add_div]
      rw [this, div_self hsum.ne']

theorem interpolateCand_unknown {A σ : Type} (x : Ext A σ) (c : BuildCfg A) (g : Option (Img Bool))
    (o : SEObj) (w : Img ℚ) (b : Img (BitVec 32)) (rng : σ) (r : Outcome × σ)
    (h : interpolateCand x { c with coaddingWeight := .noise } g o w b rng = .ok r) :
    ((∃ o f, r.1 = .unused o f) ∧
      interpolateCand x { c with coaddingWeight := .unknown } g o w b rng = .ok r) ∨
    ((∃ o w, r.1 = .used o w) ∧
      interpolateCand x { c with coaddingWeight := .unknown } g o w b rng = .error .valueError) := by
  unfold interpolateCand at h ⊢
  obtain ⟨im, h1, h⟩ := bind_eq_ok.1 h
  obtain ⟨ns, h2, h⟩ := bind_eq_ok.1 h
  obtain ⟨k1, h3, h⟩ := bind_eq_ok.1 h
  obtain ⟨k2, h4, h⟩ := bind_eq_ok.1 h
  rw [h1, h2, ok_bind, ok_bind]
  simp only [] at h3 h4 h ⊢
  rw [h3, ok_bind, h4, ok_bind]
  by_cases hb : k2.2.2.2 = true
  · rw [if_pos hb] at h ⊢
    left
    have := Except.ok.inj h
    exact ⟨⟨_, _, by rw [← this]⟩, h⟩
  · rw [if_neg hb] at h ⊢
    obtain ⟨k3, h5, h⟩ := bind_eq_ok.1 h
    rw [h5, ok_bind]
    cases k3 with
    | none =>
      left
      have := Except.ok.inj h
      exact ⟨⟨_, _, by rw [← this]⟩, h⟩
    | some k =>
      simp only at h ⊢
      by_cases hq : (pmaskFraction k.pmask g).geq c.maxMaskedFraction = true
      · rw [if_pos hq] at h ⊢
        left
        have := Except.ok.inj h
        exact ⟨⟨_, _, by rw [← this]⟩, h⟩
      · rw [if_neg hq] at h ⊢
        cases ho : o.setInterp k.image k.noises k.pmask with
        | mk o' er =>
          rw [ho] at h
          cases er with
          | some e => cases h
          | none =>
            right
            simp only at h ⊢
            obtain ⟨psf, h6, h⟩ := bind_eq_ok.1 h
            obtain ⟨wt, h7, h⟩ := bind_eq_ok.1 h
            rw [h6, ok_bind]
            exact ⟨⟨_, _, by rw [← Except.ok.inj h]⟩, rfl⟩

theorem processCand_unknown {A σ : Type} (x : Ext A σ) (c : BuildCfg A) (k : Cand) (rng : σ)
    (r : Outcome × σ)
    (h : processCand x { c with coaddingWeight := .noise } k rng = .ok r) :
    ((∃ o f, r.1 = .unused o f) ∧
      processCand x { c with coaddingWeight := .unknown } k rng = .ok r) ∨
    ((∃ o w, r.1 = .used o w) ∧
      processCand x { c with coaddingWeight := .unknown } k rng = .error .valueError) := by
  unfold processCand at h ⊢
  simp only [] at h ⊢
  obtain ⟨g, h1, h⟩ := bind_eq_ok.1 h
  obtain ⟨w0, h2, h⟩ := bind_eq_ok.1 h
  obtain ⟨b0, h3, h⟩ := bind_eq_ok.1 h
  obtain ⟨wb, h4, h⟩ := bind_eq_ok.1 h
  obtain ⟨sk, h5, h⟩ := bind_eq_ok.1 h
  have h1' : seGaiaMask { c with coaddingWeight := .unknown } k.src k.obj = .ok g := h1
  rw [h1', h2, h3, ok_bind, ok_bind, ok_bind, h4, ok_bind, h5, ok_bind]
  split at h
  · rename_i hs
    rw [if_pos hs]
    left
    have := Except.ok.inj h
    exact ⟨⟨_, _, by rw [← this]⟩, h⟩
  · rename_i hs
    rw [if_neg hs]
    exact interpolateCand_unknown x c g _ _ _ rng r h

theorem processAll_unknown {A σ : Type} (x : Ext A σ) (c : BuildCfg A) (cands : List Cand) (acc : Inputs)
    (rng : σ) (out : Inputs)
    (h : processAll x { c with coaddingWeight := .noise } cands acc rng = .ok out) :
    (out.slices = acc.slices ∧
      processAll x { c with coaddingWeight := .unknown } cands acc rng = .ok out) ∨
    processAll x { c with coaddingWeight := .unknown } cands acc rng = .error .valueError := by
  induction cands generalizing acc rng with
  | nil => left; exact ⟨by rw [← Except.ok.inj h], h⟩
  | cons k l ih =>
    unfold processAll at h ⊢
    obtain ⟨r, h1, h⟩ := bind_eq_ok.1 h
    rcases processCand_unknown x c k rng r h1 with ⟨⟨o, f, h2⟩, h3⟩ | ⟨_, h3⟩
    · rw [h3, ok_bind]
      rcases ih _ _ h with ⟨h4, h5⟩ | h4
      · left
        refine ⟨?_, h5⟩
        rw [h4, h2]; rfl
      · exact .inr h4
    · right; rw [h3]; rfl

theorem possibleSlices_kind {A : Type} (c : BuildCfg A) (w w' : CoaddWeight) (srcs : List Src) :
    possibleSlices { c with coaddingWeight := w } srcs =
      possibleSlices { c with coaddingWeight := w' } srcs := by
  induction srcs with
  | nil => rfl
  | cons s l ih =>
    unfold possibleSlices
    rw [ih]
    rfl

/-- C49: an unknown weight type raises as soon as an epoch would be used. -/
theorem C49_unknown_raises {A σ : Type} (x : Ext A σ) (c : BuildCfg A) (srcs : List Src) (rng : σ)
    (out : Inputs) (h : buildSliceInputs x { c with coaddingWeight := .noise } srcs rng = .ok out)
    (hne : out.slices ≠ []) :
    buildSliceInputs x { c with coaddingWeight := .unknown } srcs rng = .error .valueError := by
  unfold buildSliceInputs at h ⊢
  obtain ⟨cands, h1, h⟩ := bind_eq_ok.1 h
  rw [possibleSlices_kind c .unknown .noise, h1, ok_bind]
  split at h
  · have := Except.ok.inj h
    subst this
    exact absurd rfl hne
  · rename_i hs
    rw [if_neg hs]
    obtain ⟨cands', h2, h⟩ := bind_eq_ok.1 h
    obtain ⟨acc, h3, h⟩ := bind_eq_ok.1 h
    have h2' : rejectOutliers x { c with coaddingWeight := .unknown } cands = .ok cands' := h2
    rw [h2', ok_bind]
    rcases processAll_unknown x c cands' {} rng acc h3 with ⟨h4, _⟩ | h4
    · exfalso
      apply hne
      split at h <;> rw [← Except.ok.inj h] <;> exact h4
    · rw [h4]; rfl

/-- C49: with an unknown weight type no epoch is ever returned as used. -/
theorem C49_unknown_unused {A σ : Type} (x : Ext A σ) (c : BuildCfg A) (srcs : List Src) (rng : σ)
    (out : Inputs) (hx : Sane x c srcs) (hc : c.coaddingWeight = .unknown)
    (h : buildSliceInputs x c srcs rng = .ok out) : out.slices = [] := by
  rw [List.eq_nil_iff_forall_not_mem]
  intro e he
  obtain ⟨hmem, k, hk, hs, hks, rg, rg', wt, hp⟩ := used_facts hx h he
  have hn := (sliceSide_pos hx.box hx.frac).1
  obtain ⟨d, w0, g, w, b, o, e1, e2, e3, e5, e6, e4⟩ := epoch_facts rfl hn hk hs hks hp
  rcases e4 with ⟨_, _, f', a2, _⟩ | ⟨a1, a1', w', b', a2, _, _, a3⟩
  · cases a2
  · rcases a3 with ⟨c1, c2⟩ | ⟨c1, ⟨c2, c3⟩ | ⟨c2, im, ns, pm, q, c3, c4, ⟨c5, c6⟩ |
      ⟨c5, o', wt', psf, c6, _, _, _, _, _, _, _, _, _, _, _, hbw⟩⟩⟩
    · cases c2
    · cases c3
    · cases c6
    · rw [hc] at hbw; cases hbw

/-! ### C53 -/

theorem readsAs_unique {A : Type} {c : BuildCfg A} {s : Src} {d d' : SESlice} (h : s.ReadsAs c d)
    (h' : s.ReadsAs c d') : d = d' := by
  obtain ⟨col, row, im, bkg, bm, wt, ns, h1, h2, h3, h4, h5, h6, h7⟩ := h
  obtain ⟨col', row', im', bkg', bm', wt', ns', k1, k2, k3, k4, k5, k6, k7⟩ := h'
  rw [h1] at k1; rw [h2] at k2; rw [h3] at k3; rw [h4] at k4; rw [h5] at k5; rw [h6] at k6
  cases k1; cases k2; cases k3; cases k4; cases k5; cases k6
  rw [h7] at k7
  exact Except.ok.inj k7

theorem seesGaia_unique {A : Type} {c : BuildCfg A} {s : Src} {d : SESlice} {g g' : Option (Img Bool)}
    (h : SeesGaia c s d g) (h' : SeesGaia c s d g') : g = g' := by
  rcases h with ⟨h, rfl⟩ | ⟨m, m', f, h, rfl, h1, h2⟩ <;> rcases h' with ⟨k, rfl⟩ | ⟨n, n', f', k, rfl, k1, k2⟩
  · rfl
  · rw [h] at k; cases k
  · rw [h] at k; cases k
  · rw [h] at k; cases k
    rw [h1] at k1; cases k1
    rw [h2] at k2
    rw [Except.ok.inj k2]

theorem seen_unique {A σ : Type} {x : Ext A σ} {c : BuildCfg A} {s : Src} {d d' : SESlice}
    {w0 w0' : Img ℚ} {g g' : Option (Img Bool)} {w w' : Img ℚ} {b b' : Img (BitVec 32)}
    (hr : c.rejectOutliers = false) (h : Seen x c s d w0 g w b) (h' : Seen x c s d' w0' g' w' b') :
    g = g' ∧ w = w' ∧ b = b' := by
  have e1 := readsAs_unique h.reads h'.reads
  subst e1
  have e2 := seesGaia_unique h.gaia h'.gaia
  subst e2
  have e3 := (h.weight hr).trans (h'.weight hr).symm
  subst e3
  have e4 := h.sym.symm.trans h'.sym
  cases e4
  exact ⟨rfl, rfl, rfl⟩

theorem possibleSlices_append {A : Type} {c : BuildCfg A} {l1 l2 : List Src} {out : List Cand} :
    possibleSlices c (l1 ++ l2) = .ok out ↔
      ∃ a b, possibleSlices c l1 = .ok a ∧ possibleSlices c l2 = .ok b ∧ out = a ++ b := by
  induction l1 generalizing out with
  | nil =>
    constructor
    · intro h; exact ⟨[], out, rfl, h, rfl⟩
    · rintro ⟨a, b, h1, h2, rfl⟩
      cases h1
      exact h2
  | cons s l ih =>
    constructor
    · intro h
      rw [List.cons_append] at h
      unfold possibleSlices at h
      obtain ⟨a, h1, h⟩ := bind_eq_ok.1 h
      obtain ⟨t, h2, h⟩ := bind_eq_ok.1 h
      obtain ⟨u, v, h3, h4, rfl⟩ := ih.1 h2
      refine ⟨a ++ u, v, ?_, h4, by rw [← Except.ok.inj h]; simp⟩
      unfold possibleSlices
      rw [h1, ok_bind, h3, ok_bind]; rfl
    · rintro ⟨a, b, h1, h2, rfl⟩
      unfold possibleSlices at h1
      obtain ⟨u, h3, h1⟩ := bind_eq_ok.1 h1
      obtain ⟨t, h4, h1⟩ := bind_eq_ok.1 h1
      rw [List.cons_append]
      unfold possibleSlices
      rw [h3, ok_bind, ih.2 ⟨t, b, h4, h2, rfl⟩, ok_bind, ← Except.ok.inj h1]
      simp [pure_eq_ok]

/-- Two accumulators that agree on what is used. -/
def SameUsed (a b : Inputs) : Prop := a.slices = b.slices ∧ a.weights = b.weights

theorem sameUsed_add {a b : Inputs} (h : SameUsed a b) (s : Src) (o : Outcome) :
    SameUsed (a.add s o) (b.add s o) := by
  cases o <;> simp [Inputs.add, SameUsed, h.1, h.2]

theorem processAll_sameUsed {A σ : Type} {x : Ext A σ} {c : BuildCfg A} {l : List Cand} {a b : Inputs}
    {rng : σ} {out : Inputs} (hab : SameUsed a b) (h : processAll x c l a rng = .ok out) :
    ∃ out', processAll x c l b rng = .ok out' ∧ SameUsed out out' := by
  induction l generalizing a b rng with
  | nil => exact ⟨b, rfl, by rw [← Except.ok.inj h]; exact hab⟩
  | cons k l ih =>
    unfold processAll at h ⊢
    obtain ⟨r, h1, h⟩ := bind_eq_ok.1 h
    rw [h1, ok_bind]
    exact ih (sameUsed_add hab _ _) h

theorem processAll_drop {A σ : Type} {x : Ext A σ} {c : BuildCfg A} {l1 l2 : List Cand} {k : Cand}
    {a : Inputs} {rng : σ} {out : Inputs}
    (hk : ∀ g r, processCand x c k g = .ok r → r.2 = g ∧ ∃ o f, r.1 = .unused o f)
    (h : processAll x c (l1 ++ k :: l2) a rng = .ok out) :
    ∃ out', processAll x c (l1 ++ l2) a rng = .ok out' ∧ SameUsed out out' := by
  induction l1 generalizing a rng with
  | nil =>
    rw [List.nil_append] at h ⊢
    unfold processAll at h
    obtain ⟨r, h1, h⟩ := bind_eq_ok.1 h
    obtain ⟨h2, o, f, h3⟩ := hk _ _ h1
    rw [h2] at h
    refine processAll_sameUsed ?_ h
    rw [h3]; exact ⟨rfl, rfl⟩
  | cons k' l ih =>
    rw [List.cons_append] at h ⊢
    unfold processAll at h ⊢
    obtain ⟨r, h1, h⟩ := bind_eq_ok.1 h
    rw [h1, ok_bind]
    exact ih h

/-- C53: without outlier rejection, a source that does not pass the geometric cuts, or that is
rejected by the initial cuts, can be removed: the same epochs are used, with the same data and
weights. -/
theorem C53_removed {A σ : Type} (x : Ext A σ) (c : BuildCfg A) (l1 l2 : List Src) (s : Src) (rng : σ)
    (out : Inputs) (hx : Sane x c (l1 ++ s :: l2)) (hr : c.rejectOutliers = false)
    (hs : ¬ s.Passes c ∨
      ∃ d w0 g w b, Seen x c s d w0 g w b ∧ InitialCut c s g w b)
    (h : buildSliceInputs x c (l1 ++ s :: l2) rng = .ok out) :
    ∃ out', buildSliceInputs x c (l1 ++ l2) rng = .ok out' ∧
      out'.slices = out.slices ∧ out'.weights = out.weights := by
  have hn := (sliceSide_pos hx.box hx.frac).1
  have h0 := h
  have hused : ∀ e ∈ out.slices, e.src.psfFlag = .ok false := fun e he =>
    (C50_cuts x c _ rng out hx h e he).2.2.1
  unfold buildSliceInputs at h
  obtain ⟨cands, h1, hq⟩ := bind_eq_ok.1 h
  clear h
  obtain ⟨a, t, h2, h3, rfl⟩ := possibleSlices_append.1 h1
  unfold possibleSlices at h3
  obtain ⟨m, h4, h3⟩ := bind_eq_ok.1 h3
  obtain ⟨b, h5, h3⟩ := bind_eq_ok.1 h3
  have := Except.ok.inj h3
  subst this
  have hp : possibleSlices c (l1 ++ l2) = .ok (a ++ b) := possibleSlices_append.2 ⟨a, b, h2, h5, rfl⟩
  have hrej : ∀ l : List Cand, rejectOutliers x c l = .ok l := by
    intro l; unfold rejectOutliers; rw [hr]; rfl
  rcases roughCut_facts hx.box hx.frac h4 with ⟨_, rfl⟩ | ⟨k, rfl, rfl, hrf⟩
  · refine ⟨out, ?_, rfl, rfl⟩
    rw [← h0]
    unfold buildSliceInputs
    rw [hp, h1]; rfl
  · rcases hs with hs | ⟨d, w0, g, w, bm, hs1, hs2⟩
    · exact absurd hrf.passes hs
    have hprep : PrepFacts c (sliceSide c) k := by
      obtain ⟨_, _, h⟩ := rejectOutliers_facts (x := x) hx.keeps (hrej [k]) (by simpa using hrf)
      exact h k (by simp)
    have hk : ∀ g r, processCand x c k g = .ok r → r.2 = g ∧ ∃ o f, r.1 = .unused o f := by
      intro rg r hr'
      obtain ⟨d', w0', g', w', b', o, e1, _, _, _, _, e4⟩ :=
        epoch_facts rfl hn hprep (hx.shape _ (by simp)) rfl hr'
      obtain ⟨rfl, rfl, rfl⟩ := seen_unique hr hs1 e1
      rcases e4 with ⟨_, a1, f, a2, _⟩ | ⟨a1, _⟩
      · exact ⟨a1, o, f, a2⟩
      · exact absurd hs2 a1
    split at hq
    · rename_i hall
      have := Except.ok.inj hq
      subst this
      refine ⟨{}, ?_, rfl, rfl⟩
      unfold buildSliceInputs
      have hall' : ((a ++ b).isEmpty || (a ++ b).all (·.psfFlag)) = true := by
        rw [Bool.or_eq_true, List.all_eq_true] at hall ⊢
        right
        rcases hall with hall | hall
        · simp at hall
        · intro k' hk'
          apply hall k'
          rcases List.mem_append.1 hk' with h | h <;> simp [h]
      rw [hp, ok_bind, if_pos hall']
      rfl
    · obtain ⟨cs, h6, h⟩ := bind_eq_ok.1 hq
      rw [hrej] at h6
      cases h6
      obtain ⟨acc, h7, h⟩ := bind_eq_ok.1 h
      obtain ⟨acc', h8, h9, h10⟩ := processAll_drop (l2 := b) hk h7
      by_cases hall : ((a ++ b).isEmpty || (a ++ b).all (·.psfFlag)) = true
      · -- the removed candidate was the only one with a usable PSF
        refine ⟨{}, by unfold buildSliceInputs; rw [hp, ok_bind, if_pos hall]; rfl, ?_⟩
        have hnil : out.slices = [] := by
          rw [List.eq_nil_iff_forall_not_mem]
          intro e he
          obtain ⟨_, k', hk', hs', hks, rg, rg', wt, hpc⟩ := used_facts hx h0 he
          obtain ⟨d', w0', g', w', b', o, e1, _, _, _, _, e4⟩ :=
            epoch_facts rfl hn hk' hs' hks hpc
          have hps := hused e he
          have hpas := (C50_cuts x c _ rng out hx h0 e he).2.1
          have hmem := (C50_cuts x c _ rng out hx h0 e he).1
          classical
          obtain ⟨f1, f2⟩ := possibleSlices_facts hx.box hx.frac hp
          have hcase : e.src = k.src ∨ e.src ∈ l1 ++ l2 := by
            simp only [List.mem_append, List.mem_cons] at hmem ⊢; tauto
          rcases hcase with he' | he'
          · rw [he'] at e1 e4
            obtain ⟨rfl, rfl, rfl⟩ := seen_unique hr hs1 e1
            rcases e4 with ⟨_, _, f, a2, _⟩ | ⟨a1, _⟩
            · cases a2
            · exact absurd hs2 a1
          · have : e.src ∈ (a ++ b).map Cand.src := by
              rw [f1, List.mem_filter]; exact ⟨he', by simpa using hpas⟩
            obtain ⟨k2, hk2, hk2'⟩ := List.mem_map.1 this
            have hf := (f2 k2 hk2).psfFlag
            rw [hk2', hps] at hf
            have hf' := Except.ok.inj hf
            rw [Bool.or_eq_true, List.all_eq_true] at hall
            rcases hall with hall | hall
            · rw [List.isEmpty_iff] at hall; rw [hall] at hk2; cases hk2
            · rw [hall k2 hk2] at hf'; cases hf'
        have hlen := (C46_accounted x c _ rng out hx h0).2.2.1
        rw [hnil, List.length_nil, List.length_eq_zero_iff] at hlen
        exact ⟨hnil.symm, hlen.symm⟩
      · have hrun : ∀ o, (if acc'.weights.isEmpty = true then pure acc'
            else pure { acc' with weights := acc'.weights.map (· / acc'.weights.sum) } :
              Except Err Inputs) = .ok o → buildSliceInputs x c (l1 ++ l2) rng = .ok o := by
          intro o ho
          unfold buildSliceInputs
          rw [hp, ok_bind, if_neg hall, hrej, ok_bind, h8, ok_bind]
          exact ho
        rw [h10] at h
        split at h
        · rename_i he
          refine ⟨acc', hrun _ (by rw [if_pos he]; rfl), ?_, ?_⟩
          · rw [← Except.ok.inj h]; exact h9.symm
          · rw [← Except.ok.inj h]; exact h10.symm
        · rename_i he
          refine ⟨_, hrun _ (by rw [if_neg he]; rfl), ?_, ?_⟩
          · rw [← Except.ok.inj h]; exact h9.symm
          · rw [← Except.ok.inj h]

end Pizza
