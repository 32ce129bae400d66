import Verif.Props.MoreMasked
import Verif.Props.Combine
import Verif.Lemmas.EpochMap

/-!
C47 (the later cuts) and C153: what looser cuts do to the SE images that are used.
-/

namespace Pizza

variable {A σ S : Type}

/-! ### the cuts after the initial ones -/

/-- **C47** A high masked fraction is always that of the masks before interpolation: the second test, after it, never
rejects an SE image.  An SE image that passed the initial cuts and is not used has flag 4 only, for too few pixels to
interpolate from, or, with masked edges copied, flag 0 only, for an edge that is still masked. -/
theorem C47_late (x : Ext A σ) (c : BuildCfg A) (srcs : List Src) (rng : σ) (out : Inputs) (hx : Sane x c srcs)
    (h : buildSliceInputs x c srcs rng = .ok out) (e : Epoch) (f : BitVec 32)
    (he : (e, f) ∈ out.notUsed.zip out.flags) :
    ∃ d w0 g w b, Seen x c e.src d w0 g w b ∧ e.obj.weight = some w ∧ e.obj.bmask = some b ∧
      (f.getLsbD 2 = true → CutFraction c (sliceSide c) g w b) ∧
      (¬ InitialCut c e.src g w b → (∀ j, f.getLsbD j = true ↔ j = 4) ∨
        (c.copyEdges = true ∧ ∀ j, f.getLsbD j = true ↔ j = 0)) := by
  obtain ⟨_, k, hk, hs, hks, rg, rg', hp⟩ := unused_facts hx h he
  obtain ⟨d, w0, g, w, b, o, e1, e2, e3, e5, _, e4⟩ := epoch_facts rfl (sliceSide_pos hx.box hx.frac).1 hk hs hks hp
  have two : ∀ (k : Nat), k < 32 → ∀ j, (BitVec.twoPow 32 k).getLsbD j = true ↔ j = k := by
    intro k hk j
    rw [BitVec.getLsbD_twoPow]
    by_cases h : j = k
    · simp [h, hk]
    · have : ¬ k = j := fun h' => h h'.symm
      simp [h, this]
  have two4 : ∀ j, (HIGH_INTERP_MASKED_FRAC : BitVec 32).getLsbD j = true ↔ j = 4 := two 4 (by omega)
  have two0 : ∀ j, (FULL_EDGE_MASKED : BitVec 32).getLsbD j = true ↔ j = 0 := two 0 (by omega)
  rcases e4 with ⟨a1, _, f', a2, a3⟩ | ⟨a1, _, w', b', a2, _, _, a3⟩
  · cases a2
    refine ⟨d, w0, g, w, b, e1, e2, e3, fun h2 => ?_, fun h => absurd a1 h⟩
    rcases (a3 2).1 h2 with ⟨hj, _⟩ | ⟨hj, _⟩ | ⟨_, hc⟩ | ⟨hj, _⟩
    · omega
    · omega
    · exact hc
    · omega
  · rcases a3 with ⟨c1, c2⟩ | ⟨c1, ⟨c2, c3⟩ | ⟨c2, im, ns, pm, q, c3, c4, ⟨c5, c6⟩ | ⟨c5, _, _, _, c6, _⟩⟩⟩
    · cases c2
      refine ⟨d, w0, g, w, b, e1, e2, e3, fun h2 => absurd ((two0 2).1 h2) (by omega), fun _ => .inr ⟨?_, two0⟩⟩
      cases hc : c.copyEdges with
      | true => rfl
      | false =>
        obtain ⟨rfl, rfl⟩ := a2.2.1 hc
        exact absurd (.inl ⟨hc, c1⟩) a1
    · cases c3
      exact ⟨d, w0, g, w, b, e1, e2, e3, fun h2 => absurd ((two4 2).1 h2) (by omega), fun _ => .inl two4⟩
    · exact absurd (.inr (.inr (.inl (retest e5 a2 c3 c4 c5)))) a1
    · cases c6

/-! ### one candidate -/

/-- A candidate that is used is used with looser cuts, with the same weight before normalisation. -/
theorem cand_loose {x : Ext A σ} {c c' : BuildCfg A} (hl : LooserCuts c c') (hn : 1 ≤ sliceSide c) {k : Cand}
    (hk : PrepFacts c (sliceSide c) k) (hk' : PrepFacts c' (sliceSide c') k) (hs : k.src.WellShaped) {r r' u u' : σ}
    {o : Outcome} {q : SEObj} {wt : ℚ} (ho : processCand x c k r = .ok (.used q wt, u))
    (ho' : processCand x c' k r' = .ok (o, u')) : ∃ q', o = .used q' wt := by
  rw [hl.side] at hk'
  obtain ⟨d, w0, g, w, b, e, a1, a2, a3, a4, a5, a6, a7, a8, a9, a10, a11, a12, a13, a14⟩ := processCand_ok hn hk hs ho
  obtain ⟨d', w0', g', w', b', e', b1, b2, b3, b4, b5, b6, b7, b8, b9, b10, b11, b12, b13, b14⟩ :=
    processCand_ok hn hk' hs ho'
  have hR : k.src.ReadsAs c d' := by rw [hl.rest] at b1; exact b1
  cases readsAs_unique a1 hR
  have hG : SeesGaia c k.src d g' := by rw [hl.rest] at b4; exact b4
  cases seesGaia_unique a4 hG
  cases a2.symm.trans b2
  have hS : symmetrizeSlice x.rotate c.symmetrize g (c.splineFlags ||| c.noiseFlags) w0 d.bmask = .ok (w', b') := by
    rw [hl.rest] at b5; exact b5
  cases a5.symm.trans hS
  have hc : c'.coaddingWeight = c.coaddingWeight := by rw [hl.rest]
  have same : ∀ r < sliceSide c, ∀ j < sliceSide c, w.px r j = w.px r j ∧ b.px r j = b.px r j := fun _ _ _ _ => ⟨rfl, rfl⟩
  rcases a14 with ⟨-, -, f, f1, -⟩ | ⟨n1, l⟩
  · cases f1
  rcases b14 with ⟨n2, -⟩ | ⟨n2, l'⟩
  · exact absurd (initialCut_loose hl id a9 a9 same n2) n1
  · obtain ⟨q', wt', psf, psf', e1, e2, e3, e4, e5⟩ :=
      late_loose hl a9 a9 same l (fun hf => n2 (.inr (.inr (.inl hf)))) l'
    rw [a11] at e2
    rw [b11] at e3
    cases e2.symm.trans e3
    rw [hc] at e5
    cases e4.symm.trans e5
    exact ⟨q', e1⟩

/-- With the same copying of edges it is used with the same pixels, if the random numbers are the same. -/
theorem cand_loose_same {x : Ext A σ} {c c' : BuildCfg A} (hl : LooserCuts c c') (hce : c'.copyEdges = c.copyEdges) {k : Cand}
    {r u u' : σ} {q q' : SEObj} {wt wt' : ℚ} (ho : processCand x c k r = .ok (.used q wt, u))
    (ho' : processCand x c' k r = .ok (.used q' wt', u')) : q' = q ∧ wt' = wt := by
  have hsp : c'.splineFlags = c.splineFlags := by rw [hl.rest]
  have hno : c'.noiseFlags = c.noiseFlags := by rw [hl.rest]
  have hsy : c'.symmetrize = c.symmetrize := by rw [hl.rest]
  have hcw : c'.coaddingWeight = c.coaddingWeight := by rw [hl.rest]
  have hga : ∀ o, seGaiaMask c' k.src o = seGaiaMask c k.src o := by rw [hl.rest]; intro o; rfl
  unfold processCand at ho ho'
  simp only [hsp, hno, hsy, hga, hce] at ho ho'
  obtain ⟨g, h1, ho⟩ := bind_eq_ok.1 ho
  rw [h1, ok_bind] at ho'
  obtain ⟨w0, h2, ho⟩ := bind_eq_ok.1 ho
  rw [h2, ok_bind] at ho'
  obtain ⟨b0, h3, ho⟩ := bind_eq_ok.1 ho
  rw [h3, ok_bind] at ho'
  obtain ⟨wb, h4, ho⟩ := bind_eq_ok.1 ho
  rw [h4, ok_bind] at ho'
  obtain ⟨sk, h5, ho⟩ := bind_eq_ok.1 ho
  rw [h5, ok_bind] at ho'
  split at ho
  · cases ho
  split at ho'
  · cases ho'
  unfold interpolateCand at ho ho'
  simp only [hsp, hno, hce, hcw] at ho ho'
  obtain ⟨im, h6, ho⟩ := bind_eq_ok.1 ho
  rw [h6, ok_bind] at ho'
  obtain ⟨ns, h7, ho⟩ := bind_eq_ok.1 ho
  rw [h7, ok_bind] at ho'
  obtain ⟨k1, h8, ho⟩ := bind_eq_ok.1 ho
  rw [h8, ok_bind] at ho'
  obtain ⟨k2, h9, ho⟩ := bind_eq_ok.1 ho
  rw [h9, ok_bind] at ho'
  split at ho
  · cases ho
  rename_i hk2
  rw [if_neg hk2] at ho'
  obtain ⟨k3, h10, ho⟩ := bind_eq_ok.1 ho
  rw [h10, ok_bind] at ho'
  cases k3 with
  | none => cases ho
  | some k3 =>
    simp only at ho ho'
    split at ho
    · cases ho
    split at ho'
    · cases ho'
    split at ho
    · cases ho
    · rename_i o1 h11
      rw [h11] at ho'
      simp only at ho'
      obtain ⟨psf, h12, ho⟩ := bind_eq_ok.1 ho
      rw [h12, ok_bind] at ho'
      obtain ⟨w1, h13, ho⟩ := bind_eq_ok.1 ho
      rw [h13, ok_bind] at ho'
      cases ho
      cases ho'
      exact ⟨rfl, rfl⟩

/-! ### the rough cut -/

theorem roughCut_loose {c c' : BuildCfg A} (hl : LooserCuts c c') (hc : 1 ≤ c.boxSize) (hf : 1 ≤ c.fracBuffer) {s : Src}
    {l l' : List Cand} (h : roughCut c s = .ok l) (h' : roughCut c' s = .ok l') : l.Sublist l' := by
  have hb : c'.boxSize = c.boxSize := by rw [hl.rest]
  have hfr : c'.fracBuffer = c.fracBuffer := by rw [hl.rest]
  rcases roughCut_ok h with ⟨_, rfl⟩ | ⟨_, _, _, rfl⟩ | ⟨p, p1, p2, p3, p4, ⟨_, rfl⟩ | ⟨p5, o, f, p6, p7, rfl⟩⟩
  · exact List.nil_sublist _
  · exact List.nil_sublist _
  · exact List.nil_sublist _
  rcases roughCut_ok h' with ⟨q1, _⟩ | ⟨_, _, q3, _⟩ | ⟨p', q1, q2, q3, q4, ⟨q5, _⟩ | ⟨q5, o', f', q6, q7, rfl⟩⟩
  · exact absurd p1 q1
  · rw [p3] at q3
    cases q3
  · cases p4.symm.trans q4
    have : ccdContainsBounds s.nrow s.ncol (computeSliceBounds p.1 p.2 c'.boxSize c'.fracBuffer) c'.edgeBuffer = true := by
      rw [roughCut_passes_iff (by rw [hb]; exact hc) (by rw [hfr]; exact hf)]
      rw [roughCut_passes_iff hc hf] at p5
      intro i j b hB h1 h2 h3 h4
      rw [hb, hfr] at hB
      obtain ⟨z1, z2, z3, z4⟩ := p5 i j b hB h1 h2 h3 h4
      have := hl.buffer
      have : max c'.edgeBuffer 0 ≤ max c.edgeBuffer 0 := max_le_max_right 0 this
      exact ⟨by omega, by omega, by omega, by omega⟩
    rw [this] at q5
    cases q5
  · cases p4.symm.trans q4
    rw [hb, hfr, p6] at q6
    cases q6
    rw [p7] at q7
    cases q7
    exact List.Sublist.refl _

theorem possible_loose {c c' : BuildCfg A} (hl : LooserCuts c c') (hc : 1 ≤ c.boxSize) (hf : 1 ≤ c.fracBuffer)
    {srcs : List Src} {l l' : List Cand} (h : possibleSlices c srcs = .ok l) (h' : possibleSlices c' srcs = .ok l') :
    l.Sublist l' := by
  induction srcs generalizing l l' with
  | nil =>
    cases h
    exact List.nil_sublist _
  | cons s srcs ih =>
    unfold possibleSlices at h h'
    obtain ⟨a, h1, h⟩ := bind_eq_ok.1 h
    obtain ⟨t, h2, h⟩ := bind_eq_ok.1 h
    obtain ⟨a', h1', h'⟩ := bind_eq_ok.1 h'
    obtain ⟨t', h2', h'⟩ := bind_eq_ok.1 h'
    cases h
    cases h'
    exact (roughCut_loose hl hc hf h1 h1').append (ih h2 h2')

/-! ### all candidates -/

/-- The images used, with their weights before normalisation. -/
def Inputs.raw (a : Inputs) : List (ℤ × ℚ) := (a.slices.map (·.src.imageId)).zip a.weights

theorem Inputs.raw_used {a : Inputs} (ha : a.slices.length = a.weights.length) (s : Src) (q : SEObj) (wt : ℚ) :
    (a.add s (.used q wt)).raw = a.raw ++ [(s.imageId, wt)] ∧
      (a.add s (.used q wt)).slices.length = (a.add s (.used q wt)).weights.length := by
  constructor
  · unfold Inputs.raw Inputs.add
    simp only [List.map_append, List.map_cons, List.map_nil]
    rw [List.zip_append (by rw [List.length_map, ha])]
    rfl
  · simp [Inputs.add, ha]

theorem processAll_loose {x : Ext A σ} {c c' : BuildCfg A} (hl : LooserCuts c c') (hn : 1 ≤ sliceSide c) {l l' : List Cand}
    (h : l.Sublist l') (hk : ∀ k ∈ l, PrepFacts c (sliceSide c) k ∧ k.src.WellShaped)
    (hk' : ∀ k ∈ l', PrepFacts c' (sliceSide c') k) {a a' : Inputs} (ha : a.slices.length = a.weights.length)
    (ha' : a'.slices.length = a'.weights.length) {r r' : σ} {o o' : Inputs} (ho : processAll x c l a r = .ok o)
    (ho' : processAll x c' l' a' r' = .ok o') (hr : a.raw.Sublist a'.raw) : o.raw.Sublist o'.raw := by
  induction h generalizing a a' r r' with
  | slnil =>
    cases ho
    cases ho'
    exact hr
  | cons k _ ih =>
    unfold processAll at ho'
    obtain ⟨⟨p', u'⟩, h1', ho'⟩ := bind_eq_ok.1 ho'
    cases p' with
    | unused q f => exact ih hk (fun k hk0 => hk' k (List.mem_cons_of_mem _ hk0)) ha (by exact ha') ho ho' hr
    | used q wt =>
      obtain ⟨e1, e2⟩ := Inputs.raw_used ha' k.src q wt
      refine ih hk (fun k hk0 => hk' k (List.mem_cons_of_mem _ hk0)) ha e2 ho ho' ?_
      rw [e1]
      exact hr.trans (List.sublist_append_left _ _)
  | cons_cons k _ ih =>
    unfold processAll at ho ho'
    obtain ⟨⟨p, u⟩, h1, ho⟩ := bind_eq_ok.1 ho
    obtain ⟨⟨p', u'⟩, h1', ho'⟩ := bind_eq_ok.1 ho'
    obtain ⟨b1, b2⟩ := hk _ List.mem_cons_self
    have t := fun k (hk0 : k ∈ _) => hk k (List.mem_cons_of_mem _ hk0)
    have t' := fun k (hk0 : k ∈ _) => hk' k (List.mem_cons_of_mem _ hk0)
    cases p with
    | unused q f =>
      cases p' with
      | unused q' f' => exact ih t t' (by exact ha) (by exact ha') ho ho' hr
      | used q' wt' =>
        obtain ⟨e1, e2⟩ := Inputs.raw_used ha' k.src q' wt'
        refine ih t t' (by exact ha) e2 ho ho' ?_
        rw [e1]
        exact List.Sublist.trans (by exact hr) (List.sublist_append_left _ _)
    | used q wt =>
      obtain ⟨q', rfl⟩ := cand_loose hl hn b1 (hk' _ List.mem_cons_self) b2 h1 h1'
      obtain ⟨e1, e2⟩ := Inputs.raw_used ha k.src q wt
      obtain ⟨e1', e2'⟩ := Inputs.raw_used ha' k.src q' wt
      refine ih t t' e2 e2' ho ho' ?_
      rw [e1, e1']
      exact hr.append (List.Sublist.refl _)

theorem LooserCuts.for {v : SliceEnv A σ S} {cfg : BuildCfg A} (hl : LooserCuts v.cfg cfg) (row : ObjRow) (gaia : Option (Img Bool)) :
    LooserCuts (cfgFor v row gaia) (cfgFor { v with cfg := cfg } row gaia) := by
  refine ⟨?_, hl.fraction, hl.buffer, hl.flags, hl.edges⟩
  unfold cfgFor
  simp only
  rw [hl.rest]

theorem SoundEnv.looser {v : SliceEnv A σ S} {box psfBox : Nat} (hv : SoundEnv v box psfBox) {cfg : BuildCfg A}
    (hl : LooserCuts v.cfg cfg) : SoundEnv { v with cfg := cfg } box psfBox :=
  ⟨hv.boxPos, hv.psfOdd, hv.rows, by
    show 1 ≤ cfg.fracBuffer
    rw [hl.rest]
    exact hv.frac, hv.shape, hv.noises, hv.psf, hv.keeps, hv.fwhm⟩

/-- The weights of all images sum to the positive total; fewer weights sum to no more. -/
theorem raw_share {l l' : List (ℤ × ℚ)} (h : l.Sublist l') (hp : ∀ p ∈ l', 0 < p.2) (hne : l ≠ []) :
    0 < (l.map Prod.snd).sum ∧ (l.map Prod.snd).sum ≤ (l'.map Prod.snd).sum := by
  constructor
  · refine List.sum_pos _ (fun a ha => ?_) (by simpa using hne)
    obtain ⟨p, h1, rfl⟩ := List.mem_map.1 ha
    exact hp p (h.subset h1)
  · clear hne
    induction h with
    | slnil => exact le_refl _
    | cons p _ ih =>
      have := ih fun p h => hp p (List.mem_cons_of_mem _ h)
      have := hp p List.mem_cons_self
      simp only [List.map_cons, List.sum_cons]
      linarith
    | cons_cons p _ ih =>
      have := ih fun p h => hp p (List.mem_cons_of_mem _ h)
      simp only [List.map_cons, List.sum_cons]
      linarith

theorem raw_pairs (l : List ℤ) (ws : List ℚ) (s : ℚ) :
    l.zip (ws.map (· / s)) = (l.zip ws).map fun p => (p.1, p.2 / s) := by
  rw [List.zip_map_right]
  rfl

/-- The candidates of two runs with the same sources. -/
theorem build_loose {x : Ext A σ} {c c' : BuildCfg A} (hl : LooserCuts c c') (hro : c.rejectOutliers = false)
    {srcs : List Src} (hs : Sane x c srcs) (hs' : Sane x c' srcs) (hfw : ∀ im v, x.fwhm im = .ok v → 0 < v) {r r' : σ}
    {o o' : Inputs} (ho : buildSliceInputs x c srcs r = .ok o) (ho' : buildSliceInputs x c' srcs r' = .ok o') :
    ∃ α : ℚ, 0 < α ∧ α ≤ 1 ∧ (scaleWeights α ((o.slices.map (·.src.imageId)).zip o.weights)).Sublist
      ((o'.slices.map (·.src.imageId)).zip o'.weights) := by
  have hro' : c'.rejectOutliers = false := by rw [hl.rest]; exact hro
  obtain ⟨ks, h1, h2⟩ := buildSliceInputs_ok hs.keeps hs.box hs.frac ho
  obtain ⟨ks', h1', h2'⟩ := buildSliceInputs_ok hs'.keeps hs'.box hs'.frac ho'
  have hsub := possible_loose hl hs.box hs.frac h1 h1'
  have triv : ∀ l : List (ℤ × ℚ), ∃ α : ℚ, 0 < α ∧ α ≤ 1 ∧ (scaleWeights α []).Sublist l := fun l =>
    ⟨1, one_pos, le_refl _, List.nil_sublist _⟩
  rcases h2 with ⟨-, rfl⟩ | ⟨⟨k, hk, hp⟩, cands, sl, wt, nu, fl, g1, g2, g3, g4, rfl, -, g5, -⟩
  · exact triv _
  rcases h2' with ⟨h2', -⟩ | ⟨-, cands', sl', wt', nu', fl', g1', g2', g3', g4', rfl, -, g5', -, g6', -⟩
  · rw [h2' k (hsub.subset hk)] at hp
    cases hp
  rw [rejectOutliers_off hro] at g1
  rw [rejectOutliers_off hro'] at g1'
  cases g1
  cases g1'
  have hn := (sliceSide_pos hs.box hs.frac).1
  have hn' := (sliceSide_pos hs'.box hs'.frac).1
  have key := processAll_loose (o := ⟨sl, wt, nu, fl⟩) (o' := ⟨sl', wt', nu', fl'⟩) hl hn hsub
    (fun k hk => ⟨g4 k hk, hs.shape _ (mem_srcs hs h1 rfl hk)⟩) g4' (a := {}) (a' := {}) rfl rfl g2 g2' (List.Sublist.refl _)
  simp only [Inputs.raw] at key
  have hpos : ∀ v ∈ wt', 0 < v := by
    intro v hv
    obtain ⟨i, hi, rfl⟩ := List.getElem_of_mem hv
    have hmem : (sl'[i]'(g5' ▸ hi), wt'[i]) ∈ sl'.zip wt' := by
      rw [← List.getElem_zip (h := by simp [g5' ▸ hi, hi])]
      exact List.getElem_mem _
    obtain ⟨k, hk, g, g', a1, a2⟩ := g6' _ _ hmem
    obtain ⟨d, w0, g, w, b, o, e1, e2, e3, e5, e6, e4⟩ :=
      epoch_facts rfl hn' (g4' k hk) (hs'.shape _ (mem_srcs hs' h1' rfl hk)) a1 a2
    rcases e4 with ⟨_, _, f', a2, _⟩ | ⟨_, _, a3⟩
    · cases a2
    · exact weight_pos (fun _ => hfw) hn' e5 a3
  simp only [raw_pairs]
  set L := (sl.map (·.src.imageId)).zip wt with hL
  set L' := (sl'.map (·.src.imageId)).zip wt' with hL'
  have w1 : L.map Prod.snd = wt := by rw [hL, List.map_snd_zip (by rw [List.length_map, g5])]
  have w2 : L'.map Prod.snd = wt' := by rw [hL', List.map_snd_zip (by rw [List.length_map, g5'])]
  by_cases hne : L = []
  · rw [hne]
    exact triv _
  obtain ⟨s1, s2⟩ := raw_share key (fun p hp => hpos _ (by rw [← w2]; exact List.mem_map_of_mem hp)) hne
  rw [w1, w2] at s2
  rw [w1] at s1
  refine ⟨wt.sum / wt'.sum, div_pos s1 (lt_of_lt_of_le s1 s2), (div_le_one (lt_of_lt_of_le s1 s2)).2 s2, ?_⟩
  have := key.map fun p : ℤ × ℚ => (p.1, p.2 / wt'.sum)
  convert this using 1
  unfold scaleWeights
  rw [List.map_map]
  apply List.map_congr_left
  intro p _
  simp only [Function.comp_apply, Prod.mk.injEq, true_and]
  have := (lt_of_lt_of_le s1 s2).ne'
  have := s1.ne'
  field_simp

/-- **C153** With looser cuts every SE image that was used is used, in the same order, and their weights keep their
proportions: they are multiplied by one number, which is at most 1. -/
theorem C153_slice {v : SliceEnv A σ S} {box psfBox : Nat} (hv : SoundEnv v box psfBox)
    (hro : v.cfg.rejectOutliers = false) (cfg : BuildCfg A) (hl : LooserCuts v.cfg cfg) {i seed seed' : Nat}
    {r r' : SliceRes Flt EpochRow} (h : coaddSingleSlice v i seed = .ok r)
    (h' : coaddSingleSlice { v with cfg := cfg } i seed' = .ok r') :
    ∃ α : ℚ, 0 < α ∧ α ≤ 1 ∧ (scaleWeights α (usedWeights r)).Sublist (usedWeights r') := by
  obtain ⟨row, lay, gaia, inp, g1, g2, g3, g4, g5⟩ := coaddSingleSlice_ok h
  obtain ⟨row', lay', gaia', inp', g1', g2', g3', g4', g5'⟩ := coaddSingleSlice_ok h'
  cases Option.some.inj (g1.symm.trans g1')
  cases Except.ok.inj (g2.symm.trans g2')
  cases Except.ok.inj (g3.symm.trans (show gaiaFor v row = _ from g3'))
  have hr : row ∈ v.objects := List.mem_of_getElem? g1
  have hv' := hv.looser hl
  have x0 := hv.sane hr gaia row.ra row.dec lay.raPsf lay.decPsf
  have x1 := hv'.sane hr gaia row.ra row.dec lay.raPsf lay.decPsf
  have u0 : usedWeights r = (inp.slices.map (·.src.imageId)).zip inp.weights :=
    used_pairs x0 hv.fwhm g4 (coaddChosen_pix g5).1
  have u1 : usedWeights r' = (inp'.slices.map (·.src.imageId)).zip inp'.weights :=
    used_pairs x1 hv.fwhm g4' (coaddChosen_pix g5').1
  rw [u0, u1]
  exact build_loose (c := cfgFor v row gaia) (hl.for row gaia) hro x0 x1 hv.fwhm g4 g4'

theorem rawUsed_loose {x : Ext A σ} {c c' : BuildCfg A} (hl : LooserCuts c c') (hce : c'.copyEdges = c.copyEdges)
    {srcs : List Src} (hs : Sane x c srcs) (hs' : Sane x c' srcs) {ks ks' : List Cand} (h : possibleSlices c srcs = .ok ks)
    (h' : possibleSlices c' srcs = .ok ks') (hro : c.rejectOutliers = false) {rng : σ}
    (hok : ∀ k ∈ ks', ∃ p, processCand x c' k rng = .ok p) :
    (rawUsed x c rng srcs).Sublist (rawUsed x c' rng srcs) := by
  have hsub := possible_loose hl hs.box hs.frac h h'
  have hro' : c'.rejectOutliers = false := by rw [hl.rest]; exact hro
  have hn := (sliceSide_pos hs.box hs.frac).1
  unfold rawUsed
  rw [h, h']
  simp only
  have prep : ∀ k ∈ ks, PrepFacts c (sliceSide c) k := (rejectOutliers_facts hs.keeps (rejectOutliers_off (x := x) hro ks)
    (possibleSlices_facts hs.box hs.frac h).2).2.2
  have prep' : ∀ k ∈ ks', PrepFacts c' (sliceSide c') k := (rejectOutliers_facts hs'.keeps (rejectOutliers_off (x := x) hro' ks')
    (possibleSlices_facts hs'.box hs'.frac h').2).2.2
  have shape : ∀ k ∈ ks, k.src.WellShaped := fun k hk => hs.shape _ (mem_srcs hs h rfl hk)
  have step : ∀ k ∈ ks, ∀ e, usedBy x c rng k = some e → usedBy x c' rng k = some e := by
    intro k hk e he
    unfold usedBy at he ⊢
    obtain ⟨⟨o', u'⟩, hp'⟩ := hok k (hsub.subset hk)
    split at he
    · rename_i o wt u hp
      obtain ⟨q', rfl⟩ := cand_loose hl hn (prep k hk) (prep' k (hsub.subset hk)) (shape k hk) hp hp'
      obtain ⟨rfl, -⟩ := cand_loose_same hl hce hp hp'
      rw [hp']
      exact he
    · cases he
  clear prep prep' shape h h' hok
  induction hsub with
  | slnil => exact List.Sublist.refl _
  | cons k _ ih =>
    rw [List.filterMap_cons]
    split
    · exact ih step
    · exact (ih step).cons _
  | cons_cons k _ ih =>
    have := ih fun k hk => step k (List.mem_cons_of_mem _ hk)
    rw [List.filterMap_cons, List.filterMap_cons]
    cases he : usedBy x c rng k with
    | none =>
      simp only
      split
      · exact this
      · exact this.cons _
    | some e =>
      rw [step k List.mem_cons_self e he]
      exact this.cons_cons _

theorem mapM_each {x : Ext A σ} {c : BuildCfg A} {rng : σ} {ks : List Cand} {os : List (Src × Outcome)}
    (h : ks.mapM (outcomeOf x c rng) = .ok os) : ∀ k ∈ ks, ∃ p, processCand x c k rng = .ok p := by
  induction ks generalizing os with
  | nil => simp
  | cons k ks ih =>
    rw [List.mapM_cons] at h
    obtain ⟨o, h1, h⟩ := bind_eq_ok.1 h
    obtain ⟨os', h2, -⟩ := bind_eq_ok.1 h
    intro k' hk'
    rcases List.mem_cons.1 hk' with rfl | hk'
    · have ho : outcomeOf x c rng k' = (processCand x c k' rng).map fun p => (k'.src, p.1) := rfl
      rw [ho] at h1
      cases hp : processCand x c k' rng with
      | error e => rw [hp] at h1; cases h1
      | ok p => exact ⟨p, rfl⟩
    · exact ih h2 k' hk'

theorem processCand_of_build {x : Ext A σ} {c : BuildCfg A} {srcs : List Src} (hro : c.rejectOutliers = false)
    {ks : List Cand} (hks : possibleSlices c srcs = .ok ks) (hq : ∀ k ∈ ks, Quiet x c k) {rng : σ} (rng0 : σ) {out : Inputs}
    (h : buildSliceInputs x c srcs rng = .ok out) (hne : ∃ k ∈ ks, k.psfFlag = false) :
    ∀ k ∈ ks, ∃ p, processCand x c k rng0 = .ok p := by
  unfold buildSliceInputs at h
  rw [hks, ok_bind] at h
  split at h
  · rename_i he
    obtain ⟨k, hk, hf⟩ := hne
    simp only [Bool.or_eq_true, List.isEmpty_iff, List.all_eq_true] at he
    rcases he with rfl | he
    · cases hk
    · rw [he k hk] at hf
      cases hf
  · rw [rejectOutliers_off hro, ok_bind, processAll_quiet hq {} rng rng0] at h
    cases hm : ks.mapM (outcomeOf x c rng0) with
    | error e => rw [hm] at h; cases h
    | ok os => exact mapM_each hm

/-- **C153** If no further SE image is used with the looser cuts, the slice is the same, pixel by pixel, and so are the
weights. -/
theorem C153_pixels {v : SliceEnv A σ S} {box psfBox : Nat} (hv : SoundEnv v box psfBox)
    (hro : v.cfg.rejectOutliers = false)
    (hm : ∀ ra dec raPsf decPsf, ∀ s ∈ v.sources ra dec raPsf decPsf, ∀ bm, s.reads.bmask = .ok bm →
      Unflagged v.cfg.noiseFlags bm) (cfg : BuildCfg A) (hl : LooserCuts v.cfg cfg) (hce : cfg.copyEdges = v.cfg.copyEdges)
    {i seed seed' : Nat} {r r' : SliceRes Flt EpochRow} (h : coaddSingleSlice v i seed = .ok r)
    (h' : coaddSingleSlice { v with cfg := cfg } i seed' = .ok r')
    (hno : (usedWeights r').length = (usedWeights r).length) :
    r'.pix = r.pix ∧ r'.weights = r.weights ∧ usedWeights r' = usedWeights r := by
  obtain ⟨row, lay, gaia, inp, g1, g2, g3, g4, g5⟩ := coaddSingleSlice_ok h
  obtain ⟨row', lay', gaia', inp', g1', g2', g3', g4', g5'⟩ := coaddSingleSlice_ok h'
  cases Option.some.inj (g1.symm.trans g1')
  cases Except.ok.inj (g2.symm.trans g2')
  cases Except.ok.inj (g3.symm.trans (show gaiaFor v row = _ from g3'))
  have hr : row ∈ v.objects := List.mem_of_getElem? g1
  have hv' := hv.looser hl
  have x0 := hv.sane hr gaia row.ra row.dec lay.raPsf lay.decPsf
  have x1 := hv'.sane hr gaia row.ra row.dec lay.raPsf lay.decPsf
  have u0 : usedWeights r = (inp.slices.map (·.src.imageId)).zip inp.weights :=
    used_pairs x0 hv.fwhm g4 (coaddChosen_pix g5).1
  have u1 : usedWeights r' = (inp'.slices.map (·.src.imageId)).zip inp'.weights :=
    used_pairs x1 hv.fwhm g4' (coaddChosen_pix g5').1
  have w0 := (C49_weights _ _ _ _ inp x0 (fun _ => hv.fwhm) g4).1
  have w1 := (C49_weights _ _ _ _ inp' x1 (fun _ => hv.fwhm) g4').1
  have hl' := hl.for row gaia
  have hro' : cfg.rejectOutliers = false := by rw [hl.rest]; exact hro
  have hm' : ∀ s ∈ v.sources row.ra row.dec lay.raPsf lay.decPsf, ∀ bm, s.reads.bmask = .ok bm →
      Unflagged cfg.noiseFlags bm := by
    rw [hl.rest]
    exact hm row.ra row.dec lay.raPsf lay.decPsf
  have q0 := quiet_of x0 (hm row.ra row.dec lay.raPsf lay.decPsf)
  have q1 := quiet_of x1 hm'
  obtain ⟨m1, m2⟩ := build_raw (c := cfgFor v row gaia) hro q0 (v.seeded 0) g4
  obtain ⟨m3, m4⟩ := build_raw (c := cfgFor { v with cfg := cfg } row gaia) hro' q1 (v.seeded 0) g4'
  have len : inp'.slices.length = inp.slices.length := by
    rw [u0, u1, List.length_zip, List.length_zip, List.length_map, List.length_map, w0, w1] at hno
    simpa using hno
  have e : rawUsed v.ext (cfgFor v row gaia) (v.seeded 0) (v.sources row.ra row.dec lay.raPsf lay.decPsf) =
      rawUsed v.ext (cfgFor { v with cfg := cfg } row gaia) (v.seeded 0) (v.sources row.ra row.dec lay.raPsf lay.decPsf) := by
    obtain ⟨ks, h1, h2⟩ := buildSliceInputs_ok x0.keeps x0.box x0.frac g4
    obtain ⟨ks', h1', -⟩ := buildSliceInputs_ok x1.keeps x1.box x1.frac g4'
    have len' := len
    rw [m1, m3, List.length_map, List.length_map] at len'
    rcases h2 with ⟨-, rfl⟩ | ⟨⟨k, hk, hp⟩, -⟩
    · have hz := List.map_eq_nil_iff.1 m1.symm
      have len'' : (rawUsed v.ext (cfgFor { v with cfg := cfg } row gaia) (v.seeded 0)
          (v.sources row.ra row.dec lay.raPsf lay.decPsf)).length = 0 := by
        refine len'.trans ?_
        rw [hz]
        rfl
      rw [hz, List.length_eq_zero_iff.1 len'']
    · have hsub := possible_loose hl' x0.box x0.frac h1 h1'
      exact (rawUsed_loose hl' hce x0 x1 h1 h1' hro (processCand_of_build (c := cfgFor { v with cfg := cfg } row gaia) hro' h1' (q1 _ h1') (v.seeded 0) g4'
        ⟨k, hsub.subset hk, hp⟩)).eq_of_length len'.symm
  have s1 : inp'.slices = inp.slices := by
    rw [m1, e]
    exact m3
  have s2 : inp'.weights = inp.weights := by
    rw [m2, e]
    exact m4
  obtain ⟨z1, z2⟩ := coaddChosen_used g5 (show coaddChosen v row lay i inp' = .ok r' from g5') s1.symm s2.symm
  refine ⟨z1.symm, z2.symm, ?_⟩
  rw [u0, u1, s1, s2]

/-- **C153** The same for the files of a tile. -/
theorem C153_tile {P : Type} [DecidableEq P] (w : ProcWorld A σ S P) (t : Tile A S P) {box psfBox : Nat}
    (hv : SoundEnv (freshEnv w t) box psfBox) (hro : t.cfg.rejectOutliers = false) (cfg : BuildCfg A)
    (hl : LooserCuts t.cfg cfg) {i seed seed' : Nat} {r r' : SliceRes Flt EpochRow}
    (h : coaddSingleSlice (freshEnv w t) i seed = .ok r)
    (h' : coaddSingleSlice (freshEnv w { t with cfg := cfg }) i seed' = .ok r') :
    ∃ α : ℚ, 0 < α ∧ α ≤ 1 ∧ (scaleWeights α (usedWeights r)).Sublist (usedWeights r') :=
  C153_slice hv hro cfg hl h h'

/-- **C153** The same for the files of a tile. -/
theorem C153_tile_pixels {P : Type} [DecidableEq P] (w : ProcWorld A σ S P) (t : Tile A S P) {box psfBox : Nat}
    (hv : SoundEnv (freshEnv w t) box psfBox) (hro : t.cfg.rejectOutliers = false)
    (hm : ∀ e ∈ t.entries, ∀ bm, freshMask w t e = .ok bm → Unflagged t.cfg.noiseFlags bm) (cfg : BuildCfg A)
    (hl : LooserCuts t.cfg cfg) (hce : cfg.copyEdges = t.cfg.copyEdges) {i seed seed' : Nat}
    {r r' : SliceRes Flt EpochRow} (h : coaddSingleSlice (freshEnv w t) i seed = .ok r)
    (h' : coaddSingleSlice (freshEnv w { t with cfg := cfg }) i seed' = .ok r')
    (hno : (usedWeights r').length = (usedWeights r).length) :
    r'.pix = r.pix ∧ r'.weights = r.weights ∧ usedWeights r' = usedWeights r := by
  refine C153_pixels hv hro ?_ cfg hl hce h h' hno
  intro ra dec raPsf decPsf s hs bm hb
  obtain ⟨e, he, rfl⟩ := List.mem_map.1 hs
  cases hc : (seInit w.disk e.src e.offset t.wcs t.psf).out with
  | error x =>
    obtain ⟨hr, -⟩ := freshSrc_error (w := w) (t := t) (e := e) ra dec raPsf decPsf hc
    rw [hr] at hb
    cases hb
  | ok con =>
    unfold freshSrc at hb
    rw [hc] at hb
    exact hm e he bm hb

end Pizza
