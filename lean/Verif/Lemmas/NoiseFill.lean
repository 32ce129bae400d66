import Verif.Props.BuildInputs

/-! Which random numbers the noise interpolation of `_build_slice_inputs` uses. -/

namespace Pizza

/-- `RandomState.normal(size=(nrow, ncol))` as a stream `z` of normals read in row order; the state is
the number of normals drawn so far. -/
def streamNormals (z : Nat → ℚ) (k nrow ncol : Nat) : Img ℚ × Nat :=
  (⟨nrow, ncol, fun r c => z (k + r * ncol + c)⟩, k + nrow * ncol)

theorem noiseFill_stream {A : Type} {x : Ext A Nat} {z : Nat → ℚ} (hz : x.normals = streamNormals z)
    {n : Nat} {wgt : Img ℚ} (hw : wgt.Sq n) (msk : Nat → Nat → Bool) (l : List (Img ℚ)) (k : Nat) :
    (noiseFill x wgt msk l k).2 = k + l.length * (n * n) ∧
    (noiseFill x wgt msk l k).1.length = l.length ∧
    ∀ f a, (noiseFill x wgt msk l k).1[f]? = some a → ∀ r c, msk r c = true →
      a.px r c = z (k + f * (n * n) + r * n + c) * x.invSqrt (wgt.px r c) := by
  induction l generalizing k with
  | nil => simp [noiseFill]
  | cons b l ih =>
    obtain ⟨i1, i2, i3⟩ := ih (k + n * n)
    have hd : noiseDraw x wgt k = (⟨n, n, fun r c => z (k + r * n + c) * x.invSqrt (wgt.px r c)⟩, k + n * n) := by
      unfold noiseDraw
      rw [hz, hw.1, hw.2]; rfl
    unfold noiseFill
    simp only [hd]
    refine ⟨by rw [i1, List.length_cons]; ring, by simp [i2], ?_⟩
    intro f a ha r c hm
    cases f with
    | zero =>
      simp only [List.getElem?_cons_zero, Option.some.injEq] at ha
      subst ha
      simp [Img.putWhere, hm]
    | succ f =>
      rw [List.getElem?_cons_succ] at ha
      rw [i3 f a ha r c hm]
      congr 2
      ring

/-- The numbers a slice with mask `b` uses up: none without noise flags. -/
def DrawsFor (n nfields : Nat) (flags : BitVec 32) (b : Img (BitVec 32)) (k k' : Nat) : Prop :=
  ((∃ r < n, ∃ c < n, Carries (b.px r c) flags) → k' = k + (1 + nfields) * (n * n)) ∧
  (¬ (∃ r < n, ∃ c < n, Carries (b.px r c) flags) → k' = k)

theorem DrawsFor.le {n nf : Nat} {flags : BitVec 32} {b : Img (BitVec 32)} {k k' : Nat}
    (h : DrawsFor n nf flags b k k') : k ≤ k' := by
  by_cases hc : ∃ r < n, ∃ c < n, Carries (b.px r c) flags
  · rw [h.1 hc]; omega
  · rw [h.2 hc]

theorem noiseInterp_stream {A : Type} {x : Ext A Nat} {z : Nat → ℚ} (hz : x.normals = streamNormals z)
    {n : Nat} {flags : BitVec 32} {image : Img ℚ} {noises : List (Img ℚ)} {weight : Img ℚ}
    {bmask : Img (BitVec 32)} {k : Nat} (hw : weight.Sq n) (hb : bmask.Sq n) {out : Work × Nat}
    (h : noiseInterp x flags image noises weight bmask k = .ok out) :
    DrawsFor n noises.length flags bmask k out.2 ∧ out.1.noises.length = noises.length ∧
    ∀ r < n, ∀ c < n, Carries (bmask.px r c) flags → 0 < weight.px r c →
      out.1.image.px r c = z (k + r * n + c) * x.invSqrt (weight.px r c) ∧
      ∀ f a, out.1.noises[f]? = some a →
        a.px r c = z (k + (f + 1) * (n * n) + r * n + c) * x.invSqrt (weight.px r c) := by
  unfold noiseInterp at h
  simp only at h
  have any : anyPix bmask.nrow bmask.ncol (fun r c => hasFlag (bmask.px r c) flags) = true ↔
      ∃ r < n, ∃ c < n, Carries (bmask.px r c) flags := by
    rw [anyPix_iff, hb.1, hb.2]
    simp only [hasFlag_iff]
  split at h
  · rename_i hany
    obtain ⟨top, _, h⟩ := bind_eq_ok.1 h
    have := Except.ok.inj h
    subst this
    set wgt : Img ℚ := ⟨weight.nrow, weight.ncol, fun r c =>
      if weight.px r c ≤ 0 then top else weight.px r c⟩ with hwgt
    have hsq : wgt.Sq n := hw
    have hd : noiseDraw x wgt k = (⟨n, n, fun r c => z (k + r * n + c) * x.invSqrt (wgt.px r c)⟩, k + n * n) := by
      unfold noiseDraw
      rw [hz, hsq.1, hsq.2]; rfl
    obtain ⟨f1, f2, f3⟩ := noiseFill_stream hz hsq (fun r c => hasFlag (bmask.px r c) flags) noises
      (k + n * n)
    simp only [hd]
    refine ⟨⟨fun _ => by rw [f1]; ring, fun hn => absurd (any.1 hany) hn⟩, f2, ?_⟩
    intro r hr c hc hf hpos
    have hm := (hasFlag_iff (bmask.px r c) flags).2 hf
    have hwv : wgt.px r c = weight.px r c := by
      rw [hwgt]; simp [not_le.2 hpos]
    refine ⟨by simp [Img.putWhere, hm, hwv], ?_⟩
    intro f a ha
    rw [f3 f a ha r c hm, hwv]
    congr 2
    ring
  · rename_i hany
    have := Except.ok.inj h
    subst this
    refine ⟨⟨fun hh => absurd (any.2 hh) hany, fun _ => rfl⟩, rfl, ?_⟩
    intro r hr c hc hf
    exact absurd (any.2 ⟨r, hr, c, hc, hf⟩) hany

/-- A used epoch whose noise-flagged, otherwise good pixels hold the normals from number `k` on, those
before `k'` being used up. -/
def Filled {A : Type} (x : Ext A Nat) (z : Nat → ℚ) (c : BuildCfg A) (n : Nat) (o : SEObj) (k k' : Nat) :
    Prop :=
  ∃ w b im ns, o.weight = some w ∧ o.bmask = some b ∧ o.image = some im ∧ o.noises = some ns ∧
    DrawsFor n ns.length c.noiseFlags b k k' ∧
    ∀ r < n, ∀ j < n, Carries (b.px r j) c.noiseFlags → ¬ Unusable w b c.splineFlags (r, j) →
      im.px r j = z (k + r * n + j) * x.invSqrt (w.px r j) ∧
      ∀ f a, ns[f]? = some a →
        a.px r j = z (k + (f + 1) * (n * n) + r * n + j) * x.invSqrt (w.px r j)

theorem sameAt_get {as bs : List (Img ℚ)} {r c f : Nat} {b : Img ℚ} (h : SameAt as bs r c)
    (hb : bs[f]? = some b) : ∃ a, as[f]? = some a ∧ b.px r c = a.px r c := by
  unfold SameAt at h
  induction h generalizing f with
  | nil => simp at hb
  | cons h1 _ ih =>
    cases f with
    | zero => simp at hb; subst hb; exact ⟨_, rfl, h1⟩
    | succ f => exact ih hb

theorem interpolateCand_stream {A : Type} {x : Ext A Nat} {z : Nat → ℚ} (hz : x.normals = streamNormals z)
    {c : BuildCfg A} {g : Option (Img Bool)}
    {o : SEObj} {w : Img ℚ} {b : Img (BitVec 32)} {rng : Nat} {n : Nat} (hn : 1 ≤ n)
    (hw : w.Sq n) (hb : b.Sq n) {im0 : Img ℚ} {ns0 : List (Img ℚ)} (ho : o.image = some im0)
    (hns : o.noises = some ns0) (how : o.weight = some w) (hob : o.bmask = some b) (hi : im0.Sq n)
    {out : Outcome × Nat} (h : interpolateCand x c g o w b rng = .ok out) :
    rng ≤ out.2 ∧ ∀ o' wt, out.1 = .used o' wt → Filled x z c n o' rng out.2 := by
  unfold interpolateCand at h
  rw [ho, hns] at h
  simp only [attr_some, ok_bind] at h
  obtain ⟨k1, h1, h⟩ := bind_eq_ok.1 h
  obtain ⟨k2, h2, h⟩ := bind_eq_ok.1 h
  obtain ⟨n1, n2, n3⟩ := noiseInterp_stream hz hw hb h1
  obtain ⟨a1, a2, a3, a4⟩ := noiseInterp_ok h1
  have i1 : k1.1.image.Sq n := ⟨a1.1.trans hi.1, a1.2.trans hi.2⟩
  have p1 : k1.1.pmask.Sq n := ⟨a2.1.trans hb.1, a2.2.trans hb.2⟩
  obtain ⟨e1, e2, e3, e4, e5, e6, e7, e8, e9, e10⟩ := edgeStage_ok hw hb p1 i1 hn h2
  split at h
  · rw [← Except.ok.inj h]
    exact ⟨n1.le, fun _ _ h => by cases h⟩
  obtain ⟨k3, h3, h⟩ := bind_eq_ok.1 h
  rcases splineStage_ok e2 e4 e6 h3 with ⟨rfl, _⟩ | ⟨k, rfl, q2, q3, q4, q5, q6⟩
  · simp only at h
    rw [← Except.ok.inj h]
    exact ⟨n1.le, fun _ _ h => by cases h⟩
  simp only at h
  split at h
  · rw [← Except.ok.inj h]
    exact ⟨n1.le, fun _ _ h => by cases h⟩
  split at h
  · cases h
  rename_i o' ho'
  obtain ⟨psf, h4, h⟩ := bind_eq_ok.1 h
  obtain ⟨wt, h5, h⟩ := bind_eq_ok.1 h
  obtain ⟨b1, b2, b3, b4, b5, b6, b7, b8, b9⟩ := setInterp_ok ho'
  rw [← Except.ok.inj h]
  refine ⟨n1.le, fun o'' wt' he => ?_⟩
  cases he
  have hlen : k.noises.length = ns0.length := by
    rw [← q4.length_eq, ← e5.length_eq, n2]
  refine ⟨w, b, k.image, k.noises, b4.trans how, b5.trans hob, b1, b2, by rw [hlen]; exact n1, ?_⟩
  intro r hr j hj hcar hgood
  have hpos : 0 < w.px r j := by
    by_contra hle
    exact hgood (.inl (not_lt.1 hle))
  have hrep : ∀ e, ¬ Repaired w b c.splineFlags e r j := fun e he => hgood (he.2.1 r j he.1)
  obtain ⟨v1, v2⟩ := n3 r hr j hj hcar hpos
  obtain ⟨u1, u2⟩ := (e10 r hr j hj).2.2 (.inr hrep)
  have hgood' : ¬ Unusable k2.2.1 k2.2.2.1 c.splineFlags (r, j) := by
    by_cases hcp : c.copyEdges = true
    · obtain ⟨r1, r2⟩ := e1.1 hcp
      have hrn : r < w.nrow := by rw [hw.1]; exact hr
      have hjn : j < w.ncol := by rw [hw.2]; exact hj
      unfold Unusable at hgood ⊢
      rw [(r1.2.2 r hrn j hjn).2 hrep, (r2.2.2 r hrn j hjn).2 hrep]
      exact hgood
    · rw [(e1.2.1 (by simpa using hcp)).1, (e1.2.1 (by simpa using hcp)).2]
      exact hgood
  obtain ⟨t1, t2⟩ := (q6 r hr j hj).1 hgood'
  refine ⟨by rw [t1, u1, v1], fun f a ha => ?_⟩
  obtain ⟨a', g1, g2⟩ := sameAt_get t2 ha
  obtain ⟨a'', g3, g4⟩ := sameAt_get u2 g1
  rw [g2, g4, v2 f a'' g3]

theorem processCand_stream {A : Type} {x : Ext A Nat} {z : Nat → ℚ} (hz : x.normals = streamNormals z)
    {c : BuildCfg A} {k : Cand} {rng : Nat} {n : Nat}
    (hn : 1 ≤ n) (hk : PrepFacts c n k) (hs : k.src.WellShaped) {out : Outcome × Nat}
    (h : processCand x c k rng = .ok out) :
    rng ≤ out.2 ∧ ∀ o' wt, out.1 = .used o' wt → Filled x z c n o' rng out.2 := by
  obtain ⟨d, w0, d1, d2, d3, d4, d5, d6, d7, d8, d9, d10, d11⟩ := hk.data
  obtain ⟨s1, s2, s3, s4⟩ := d9 hs
  unfold processCand at h
  simp only at h
  obtain ⟨g, h1, h⟩ := bind_eq_ok.1 h
  rw [d4, d5] at h
  simp only [attr_some, ok_bind] at h
  obtain ⟨⟨w, b⟩, h2, h⟩ := bind_eq_ok.1 h
  obtain ⟨skipEdge, h3, h⟩ := bind_eq_ok.1 h
  have hsym : w.Sq n ∧ b.Sq n := by
    obtain ⟨w', b', e, e1, e2, e3, e4, _⟩ := C19_only_adds_masking x.rotate c.symmetrize g
      (c.splineFlags ||| c.noiseFlags) w0 d.bmask (s2.1.trans s2.2.symm) (s3.1.trans s3.2.symm)
    rw [h2] at e
    cases e
    exact ⟨⟨e1.trans s2.1, e2.trans s2.2⟩, ⟨e3.trans s3.1, e4.trans s3.2⟩⟩
  split at h
  · rw [← Except.ok.inj h]
    exact ⟨le_rfl, fun _ _ h => by cases h⟩
  · exact interpolateCand_stream (o := { k.obj with weight := some w, bmask := some b }) hz hn hsym.1
      hsym.2 (by exact d2) (by exact d3) rfl rfl s1 h

/-- The used epochs take their normals from consecutive, disjoint stretches of the stream. -/
def DrawChain {A : Type} (x : Ext A Nat) (z : Nat → ℚ) (c : BuildCfg A) (n : Nat) : Nat → List Epoch → Prop
  | _, [] => True
  | k, e :: l => ∃ a b, k ≤ a ∧ a ≤ b ∧ Filled x z c n e.obj a b ∧ DrawChain x z c n b l

theorem DrawChain.mono {A : Type} {x : Ext A Nat} {z : Nat → ℚ} {c : BuildCfg A} {n k k' : Nat}
    {l : List Epoch} (hk : k ≤ k') (h : DrawChain x z c n k' l) : DrawChain x z c n k l := by
  cases l with
  | nil => trivial
  | cons e l =>
    obtain ⟨a, b, h1, h2⟩ := h
    exact ⟨a, b, hk.trans h1, h2⟩

theorem processAll_stream {A : Type} {x : Ext A Nat} {z : Nat → ℚ} (hz : x.normals = streamNormals z)
    {c : BuildCfg A} {n : Nat} (hn : 1 ≤ n) {l : List Cand} {acc out : Inputs} {rng : Nat}
    (hk : ∀ k ∈ l, PrepFacts c n k ∧ k.src.WellShaped) (h : processAll x c l acc rng = .ok out) :
    ∃ new, out.slices = acc.slices ++ new ∧ DrawChain x z c n rng new := by
  induction l generalizing acc rng with
  | nil =>
    have := Except.ok.inj h
    subst this
    exact ⟨[], by simp, trivial⟩
  | cons k l ih =>
    unfold processAll at h
    obtain ⟨⟨r, rng'⟩, h1, h⟩ := bind_eq_ok.1 h
    obtain ⟨p1, p2⟩ := processCand_stream hz hn (hk k (by simp)).1 (hk k (by simp)).2 h1
    obtain ⟨new, e1, e2⟩ := ih (fun k' hk' => hk k' (by simp [hk'])) h
    cases r with
    | used o wt =>
      refine ⟨⟨k.src, o⟩ :: new, ?_, rng, rng', le_rfl, p1, p2 o wt rfl, e2⟩
      rw [e1]; simp [Inputs.add]
    | unused o f => exact ⟨new, e1, e2.mono p1⟩

theorem DrawChain.base {A : Type} {x : Ext A Nat} {z : Nat → ℚ} {c : BuildCfg A} {n k : Nat}
    {l : List Epoch} (h : DrawChain x z c n k l) :
    ∃ base : Nat → Nat, ∀ i e, l[i]? = some e → k ≤ base i ∧ ∃ next, base i ≤ next ∧
      Filled x z c n e.obj (base i) next ∧ ∀ j e', i < j → l[j]? = some e' → next ≤ base j := by
  induction l generalizing k with
  | nil => exact ⟨fun _ => 0, by simp⟩
  | cons e l ih =>
    obtain ⟨a, b, h1, h2, h3, h4⟩ := h
    obtain ⟨base, hb⟩ := ih h4
    refine ⟨fun i => match i with | 0 => a | i + 1 => base i, ?_⟩
    intro i e' he
    cases i with
    | zero =>
      simp at he
      subst he
      refine ⟨h1, b, h2, h3, ?_⟩
      intro j e' hj he'
      cases j with
      | zero => omega
      | succ j => exact (hb j e' (by simpa using he')).1
    | succ i =>
      obtain ⟨g1, next, g2, g3, g4⟩ := hb i e' (by simpa using he)
      refine ⟨h1.trans (h2.trans g1), next, g2, g3, ?_⟩
      intro j e'' hj he''
      cases j with
      | zero => omega
      | succ j => exact g4 j e'' (by omega) (by simpa using he'')

end Pizza
