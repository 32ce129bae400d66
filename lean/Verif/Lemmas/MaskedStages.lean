import Verif.Lemmas.BuildStages
import Verif.Lemmas.BuildCand
import Verif.Lemmas.ExRel
import Verif.Spec.Masked

/-! The stages of the interpolation applied to two sets of arrays that differ only in `Z`. -/

namespace Pizza

/-- Two `n` by `n` arrays that agree except in `Z`. -/
def AgreeOff {α : Type} (n : Nat) (Z : Nat → Nat → Prop) (a a' : Img α) : Prop :=
  a.Sq n ∧ a'.Sq n ∧ ∀ i < n, ∀ j < n, ¬ Z i j → a.px i j = a'.px i j

theorem AgreeOff.mono {α : Type} {n : Nat} {Z Z' : Nat → Nat → Prop} {a a' : Img α}
    (h : AgreeOff n Z a a') (hz : ∀ i < n, ∀ j < n, Z i j → Z' i j) : AgreeOff n Z' a a' :=
  ⟨h.1, h.2.1, fun i hi j hj hn => h.2.2 i hi j hj fun hz' => hn (hz i hi j hj hz')⟩

theorem AgreeOff.refl {α : Type} {n : Nat} {Z : Nat → Nat → Prop} {a : Img α} (h : a.Sq n) :
    AgreeOff n Z a a := ⟨h, h, fun _ _ _ _ _ => rfl⟩

/-- Work arrays that agree except in `Z` (data) and `P` (processing mask). -/
structure WorkR (n : Nat) (Z P : Nat → Nat → Prop) (k k' : Work) : Prop where
  image : AgreeOff n Z k.image k'.image
  noises : List.Forall₂ (AgreeOff n Z) k.noises k'.noises
  pmask : AgreeOff n P k.pmask k'.pmask

theorem WorkR.mono {n : Nat} {Z P Z' P' : Nat → Nat → Prop} {k k' : Work} (h : WorkR n Z P k k')
    (hz : ∀ i < n, ∀ j < n, Z i j → Z' i j) (hp : ∀ i < n, ∀ j < n, P i j → P' i j) :
    WorkR n Z' P' k k' :=
  ⟨h.image.mono hz, h.noises.imp fun _ _ h => h.mono hz, h.pmask.mono hp⟩

/-! ### noise -/

theorem putWhere_agree {n : Nat} {Z : Nat → Nat → Prop} {a a' : Img ℚ} (msk : Nat → Nat → Bool)
    (d : Img ℚ) (h : AgreeOff n Z a a') :
    AgreeOff n (fun i j => Z i j ∧ msk i j = false) (a.putWhere msk d) (a'.putWhere msk d) := by
  refine ⟨h.1, h.2.1, fun i hi j hj hn => ?_⟩
  simp only [Img.putWhere]
  cases hm : msk i j with
  | true => simp
  | false => simpa using h.2.2 i hi j hj fun hz => hn ⟨hz, hm⟩

theorem noiseFill_agree {A σ : Type} {n : Nat} {Z : Nat → Nat → Prop} (x : Ext A σ) (wgt : Img ℚ)
    (msk : Nat → Nat → Bool) {l l' : List (Img ℚ)} (h : List.Forall₂ (AgreeOff n Z) l l') (rng : σ) :
    List.Forall₂ (AgreeOff n fun i j => Z i j ∧ msk i j = false) (noiseFill x wgt msk l rng).1
      (noiseFill x wgt msk l' rng).1 ∧
    (noiseFill x wgt msk l rng).2 = (noiseFill x wgt msk l' rng).2 := by
  induction h generalizing rng with
  | nil => exact ⟨.nil, rfl⟩
  | cons h _ ih =>
    simp only [noiseFill]
    exact ⟨.cons (putWhere_agree _ _ h) (ih _).1, (ih _).2⟩

theorem noiseInterp_rel {A σ : Type} {x : Ext A σ} {flags : BitVec 32} {n : Nat}
    {Z : Nat → Nat → Prop} {im im' : Img ℚ} {ns ns' : List (Img ℚ)} {w : Img ℚ}
    {b : Img (BitVec 32)} {rng : σ} (hb : b.Sq n) (hi : AgreeOff n Z im im')
    (hns : List.Forall₂ (AgreeOff n Z) ns ns') :
    ExR (fun a a' => a.2 = a'.2 ∧
        WorkR n (fun i j => Z i j ∧ ¬ Carries (b.px i j) flags) (fun _ _ => False) a.1 a'.1)
      (noiseInterp x flags im ns w b rng) (noiseInterp x flags im' ns' w b rng) := by
  have key : ∀ i j, (Z i j ∧ hasFlag (b.px i j) flags = false) →
      (Z i j ∧ ¬ Carries (b.px i j) flags) := by
    intro i j ⟨h1, h2⟩
    rw [← hasFlag_iff, h2]
    exact ⟨h1, by simp⟩
  unfold noiseInterp
  simp only
  by_cases h : anyPix b.nrow b.ncol (fun r c => hasFlag (b.px r c) flags) = true
  · rw [if_pos h, if_pos h]
    refine ExR.same fun top _ => ?_
    have hf := noiseFill_agree x (⟨w.nrow, w.ncol, fun r c =>
      if w.px r c ≤ 0 then top else w.px r c⟩ : Img ℚ) (fun r c => hasFlag (b.px r c) flags) hns
      (noiseDraw x (⟨w.nrow, w.ncol, fun r c =>
      if w.px r c ≤ 0 then top else w.px r c⟩ : Img ℚ) rng).2
    refine .ok ⟨hf.2, ?_, ?_, ?_⟩
    · exact (putWhere_agree _ _ hi).mono fun i _ j _ => key i j
    · exact hf.1.imp fun _ _ h => h.mono fun i _ j _ => key i j
    · exact AgreeOff.refl hb
  · rw [if_neg h, if_neg h]
    have hno : ∀ i < n, ∀ j < n, ¬ Carries (b.px i j) flags := by
      intro i hi j hj hc
      exact h ((anyPix_iff _ _ _).2 ⟨i, by rw [hb.1]; exact hi, j, by rw [hb.2]; exact hj,
        (hasFlag_iff _ _).2 hc⟩)
    refine .ok ⟨rfl, hi.mono fun i hi j hj hz => ⟨hz, hno i hi j hj⟩,
      hns.imp fun _ _ h => h.mono fun i hi j hj hz => ⟨hz, hno i hi j hj⟩, AgreeOff.refl hb⟩

/-! ### edges -/

theorem changed_congr {a a' b b' : Img ℚ} {as as' bs bs' : List (Img ℚ)} {r c : Nat}
    (ha : a.px r c = a'.px r c) (hb : b.px r c = b'.px r c)
    (has : List.Forall₂ (fun u v : Img ℚ => u.px r c = v.px r c) as as')
    (hbs : List.Forall₂ (fun u v : Img ℚ => u.px r c = v.px r c) bs bs') :
    changed a b as bs r c = changed a' b' as' bs' r c := by
  unfold changed
  rw [ha, hb]
  congr 1
  induction has generalizing bs bs' with
  | nil => rfl
  | cons h _ ih =>
    cases hbs with
    | nil => rfl
    | cons h' t' =>
      simp only [List.zipWith_cons_cons, List.any_cons, id]
      rw [h, h', ih t']

theorem edge4_agree {n : Nat} {Z : Nat → Nat → Prop} {w : Img ℚ} {b : Img (BitVec 32)}
    {flags : BitVec 32} (hw : w.Sq n) (hn : 2 ≤ n)
    (hz : ∀ i < n, ∀ j < n, Z i j → Unusable w b flags (i, j)) {a a' : Img ℚ}
    (h : AgreeOff n Z a a') :
    AgreeOff n (fun i j => Z i j ∧ Unusable (edge4 w b flags w) (edge4 w b flags b) flags (i, j))
      (edge4 w b flags a) (edge4 w b flags a') := by
  have hr : 2 ≤ w.nrow := by rw [hw.1]; exact hn
  have hc : 2 ≤ w.ncol := by rw [hw.2]; exact hn
  have r1 := edge4_repair w b flags hr hc a
  have r2 := edge4_repair w b flags hr hc a'
  have r3 := edge4_repair w b flags hr hc w
  have r4 := edge4_repair w b flags hr hc b
  refine ⟨⟨r1.1.trans h.1.1, r1.2.1.trans h.1.2⟩, ⟨r2.1.trans h.2.1.1, r2.2.1.trans h.2.1.2⟩,
    fun i hi j hj hne => ?_⟩
  have hi' : i < w.nrow := by rw [hw.1]; exact hi
  have hj' : j < w.ncol := by rw [hw.2]; exact hj
  by_cases hrep : ∃ e, Repaired w b flags e i j
  · obtain ⟨e, he⟩ := hrep
    rw [(r1.2.2 i hi' j hj').1 e he, (r2.2.2 i hi' j hj').1 e he]
    have hin := inner_inRange w hr hc e i j he.1
    rw [hw.1, hw.2] at hin ⊢
    refine h.2.2 _ hin.1 _ hin.2 fun hzz => he.2.2 ?_
    have := hz _ hin.1 _ hin.2 hzz
    rwa [hw.1, hw.2]
  · have hrep' : ∀ e, ¬ Repaired w b flags e i j := fun e he => hrep ⟨e, he⟩
    rw [(r1.2.2 i hi' j hj').2 hrep', (r2.2.2 i hi' j hj').2 hrep']
    refine h.2.2 i hi j hj fun hzz => hne ⟨hzz, ?_⟩
    have := hz i hi j hj hzz
    unfold Unusable at this ⊢
    simp only at this ⊢
    rw [(r3.2.2 i hi' j hj').2 hrep', (r4.2.2 i hi' j hj').2 hrep']
    exact this

theorem agree_px {n : Nat} {Z : Nat → Nat → Prop} {l l' : List (Img ℚ)} {i j : Nat}
    (h : List.Forall₂ (AgreeOff n Z) l l') (hi : i < n) (hj : j < n) (hz : ¬ Z i j) :
    List.Forall₂ (fun u v : Img ℚ => u.px i j = v.px i j) l l' :=
  h.imp fun _ _ h => h.2.2 i hi j hj hz

theorem orWhere_agree {n : Nat} {P Q : Nat → Nat → Prop} {a a' : Img (BitVec 32)}
    {m m' : Nat → Nat → Bool} (flag : BitVec 32) (h : AgreeOff n P a a')
    (hm : ∀ i < n, ∀ j < n, ¬ Q i j → m i j = m' i j) :
    AgreeOff n (fun i j => P i j ∨ Q i j) (a.orWhere m flag) (a'.orWhere m' flag) := by
  refine ⟨h.1, h.2.1, fun i hi j hj hne => ?_⟩
  rw [not_or] at hne
  simp only [Img.orWhere]
  rw [h.2.2 i hi j hj hne.1, hm i hi j hj hne.2]

theorem edgeStage_rel {on : Bool} {flags : BitVec 32} {n : Nat} {Z P : Nat → Nat → Prop}
    {k k' : Work} {w : Img ℚ} {b : Img (BitVec 32)} (hw : w.Sq n) (hb : b.Sq n)
    (hz : ∀ i < n, ∀ j < n, Z i j → Unusable w b flags (i, j)) (h : WorkR n Z P k k') :
    ExR (fun a a' => a.2 = a'.2 ∧ a.2.1.Sq n ∧ a.2.2.1.Sq n ∧
        (on = false → a.2 = (w, b, false)) ∧
        WorkR n (fun i j => Z i j ∧ Unusable a.2.1 a.2.2.1 flags (i, j))
          (fun i j => P i j ∨ (on = true ∧ Z i j)) a.1 a'.1)
      (edgeStage on flags k w b) (edgeStage on flags k' w b) := by
  unfold edgeStage
  cases on with
  | false =>
    simp only [Bool.false_eq_true, if_false]
    refine .ok ⟨rfl, hw, hb, fun _ => rfl, h.mono (fun i hi j hj hzz => ⟨hzz, hz i hi j hj hzz⟩)
      fun i hi j hj hp => .inl hp⟩
  | true =>
    simp only [if_true]
    by_cases hn : 2 ≤ n
    · have hr : 2 ≤ w.nrow := by rw [hw.1]; exact hn
      have hc : 2 ≤ w.ncol := by rw [hw.2]; exact hn
      rw [copyMaskedEdges_eq _ _ _ _ _ hr hc, copyMaskedEdges_eq _ _ _ _ _ hr hc, ok_bind, ok_bind]
      refine ExR.same fun bad _ => ?_
      have r3 := edge4_repair w b flags hr hc w
      have r4 := edge4_repair w b flags hr hc b
      have hns : List.Forall₂ (AgreeOff n fun i j => Z i j ∧
          Unusable (edge4 w b flags w) (edge4 w b flags b) flags (i, j))
          (k.noises.map (edge4 w b flags)) (k'.noises.map (edge4 w b flags)) := by
        rw [List.forall₂_map_left_iff, List.forall₂_map_right_iff]
        exact h.noises.imp fun _ _ h => edge4_agree hw hn hz h
      refine .ok ⟨rfl, ⟨r3.1.trans hw.1, r3.2.1.trans hw.2⟩, ⟨r4.1.trans hb.1, r4.2.1.trans hb.2⟩,
        (fun h => by cases h), edge4_agree hw hn hz h.image, hns, ?_⟩
      refine (orWhere_agree (Q := Z) _ h.pmask fun i hi j hj hzz => ?_).mono fun i hi j hj hp => ?_
      · exact changed_congr (h.image.2.2 i hi j hj hzz)
          ((edge4_agree hw hn hz h.image).2.2 i hi j hj fun h => hzz h.1)
          (agree_px h.noises hi hj hzz) (agree_px hns hi hj fun h => hzz h.1)
      · exact hp.imp id fun h => ⟨trivial, h⟩
    · rw [C25_too_small _ _ _ _ _ (by have := hw.1; omega), C25_too_small _ _ _ _ _ (by have := hw.1; omega)]
      exact .error _

/-! ### spline -/

theorem good_agree {n : Nat} {Z : Nat → Nat → Prop} {m : Img Bool} {G : List (Nat × Nat)}
    (hm : m.Sq n) (hz : ∀ i < n, ∀ j < n, Z i j → m.px i j = true)
    (hG : ∀ q ∈ G, GoodAt m q) {a a' : Img ℚ} (h : AgreeOff n Z a a') :
    (G.map fun p => a.px p.1 p.2) = G.map fun p => a'.px p.1 p.2 := by
  refine List.map_congr_left fun q hq => ?_
  obtain ⟨⟨h1, h2⟩, h3⟩ := hG q hq
  rw [hm.1] at h1
  rw [hm.2] at h2
  refine h.2.2 _ h1 _ h2 fun hzz => ?_
  rw [hz _ h1 _ h2 hzz] at h3
  cases h3

theorem filled_agree {n : Nat} {Z : Nat → Nat → Prop} {m : Img Bool} (hm : m.Sq n)
    (hz : ∀ i < n, ∀ j < n, Z i j → m.px i j = true) {a a' im im' : Img ℚ} {f : Nat × Nat → ℚ}
    (h : AgreeOff n Z a a') (h1 : FilledBy m a im f) (h2 : FilledBy m a' im' f) :
    AgreeOff n (fun _ _ => False) im im' := by
  refine ⟨⟨h1.1.trans h.1.1, h1.2.1.trans h.1.2⟩, ⟨h2.1.trans h.2.1.1, h2.2.1.trans h.2.1.2⟩,
    fun i hi j hj _ => ?_⟩
  have hir : InRange m.nrow m.ncol (i, j) := ⟨by rw [hm.1]; exact hi, by rw [hm.2]; exact hj⟩
  cases hp : m.px i j with
  | true => rw [(h1.2.2 (i, j)).1 ⟨hir, hp⟩, (h2.2.2 (i, j)).1 ⟨hir, hp⟩]
  | false =>
    rw [(h1.2.2 (i, j)).2 ⟨hir, hp⟩, (h2.2.2 (i, j)).2 ⟨hir, hp⟩]
    refine h.2.2 i hi j hj fun hzz => ?_
    rw [hz i hi j hj hzz] at hp
    cases hp

theorem interpOne_rel {σ : Type} {interp : List (Nat × Nat) → List ℚ → Except Err (Nat × Nat → ℚ)}
    {normal : σ → Nat → ℚ → List ℚ × σ} {n : Nat} {Z : Nat → Nat → Prop} {m : Img Bool}
    {G : List (Nat × Nat)} (hm : m.Sq n) (hz : ∀ i < n, ∀ j < n, Z i j → m.px i j = true)
    (hG : ∀ q ∈ G, GoodAt m q) (wt : ℚ) (rng : Option σ) {a a' : Img ℚ} (h : AgreeOff n Z a a') :
    ExR (fun o o' => o.2 = o'.2 ∧ AgreeOff n (fun _ _ => False) o.1 o'.1)
      (interpOne interp normal a (maskedList m) G m none wt rng)
      (interpOne interp normal a' (maskedList m) G m none wt rng) := by
  have e := good_agree hm hz hG h
  rcases interpOne_spec interp normal a G m wt rng with ⟨x, h1, h2⟩ | ⟨im, ⟨f, h1, h1'⟩, h2⟩ <;>
  rcases interpOne_spec interp normal a' G m wt rng with ⟨x', k1, k2⟩ | ⟨im', ⟨f', k1, k1'⟩, k2⟩ <;>
  rw [e, k1] at h1
  · cases h1; rw [h2, k2]; exact .error _
  · cases h1
  · cases h1
  · cases h1; rw [h2, k2]; exact .ok ⟨rfl, filled_agree hm hz h h1' k1'⟩

theorem interpAll_rel {σ : Type} {Z Z' : Img ℚ → Img ℚ → Prop}
    {one : Img ℚ → Option σ → Except Err (Img ℚ × Option σ)}
    (h1 : ∀ a a' rng, Z a a' → ExR (fun o o' => o.2 = o'.2 ∧ Z' o.1 o'.1) (one a rng) (one a' rng))
    {l l' : List (Img ℚ)} (h : List.Forall₂ Z l l') (rng : Option σ) :
    ExR (fun o o' => o.2 = o'.2 ∧ List.Forall₂ Z' o.1 o'.1) (interpAll one l rng)
      (interpAll one l' rng) := by
  induction h generalizing rng with
  | nil => exact .ok ⟨rfl, .nil⟩
  | cons h _ ih =>
    unfold interpAll
    refine (h1 _ _ rng h).bind fun o o' ho => ?_
    obtain ⟨o, r⟩ := o
    obtain ⟨o', r'⟩ := o'
    obtain ⟨rfl, ho⟩ := ho
    refine (ih r).bind fun p p' hp => ?_
    obtain ⟨p, r⟩ := p
    obtain ⟨p', r'⟩ := p'
    obtain ⟨rfl, hp⟩ := hp
    exact .ok ⟨rfl, .cons ho hp⟩

/-- Both nothing, or both related. -/
def OptR {α β : Type} (R : α → β → Prop) : Option α → Option β → Prop
  | none, none => True
  | some a, some b => R a b
  | _, _ => False

theorem interpolate_rel {σ : Type} {interp : List (Nat × Nat) → List ℚ → Except Err (Nat × Nat → ℚ)}
    {normal : σ → Nat → ℚ → List ℚ × σ} {n : Nat} {Z : Nat → Nat → Prop} {w : Img ℚ}
    {b : Img (BitVec 32)} {flags : BitVec 32} {maxfrac : ℚ} {buff isoBuff : ℤ} {rng : Option σ}
    (hw : w.Sq n) (hz : ∀ i < n, ∀ j < n, Z i j → Unusable w b flags (i, j))
    {im im' : Img ℚ} {ns ns' : List (Img ℚ)} (hi : AgreeOff n Z im im')
    (hns : List.Forall₂ (AgreeOff n Z) ns ns') :
    ExR (fun o o' => OptR (fun p p' => AgreeOff n (fun _ _ => False) p.1 p'.1 ∧
        List.Forall₂ (AgreeOff n fun _ _ => False) p.2 p'.2) o.1 o'.1)
      (interpolateImageAndNoise interp normal im ns w b flags rng maxfrac buff false isoBuff)
      (interpolateImageAndNoise interp normal im' ns' w b flags rng maxfrac buff false isoBuff) := by
  unfold interpolateImageAndNoise
  set m := badMaskOf w b flags with hmd
  have hm : m.Sq n := hw
  have hz' : ∀ i < n, ∀ j < n, Z i j → m.px i j = true := fun i hi j hj h =>
    (badMaskOf_iff w b flags (i, j)).2 (hz i hi j hj h)
  simp only
  by_cases h0 : maskSum m ≠ 0
  · rw [if_pos h0, if_pos h0]
    by_cases h1 : ((maskSum m : ℚ) / ((m.nrow * m.ncol : Nat) : ℚ) > maxfrac ∨ maskSum m = m.nrow * m.ncol)
    · rw [if_pos h1, if_pos h1]
      exact .ok trivial
    · rw [if_neg h1, if_neg h1, getNearby_ok]
      obtain ⟨G, g1, g2⟩ := good_list m buff
      simp only [ok_bind, unravel_bad, g1, Bool.false_eq_true, if_false]
      generalize median _ = wt
      have hG : ∀ q ∈ G, GoodAt m q := fun q hq => ((g2.2 q).1 hq).1
      change ExR _ (interpOne interp normal im (maskedList m) G m none wt rng >>= _)
        (interpOne interp normal im' (maskedList m) G m none wt rng >>= _)
      refine ExR.bind (interpOne_rel hm hz' hG wt rng hi) fun o o' ho => ?_
      obtain ⟨o, r⟩ := o
      obtain ⟨o', r'⟩ := o'
      obtain ⟨rfl, ho⟩ := ho
      have hall := interpAll_rel (one := fun a rng => interpOne interp normal a (maskedList m) G m none wt rng)
        (Z' := AgreeOff n fun _ _ => False) (fun a a' rng h => interpOne_rel hm hz' hG wt rng h) hns r
      refine ExR.bind hall fun p p' hp => ?_
      exact .ok ⟨ho, hp.2⟩
  · rw [if_neg h0, if_neg h0]
    have hno : ∀ i < n, ∀ j < n, ¬ Z i j := by
      intro i hi j hj hzz
      apply h0
      rw [← numTrue_eq, numTrue_pos]
      exact ⟨(i, j), ⟨by rw [hm.1]; exact hi, by rw [hm.2]; exact hj⟩, hz' i hi j hj hzz⟩
    exact .ok ⟨hi.mono fun i hi j hj h => hno i hi j hj h,
      hns.imp fun _ _ h => h.mono fun i hi j hj h => hno i hi j hj h⟩

theorem splineStage_rel {A σ : Type} {x : Ext A σ} {flags : BitVec 32} {n : Nat}
    {Z P : Nat → Nat → Prop} {k k' : Work} {w : Img ℚ} {b : Img (BitVec 32)} (hw : w.Sq n)
    (hz : ∀ i < n, ∀ j < n, Z i j → Unusable w b flags (i, j)) (h : WorkR n Z P k k') :
    ExR (OptR (WorkR n (fun _ _ => False) fun i j => P i j ∨
        (Z i j ∧ ¬ w.px i j < 0 ∧ ¬ Carries (b.px i j) flags)))
      (splineStage x flags k w b) (splineStage x flags k' w b) := by
  unfold splineStage
  refine ExR.bind (interpolate_rel hw hz h.image h.noises) fun o o' ho => ?_
  obtain ⟨o, r⟩ := o
  obtain ⟨o', r'⟩ := o'
  simp only at ho ⊢
  cases o with
  | none =>
    cases o' with
    | none => exact .ok trivial
    | some p => exact ho.elim
  | some p =>
    cases o' with
    | none => exact ho.elim
    | some p' =>
      obtain ⟨im, ns⟩ := p
      obtain ⟨im', ns'⟩ := p'
      simp only [OptR] at ho
      refine .ok ⟨ho.1, ho.2, orWhere_agree _ h.pmask fun i hi j hj hne => ?_⟩
      by_cases hneg : w.px i j < 0
      · simp [hneg]
      · by_cases hc : Carries (b.px i j) flags
        · rw [(hasFlag_iff _ _).2 hc]; simp
        · have hzz : ¬ Z i j := fun hzz => hne ⟨hzz, hneg, hc⟩
          congr 1
          exact changed_congr (ho.1.2.2 i hi j hj id) (h.image.2.2 i hi j hj hzz)
            (agree_px ho.2 hi hj id) (agree_px h.noises hi hj hzz)

end Pizza
