import Verif.Props.Interp2
import Verif.Props.LoadInfo
import Verif.Props.FilesExamples
import Verif.Model.SEObject

/-!
C160: doing a step again.
-/

namespace Pizza

/-! ### copying into masked edges -/

/-- **C160, edges.**  A second pass over the edges finds nothing more to copy. -/
theorem C160_copy_edges {V : Type} (image : Img V) (noises : List (Img V)) (weight : Img ℚ) (bmask : Img (BitVec 32))
    (flags : BitVec 32) (hi : image.nrow = weight.nrow ∧ image.ncol = weight.ncol)
    (hb : bmask.nrow = weight.nrow ∧ bmask.ncol = weight.ncol)
    (hns : ∀ n ∈ noises, n.nrow = weight.nrow ∧ n.ncol = weight.ncol) (st : EdgeState V)
    (h : copyMaskedEdges image noises weight bmask flags = .ok st) :
    ∃ st', copyMaskedEdges st.image st.noises st.weight st.bmask flags = .ok st' ∧ st.image.Eqv st'.image ∧
      List.Forall₂ Img.Eqv st.noises st'.noises ∧ st.bmask.Eqv st'.bmask ∧ st.weight.Eqv st'.weight := by
  have hsz : 2 ≤ weight.nrow ∧ 2 ≤ weight.ncol := by
    by_contra hc
    rw [C25_too_small image noises weight bmask flags (by omega)] at h
    cases h
  obtain ⟨s, e, r1, r2, r3, r4, -, r5⟩ := C25_copy_edges image noises weight bmask flags hsz.1 hsz.2
  obtain rfl : s = st := Except.ok.inj (e.symm.trans h)
  -- a pixel that is usable afterwards was usable, or was repaired
  have key : ∀ r < weight.nrow, ∀ c < weight.ncol, (∀ e, ¬ Repaired weight bmask flags e r c) →
      (Unusable s.weight s.bmask flags (r, c) ↔ Unusable weight bmask flags (r, c)) := by
    intro r hr c hc hn
    unfold Unusable
    rw [(r4.2.2 r hr c hc).2 hn, (r3.2.2 r hr c hc).2 hn]
  have back : ∀ r < weight.nrow, ∀ c < weight.ncol, Unusable s.weight s.bmask flags (r, c) →
      Unusable weight bmask flags (r, c) := by
    intro r hr c hc hu
    by_cases hn : ∀ e, ¬ Repaired weight bmask flags e r c
    · exact (key r hr c hc hn).1 hu
    · push Not at hn
      obtain ⟨e, he⟩ := hn
      exact (r5 e r c he).1
  have none' : ∀ e r c, ¬ Repaired s.weight s.bmask flags e r c := by
    rintro e r c ⟨hon, hbad, hin⟩
    rw [r4.1, r4.2.1] at hon hin
    have hbad0 : EdgeBad weight bmask flags e := fun r' c' h' =>
      back r' h'.1 c' h'.2.1 (hbad r' c' (by rw [r4.1, r4.2.1]; exact h'))
    -- every inner neighbour was unusable
    have hinner : ∀ r' c', e.On weight.nrow weight.ncol r' c' →
        Unusable weight bmask flags (e.Inner weight.nrow weight.ncol r' c') := by
      intro r' c' h'
      by_contra hc
      exact (r5 e r' c' ⟨h', hbad0, hc⟩).2.2 hbad
    obtain ⟨hr, hc, hon'⟩ := hon
    -- so the inner neighbour was repaired through another edge
    have hq : ∀ q : Nat × Nat, q = e.Inner weight.nrow weight.ncol r c → q.1 < weight.nrow → q.2 < weight.ncol →
        ∃ e', Repaired weight bmask flags e' q.1 q.2 := by
      intro q hq h1 h2
      by_contra hn
      push Not at hn
      exact hin (hq ▸ (key q.1 h1 q.2 h2 hn).2 (hq ▸ hinner r c ⟨hr, hc, hon'⟩))
    cases e with
    | top =>
      obtain ⟨e', ⟨o1, o2, o3⟩, -, hu⟩ := hq _ rfl (by simp only [Edge.Inner]; omega) (by simpa only [Edge.Inner] using hc)
      simp only [Edge.Inner] at o1 o2 o3 hu
      cases e' with
      | top => simp at o3
      | bottom => exact hu ((by rw [show weight.nrow - 2 = 0 by omega] : Unusable weight bmask flags (weight.nrow - 2, c) ↔
          Unusable weight bmask flags (0, c)).2 (hbad0 0 c ⟨by omega, hc, rfl⟩))
      | left => exact hu (hinner 0 1 ⟨by omega, by omega, rfl⟩)
      | right => exact hu (hinner 0 (weight.ncol - 2) ⟨by omega, by omega, rfl⟩)
    | bottom =>
      obtain ⟨e', ⟨o1, o2, o3⟩, -, hu⟩ := hq _ rfl (by simp only [Edge.Inner]; omega) (by simpa only [Edge.Inner] using hc)
      simp only [Edge.Inner] at o1 o2 o3 hu
      cases e' with
      | top => exact hu (hbad0 1 c ⟨by omega, hc, by simp only at o3 ⊢; omega⟩)
      | bottom => simp only at o3; omega
      | left => exact hu (hinner (weight.nrow - 1) 1 ⟨by omega, by omega, by simp only; omega⟩)
      | right => exact hu (hinner (weight.nrow - 1) (weight.ncol - 2) ⟨by omega, by omega, by simp only; omega⟩)
    | left =>
      obtain ⟨e', ⟨o1, o2, o3⟩, -, hu⟩ := hq _ rfl (by simpa only [Edge.Inner] using hr) (by simp only [Edge.Inner]; omega)
      simp only [Edge.Inner] at o1 o2 o3 hu
      cases e' with
      | left => simp at o3
      | right => exact hu ((by rw [show weight.ncol - 2 = 0 by omega] : Unusable weight bmask flags (r, weight.ncol - 2) ↔
          Unusable weight bmask flags (r, 0)).2 (hbad0 r 0 ⟨hr, by omega, rfl⟩))
      | top => exact hu (hinner 1 0 ⟨by omega, by omega, rfl⟩)
      | bottom => exact hu (hinner (weight.nrow - 2) 0 ⟨by omega, by omega, rfl⟩)
    | right =>
      obtain ⟨e', ⟨o1, o2, o3⟩, -, hu⟩ := hq _ rfl (by simpa only [Edge.Inner] using hr) (by simp only [Edge.Inner]; omega)
      simp only [Edge.Inner] at o1 o2 o3 hu
      cases e' with
      | left => exact hu (hbad0 r 1 ⟨hr, by omega, by simp only at o3 ⊢; omega⟩)
      | right => simp only at o3; omega
      | top => exact hu (hinner 1 (weight.ncol - 1) ⟨by omega, by omega, by simp only; omega⟩)
      | bottom => exact hu (hinner (weight.nrow - 2) (weight.ncol - 1) ⟨by omega, by omega, by simp only; omega⟩)
  obtain ⟨s', e', q1, q2, q3, q4, -, -⟩ := C25_copy_edges s.image s.noises s.weight s.bmask flags
    (by rw [r4.1]; exact hsz.1) (by rw [r4.2.1]; exact hsz.2)
  have same : ∀ {α : Type} (a b : Img α), a.nrow = weight.nrow ∧ a.ncol = weight.ncol →
      RepairOf s.weight s.bmask flags a b → a.Eqv b := by
    intro α a b ha hr
    refine ⟨hr.1.symm, hr.2.1.symm, fun r h1 c h2 => ?_⟩
    exact ((hr.2.2 r (by rw [r4.1, ← ha.1]; exact h1) c (by rw [r4.2.1, ← ha.2]; exact h2)).2
      fun e => none' e r c).symm
  refine ⟨s', e', same _ _ ⟨r1.1.trans hi.1, r1.2.1.trans hi.2⟩ q1, ?_, same _ _ ⟨r3.1.trans hb.1, r3.2.1.trans hb.2⟩ q3,
    same _ _ ⟨r4.1, r4.2.1⟩ q4⟩
  have hs : ∀ n ∈ s.noises, n.nrow = weight.nrow ∧ n.ncol = weight.ncol := by
    generalize s.noises = l at r2
    clear e e' q1 q2 q3 q4 h
    induction r2 with
    | nil => intro n hn; cases hn
    | cons hab _ ih =>
      intro n hn
      rcases List.mem_cons.1 hn with rfl | hn
      · have := hns _ List.mem_cons_self
        exact ⟨hab.1.trans this.1, hab.2.1.trans this.2⟩
      · exact ih (fun m hm => hns m (List.mem_cons_of_mem _ hm)) n hn
  generalize s.noises = l at q2 hs
  generalize s'.noises = l' at q2
  clear e e' q1 q3 q4 h
  induction q2 with
  | nil => exact .nil
  | cons hab _ ih =>
    exact .cons (same _ _ (hs _ List.mem_cons_self) hab) (ih fun m hm => hs m (List.mem_cons_of_mem _ hm))

/-! ### interpolation -/

/-- **C160, interpolation.**  Interpolating the interpolated images with the same weight and mask gives them
back. -/
theorem C160_interpolate {V σ : Type} (interp : List (Nat × Nat) → List V → Except Err (Nat × Nat → V))
    (normal : σ → Nat → ℚ → List V × σ) (image : Img V) (noises : List (Img V)) (weight : Img ℚ)
    (bmask : Img (BitVec 32)) (flags : BitVec 32) (rng rng' : Option σ) (maxfrac : ℚ) (buff isoBuff : ℤ)
    (hi : image.nrow = weight.nrow ∧ image.ncol = weight.ncol)
    (hns : ∀ n ∈ noises, n.nrow = weight.nrow ∧ n.ncol = weight.ncol) (im : Img V) (ns : List (Img V))
    (h : interpolateImageAndNoise interp normal image noises weight bmask flags rng maxfrac buff false isoBuff =
      .ok (some (im, ns), rng')) :
    ∃ im' ns', interpolateImageAndNoise interp normal im ns weight bmask flags rng' maxfrac buff false isoBuff =
      .ok (some (im', ns'), rng') ∧ im.Eqv im' ∧ List.Forall₂ Img.Eqv ns ns' := by
  have hm : IsBadMask weight bmask flags (badMaskOf weight bmask flags) :=
    ⟨rfl, rfl, fun p _ => badMaskOf_iff weight bmask flags p⟩
  obtain ⟨m, hme⟩ : ∃ m, m = badMaskOf weight bmask flags := ⟨_, rfl⟩
  rw [← hme] at hm
  have hmr : m.nrow = weight.nrow := hm.1
  have hmc : m.ncol = weight.ncol := hm.2.1
  obtain ⟨o1, o2, o3⟩ := C21_outcome interp normal image noises weight bmask flags rng maxfrac buff isoBuff m hm _ h
  have facts : rng' = rng ∧ (im.nrow = m.nrow ∧ im.ncol = m.ncol ∧ ∀ p, GoodAt m p → image.px p.1 p.2 = im.px p.1 p.2) ∧
      List.Forall₂ (fun a a' : Img V => (a.nrow = m.nrow ∧ a.ncol = m.ncol ∧ a'.nrow = m.nrow ∧ a'.ncol = m.ncol) ∧
        ∀ p, GoodAt m p → a.px p.1 p.2 = a'.px p.1 p.2) noises ns := by
    by_cases hbad : ∃ p, BadAt m p
    · by_cases hg : (¬ ∃ p, GoodAt m p) ∨ (numTrue m : ℚ) / (m.nrow * m.ncol : Nat) > maxfrac
      · cases o2 hbad hg
      · push Not at hg
        obtain ⟨G, -, ⟨im1, ns1, e, f1, f2⟩ | ⟨e, he, -⟩⟩ := o3 hbad hg.1 hg.2
        · cases e
          obtain ⟨f, -, g1, g2, g3⟩ := f1
          refine ⟨rfl, ⟨g1.trans (hi.1.trans hmr.symm), g2.trans (hi.2.trans hmc.symm), fun p hp => ((g3 p).2 hp).symm⟩, ?_⟩
          clear o1 o2 o3 h
          induction f2 with
          | nil => exact .nil
          | cons hab _ ih =>
            obtain ⟨f, -, g1, g2, g3⟩ := hab
            have := hns _ List.mem_cons_self
            exact .cons ⟨⟨this.1.trans hmr.symm, this.2.trans hmc.symm, g1.trans (this.1.trans hmr.symm),
              g2.trans (this.2.trans hmc.symm)⟩, fun p hp => ((g3 p).2 hp).symm⟩
              (ih fun n hn => hns n (List.mem_cons_of_mem _ hn))
        · cases he
    · cases o1 hbad
      refine ⟨rfl, ⟨hi.1.trans hmr.symm, hi.2.trans hmc.symm, fun _ _ => rfl⟩, ?_⟩
      rw [List.forall₂_same]
      intro n hn
      have := hns n hn
      exact ⟨⟨this.1.trans hmr.symm, this.2.trans hmc.symm, this.1.trans hmr.symm, this.2.trans hmc.symm⟩, fun _ _ => rfl⟩
  obtain ⟨rfl, ⟨a1, a2, a3⟩, a4⟩ := facts
  exact C21_ignores_bad_values interp normal image im noises ns weight bmask flags rng' maxfrac buff isoBuff m hm a3
    ⟨hi.1.trans hmr.symm, hi.2.trans hmc.symm, a1, a2⟩ a4 im ns rng' h

/-! ### headers -/

theorem toLower_again (c : Char) : c.toLower.toLower = c.toLower := by
  by_cases h : c.val ≥ 'A'.val ∧ c.val ≤ 'Z'.val
  · have key : ∀ n : Fin 91, 65 ≤ n.val → (Char.ofNat n.val).toLower.toLower = (Char.ofNat n.val).toLower := by
      decide +kernel
    have h1 : 65 ≤ c.toNat := by
      have := UInt32.le_iff_toNat_le.1 h.1
      simpa using this
    have h2 : c.toNat < 91 := by
      have := UInt32.le_iff_toNat_le.1 h.2
      have h3 : c.toNat ≤ 90 := by simpa using this
      omega
    have := key ⟨c.toNat, h2⟩ h1
    simpa only [Char.ofNat_toNat] using this
  · have e : c.toLower = c := by
      unfold Char.toLower
      rw [dif_neg h]
    rw [e, e]

/-- **C160, headers.**  A header that has been normalised is not changed by normalising it. -/
theorem C160_munge {V : Type} (h : Header V) (missing : Err) :
    mungeHeader ⟨(mungeHeader h).map Prod.fst, fun k => match (mungeHeader h).get k with
      | some v => .ok v
      | none => .error missing⟩ = mungeHeader h := by
  have hnd := (C82_munge h).2
  have hlow : ∀ k ∈ (mungeHeader h).map Prod.fst, k.map Char.toLower = k := by
    intro k hk
    obtain ⟨j, -, rfl, -⟩ := (C82_keys h k).1 hk
    rw [List.map_map]
    exact List.map_congr_left fun c _ => toLower_again c
  generalize mungeHeader h = d at hnd hlow
  -- what has been copied so far, and what is left
  suffices ∀ post pre : Dict V, pre ++ post = d → (post.map Prod.fst).foldl (mungeStep ⟨d.map Prod.fst, fun k =>
      match d.get k with
      | some v => .ok v
      | none => .error missing⟩) pre = d from this d [] rfl
  have setEnd : ∀ (pre : Dict V) (k : PyStr) (v : V), k ∉ pre.map Prod.fst → pre.set k v = pre ++ [(k, v)] := by
    intro pre k v hk
    induction pre with
    | nil => rfl
    | cons x l ih =>
      obtain ⟨a, b⟩ := x
      rw [List.map_cons, List.mem_cons] at hk
      push Not at hk
      unfold Dict.set
      rw [if_neg fun e => hk.1 e.symm, ih hk.2]
      rfl
  have getMid : ∀ (pre : Dict V) (k : PyStr) (v : V) (post : Dict V), k ∉ pre.map Prod.fst →
      Dict.get (pre ++ (k, v) :: post) k = some v := by
    intro pre k v post hk
    induction pre with
    | nil => simp [Dict.get]
    | cons x l ih =>
      obtain ⟨a, b⟩ := x
      rw [List.map_cons, List.mem_cons] at hk
      push Not at hk
      have e : Dict.get ((a, b) :: (l ++ (k, v) :: post)) k = Dict.get (l ++ (k, v) :: post) k := by
        have hne : ¬ a = k := fun e => hk.1 e.symm
        simp [Dict.get, hne]
      exact e.trans (ih hk.2)
  intro post
  induction post with
  | nil => intro pre e; simpa using e
  | cons x l ih =>
    intro pre e
    obtain ⟨k, v⟩ := x
    have hk : k ∉ pre.map Prod.fst := by
      intro hk
      rw [← e, List.map_append, List.map_cons] at hnd
      exact (List.nodup_append.1 hnd).2.2 k hk k List.mem_cons_self rfl
    have hkd : k.map Char.toLower = k := hlow k (by rw [← e]; simp)
    rw [List.map_cons, List.foldl_cons]
    have step : mungeStep ⟨d.map Prod.fst, fun k => match d.get k with
        | some v => .ok v
        | none => .error missing⟩ pre k = pre ++ [(k, v)] := by
      unfold mungeStep
      have : d.get k = some v := by rw [← e]; exact getMid pre k v l hk
      simp only [this]
      rw [pyLower, hkd, setEnd pre k v hk]
    rw [step]
    exact ih (pre ++ [(k, v)]) (by rw [← e]; simp)

/-! ### the methods of an SE image -/

/-- **C160, slices.**  A slice that has been read without error replaces whatever slice was read before,
completely or not. -/
theorem C160_set_slice (o : SEObj) (f f0 : SEReads) (scale scale0 : ℚ) (b b0 : Bounds ℤ)
    (h : (o.setSlice f scale b).2 = none) :
    (o.setSlice f0 scale0 b0).1.setSlice f scale b = o.setSlice f scale b := by
  have hs : ∃ im bm w ns, ∀ o' : SEObj, o'.setSlice f scale b =
      ({ o' with xStart := some b.colmin, yStart := some b.rowmin, boxSize := some (b.colmax - b.colmin + 1),
                 image := im, bmask := bm, weight := w, noises := ns }, none) := by
    obtain ⟨fi, fb, fm, fw, fn⟩ := f
    by_cases hb : b.colmax - b.colmin + 1 ≠ b.rowmax - b.rowmin + 1
    · simp [SEObj.setSlice, hb] at h
    cases fi with
    | error e => simp [SEObj.setSlice, hb] at h
    | ok im =>
    cases fb with
    | error e => simp [SEObj.setSlice, hb] at h
    | ok bk =>
    by_cases hsh : im.nrow ≠ bk.nrow ∨ im.ncol ≠ bk.ncol
    · simp only [SEObj.setSlice, hb, hsh, if_false, if_true] at h
      cases h
    cases fm with
    | error e => simp [SEObj.setSlice, hb, hsh] at h
    | ok bm =>
    cases fw with
    | error e => simp [SEObj.setSlice, hb, hsh] at h
    | ok w =>
    cases fn with
    | error e => simp [SEObj.setSlice, hb, hsh] at h
    | ok ns =>
      let d : Img ℚ := ⟨im.nrow, im.ncol, fun r c => im.px r c - bk.px r c⟩
      let box := b.colmax - b.colmin + 1
      refine ⟨some ((d.slice b.rowmin (b.rowmin + box) b.colmin (b.colmin + box)).map (· * scale)),
        some (bm.slice b.rowmin (b.rowmin + box) b.colmin (b.colmin + box)),
        some ((w.slice b.rowmin (b.rowmin + box) b.colmin (b.colmin + box)).map (· / scale ^ 2)),
        some (ns.map fun n => n.slice b.rowmin (b.rowmin + box) b.colmin (b.colmin + box)), fun o' => ?_⟩
      simp only [SEObj.setSlice, if_neg hb, if_neg hsh]
      rfl
  obtain ⟨im, bm, w, ns, e⟩ := hs
  rw [e, e]
  -- the attributes that `set_slice` does not assign
  have keep : ∀ o' : SEObj, (o'.setSlice f0 scale0 b0).1.psf = o'.psf ∧ (o'.setSlice f0 scale0 b0).1.psfXStart = o'.psfXStart ∧
      (o'.setSlice f0 scale0 b0).1.psfYStart = o'.psfYStart ∧ (o'.setSlice f0 scale0 b0).1.psfBoxSize = o'.psfBoxSize ∧
      (o'.setSlice f0 scale0 b0).1.interpFrac = o'.interpFrac ∧ (o'.setSlice f0 scale0 b0).1.origImage = o'.origImage ∧
      (o'.setSlice f0 scale0 b0).1.interpOnlyImage = o'.interpOnlyImage ∧ (o'.setSlice f0 scale0 b0).1.pmask = o'.pmask := by
    intro o'
    unfold SEObj.setSlice
    repeat' split
    all_goals (first | exact ⟨rfl, rfl, rfl, rfl, rfl, rfl, rfl, rfl⟩ | (dsimp only; repeat' split) <;> exact ⟨rfl, rfl, rfl, rfl, rfl, rfl, rfl, rfl⟩)
  obtain ⟨k1, k2, k3, k4, k5, k6, k7, k8⟩ := keep o
  rw [k1, k2, k3, k4, k5, k6, k7, k8]

/-- **C160, PSFs.**  A PSF that has been drawn without error replaces whatever PSF was drawn before. -/
theorem C160_set_psf (o : SEObj) (x y x0 y0 : ℚ) (flag flag0 : Except Err Bool) (psf psf0 : Except Err (Img ℚ)) (out : Bool)
    (h : (o.setPsf x y flag psf).2 = .ok out) :
    (o.setPsf x0 y0 flag0 psf0).1.setPsf x y flag psf = o.setPsf x y flag psf := by
  cases flag with
  | error e => cases h
  | ok fl =>
  cases psf with
  | error e => cases h
  | ok im =>
  unfold SEObj.setPsf at h ⊢
  dsimp only at h ⊢
  cases hq : psfStampBounds x y im.nrow with
  | error e => rw [hq] at h; cases h
  | ok q =>
    dsimp only
    cases flag0 <;> cases psf0 <;> dsimp only
    cases psfStampBounds x0 y0 _ <;> rfl

/-- **C160, interpolated data.**  Handing over the same interpolated images, noise images and mask once more changes one
attribute only: the image taken for the original one is then the interpolated image. -/
theorem C160_set_interp (o : SEObj) (im : Img ℚ) (ns : List (Img ℚ)) (mask : Img (BitVec 32))
    (h : (o.setInterp im ns mask).2 = none) :
    (o.setInterp im ns mask).1.setInterp im ns mask = ({ (o.setInterp im ns mask).1 with origImage := some im }, none) := by
  unfold SEObj.setInterp at h ⊢
  cases ho : o.image with
  | none => rw [ho] at h; cases h
  | some a =>
    rw [ho] at h
    dsimp only at h ⊢
    by_cases h1 : mask.nrow ≠ a.nrow ∨ mask.ncol ≠ a.ncol
    · rw [if_pos h1] at h; cases h
    · by_cases h2 : mask.nrow ≠ im.nrow ∨ mask.ncol ≠ im.ncol
      · rw [if_neg h1, if_pos h2] at h; cases h
      · rw [if_neg h1, if_neg h2]
        dsimp only
        rw [if_neg h2, if_neg h2]
        push Not at h1 h2
        rw [← h1.1, ← h1.2, ← h2.1, ← h2.2]

/-! ### runs -/

/-- **C160, runs.**  Two runs that compute the same and return leave the same files, whatever the FITS file, the compressed
file and the output were before: those of an earlier run, of a run that was cut short, or none. -/
theorem C160_run {D : Type} (env : FsEnv D) (dir : FPath) (n : String) (tmpdir : Option FPath) (c : Compute D) (pk : Fpack D)
    (rm : Bool) (valid : D → Bool) (fs fs' : FS D) (hwf : fs.WF) (hwf' : fs'.WF) (hpk : pk.left.isSome = true)
    (hsame : SameFilesExcept [tmpdir.getD dir ++ [n], tmpdir.getD dir ++ [n ++ ".fz"], dir ++ [n ++ ".fz"]] fs' fs)
    (hok : (publishRun env (dir ++ [n]) tmpdir c pk rm valid fs).out = .ok ())
    (hok' : (publishRun env (dir ++ [n]) tmpdir c pk rm valid fs').out = .ok ()) :
    ∀ q, (publishRun env (dir ++ [n]) tmpdir c pk rm valid fs').fs.files q =
      (publishRun env (dir ++ [n]) tmpdir c pk rm valid fs).fs.files q := by
  intro q
  obtain ⟨-, x, hx, -, o1⟩ := C77_fresh_partial env dir n tmpdir c pk rm valid fs hwf hok (.inl hpk)
  obtain ⟨-, x', hx', -, o2⟩ := C77_fresh_partial env dir n tmpdir c pk rm valid fs' hwf' hok' (.inl hpk)
  obtain rfl : x = x' := Option.some.inj (hx.symm.trans hx')
  obtain ⟨a1, a2, a3⟩ := C105_files env dir n tmpdir c pk rm valid fs hwf hok _ rfl
  obtain ⟨b1, b2, b3⟩ := C105_files env dir n tmpdir c pk rm valid fs' hwf' hok' _ rfl
  by_cases h1 : q = dir ++ [n ++ ".fz"]
  · rw [h1, o1, o2]
  · by_cases h2 : q = tmpdir.getD dir ++ [n]
    · rw [h2, a1, b1]
    · by_cases h3 : q = tmpdir.getD dir ++ [n ++ ".fz"]
      · have hd : tmpdir.getD dir ≠ dir := fun e => h1 (by rw [h3, e])
        rw [h3, a2 hd, b2 hd]
      · have hq : q ∉ [tmpdir.getD dir ++ [n], tmpdir.getD dir ++ [n ++ ".fz"], dir ++ [n ++ ".fz"]] := by
          simp only [List.mem_cons, List.not_mem_nil, or_false]
          tauto
        rw [a3 q hq, b3 q hq, hsame q hq]

/-! ### examples -/

/-- `C160_run`: a run over an old output, and one over nothing. -/
example := C160_run (exEnv true) ["out"] "x.fits" (some ["tmp"]) ⟨"fits", none⟩ ⟨true, some "packed"⟩ true (fun _ => true)
  (exFS (some "old") none) (exFS none none) (exFS_wf _ _) (exFS_wf _ _) rfl
  (fun q hq => by
    have h : q ≠ ["out", "x.fits.fz"] := fun e => hq (by rw [e]; decide)
    simp [exFS, h]) (by decide +kernel) (by decide +kernel)

/-- The weight of a 3 x 3 image whose first row is masked. -/
def exAgainWeight : Img ℚ := ⟨3, 3, fun r _ => if r = 0 then 0 else 1⟩

/-- An image of 3 x 3 pixels. -/
def exAgainImage : Img ℚ := ⟨3, 3, fun r c => 10 * (r : ℚ) + c⟩

/-- An empty mask. -/
def exAgainMask : Img (BitVec 32) := ⟨3, 3, fun _ _ => 0⟩

/-- An interpolator that takes the mean. -/
def exAgainInterp (_ : List (Nat × Nat)) (l : List ℚ) : Except Err (Nat × Nat → ℚ) := .ok fun _ => l.sum / (l.length : ℚ)

/-- No random numbers are needed. -/
def exAgainNormal (s : Unit) (_ : Nat) (_ : ℚ) : List ℚ × Unit := ([], s)

/-- `C160_copy_edges`: the first pass copies the second row into the first. -/
example : ∃ st st' : EdgeState ℚ, copyMaskedEdges exAgainImage [] exAgainWeight exAgainMask 1 = .ok st ∧
    st.image.px 0 2 = 12 ∧ copyMaskedEdges st.image st.noises st.weight st.bmask 1 = .ok st' ∧ st.image.Eqv st'.image := by
  have key : (match copyMaskedEdges exAgainImage [] exAgainWeight exAgainMask 1 with
      | .ok st => decide (st.image.px 0 2 = 12)
      | _ => false) = true := by decide +kernel
  generalize hr : copyMaskedEdges exAgainImage [] exAgainWeight exAgainMask 1 = res at key
  match res, key with
  | .ok st, key =>
    obtain ⟨st', h1, h2, -⟩ := C160_copy_edges exAgainImage [] exAgainWeight exAgainMask 1 ⟨rfl, rfl⟩ ⟨rfl, rfl⟩
      (fun _ h => absurd h List.not_mem_nil) st hr
    exact ⟨st, st', rfl, of_decide_eq_true key, h1, h2⟩

/-- `C160_interpolate`: the pixels of the first row get the mean of the good pixels close to them. -/
example : ∃ im im' : Img ℚ, ∃ ns',
    interpolateImageAndNoise exAgainInterp exAgainNormal exAgainImage [] exAgainWeight exAgainMask 1 none 1 1 false 1 =
      .ok (some (im, []), none) ∧ im.px 0 2 = 11 ∧
    interpolateImageAndNoise exAgainInterp exAgainNormal im [] exAgainWeight exAgainMask 1 none 1 1 false 1 =
      .ok (some (im', ns'), none) ∧ im.Eqv im' := by
  have key : (match interpolateImageAndNoise exAgainInterp exAgainNormal exAgainImage [] exAgainWeight exAgainMask 1 none 1 1
      false 1 with
      | .ok (some (im, []), none) => decide (im.px 0 2 = 11)
      | _ => false) = true := by decide +kernel
  generalize hr : interpolateImageAndNoise exAgainInterp exAgainNormal exAgainImage [] exAgainWeight exAgainMask 1 none 1 1
      false 1 = res at key
  match res, key with
  | .ok (some (im, []), none), key =>
    obtain ⟨im', ns', h1, h2, -⟩ := C160_interpolate exAgainInterp exAgainNormal exAgainImage [] exAgainWeight exAgainMask 1
      none none 1 1 1 ⟨rfl, rfl⟩ (fun _ h => absurd h List.not_mem_nil) im [] hr
    exact ⟨im, im', ns', rfl, of_decide_eq_true key, h1, h2⟩

/-- `C160_munge`: two forms of one key. -/
example : mungeHeader (V := ℤ) ⟨["NAXIS1".toList, "naxis1".toList], fun k => .ok k.length⟩ = [("naxis1".toList, 6)] ∧
    mungeHeader (V := ℤ) ⟨["naxis1".toList], fun k => match Dict.get [("naxis1".toList, (6 : ℤ))] k with
      | some v => .ok v
      | none => .error .keyError⟩ = [("naxis1".toList, 6)] := by decide +kernel

example := C160_munge (V := ℤ) ⟨["NAXIS1".toList, "naxis1".toList], fun k => .ok k.length⟩ .keyError

/-- The files of an SE image of 4 x 4 pixels without noise images. -/
def exAgainReads : SEReads :=
  ⟨.ok ⟨4, 4, fun r c => 10 * (r : ℚ) + c⟩, .ok ⟨4, 4, fun _ _ => 1⟩, .ok ⟨4, 4, fun _ _ => 0⟩, .ok ⟨4, 4, fun _ _ => 4⟩, .ok []⟩

/-- `C160_set_slice`: after another slice, and after one whose mask could not be read. -/
example := C160_set_slice {} exAgainReads { exAgainReads with bmask := .error .ioError } 2 3 ⟨1, 2, 1, 2⟩ ⟨0, 2, 0, 2⟩ rfl

example : (({} : SEObj).setSlice exAgainReads 2 ⟨1, 2, 1, 2⟩).1.image.map (·.px 1 0) = some 40 := by decide +kernel

/-- `C160_set_psf`: a stamp of 3 x 3 pixels after one of 5 x 5 pixels. -/
example := C160_set_psf {} 10 20 5 5 (.ok false) (.ok true) (.ok ⟨3, 3, fun _ _ => 1 / 9⟩) (.ok ⟨5, 5, fun _ _ => 1 / 25⟩) false
  (by decide +kernel)

/-- `C160_set_interp` on an image of 2 x 2 pixels of which one has been interpolated. -/
example : (({ image := some ⟨2, 2, fun _ _ => 5⟩ } : SEObj).setInterp ⟨2, 2, fun _ _ => 7⟩ [] ⟨2, 2, fun r c => if r = c then 1 else 0⟩).2 = none :=
  rfl

end Pizza
