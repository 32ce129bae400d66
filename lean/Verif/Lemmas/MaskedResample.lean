import Verif.Lemmas.MaskedBuild
import Verif.Props.Slice

/-! Resampling and coadding of slices that agree. -/

namespace Pizza

theorem ext_congr {n : Nat} {a a' : Img ℚ} (h : AgreeOff n (fun _ _ => False) a a') (r c : ℤ) :
    ext a r c = ext a' r c := by
  unfold ext Img.getZ?
  rw [h.1.1, h.1.2, h.2.1.1, h.2.1.2]
  by_cases hr : 0 ≤ r ∧ r < (n : ℤ) ∧ 0 ≤ c ∧ c < (n : ℤ)
  · rw [if_pos hr, if_pos hr, h.2.2 r.toNat (by omega) c.toNat (by omega) id]
  · rw [if_neg hr, if_neg hr]

theorem lanczosAt_congr {n : Nat} {a a' : Img ℚ} (h : AgreeOff n (fun _ _ => False) a a') :
    lanczosAt a = lanczosAt a' := by
  funext p
  rcases p with _ | ⟨y, x⟩
  · rfl
  · unfold lanczosAt lanczosSum
    simp only [ext_congr h, h.1.1, h.1.2, h.2.1.1, h.2.1.2]

theorem divArea_rel {n box : Nat} {a a' : Img ℚ} {ar : Nat → Nat → ℚ}
    (h : AgreeOff n (fun _ _ => False) a a') :
    ExR (AgreeOff box fun _ _ => False) (divArea a ar box) (divArea a' ar box) := by
  unfold divArea
  rw [h.1.1, h.1.2, h.2.1.1, h.2.1.2]
  by_cases hb : n = box ∧ n = box
  · rw [if_pos hb, if_pos hb]
    refine .ok ⟨⟨rfl, rfl⟩, ⟨rfl, rfl⟩, fun i hi j hj _ => ?_⟩
    simp only
    rw [h.2.2 i (by omega) j (by omega) id]
  · rw [if_neg hb, if_neg hb]
    exact .error _

theorem resampleOne_congr {n selfBox box : Nat} {a a' : Img ℚ} {ar : Nat → Nat → ℚ}
    {pos : List (Option (ℚ × ℚ))} {ac : List ℚ} (h : AgreeOff n (fun _ _ => False) a a') :
    resampleOne a ar selfBox pos ac box = resampleOne a' ar selfBox pos ac box := by
  unfold resampleOne
  refine ExR.eq ((divArea_rel h).bind fun b b' hb => ?_)
  rw [lanczosNan_eq, lanczosNan_eq, lanczosAt_congr hb]
  exact ExR.refl _ fun _ _ => rfl

theorem resampleAll_congr {n selfBox box : Nat} {l l' : List (Img ℚ)} {ar : Nat → Nat → ℚ}
    {pos : List (Option (ℚ × ℚ))} {ac : List ℚ}
    (h : List.Forall₂ (AgreeOff n fun _ _ => False) l l') :
    l.mapM (fun a => resampleOne a ar selfBox pos ac box) =
      l'.mapM (fun a => resampleOne a ar selfBox pos ac box) := by
  induction h with
  | nil => rfl
  | cons h _ ih => rw [List.mapM_cons, List.mapM_cons, resampleOne_congr h, ih]

theorem nearVal_congr {n : Nat} {a a' : Img (BitVec 32)} (h : AgreeOff n (fun _ _ => False) a a')
    (p : Option (ℚ × ℚ)) : nearVal a p n n = nearVal a' p n n := by
  unfold nearVal
  by_cases hin : nearIn p n n = true
  · rw [if_pos hin, if_pos hin]
    unfold nearIn at hin
    simp only [decide_eq_true_eq] at hin
    exact h.2.2 _ (by omega) _ (by omega) id
  · rw [if_neg hin, if_neg hin]

theorem resample_congr {n : Nat} {o o' : SEObj} (h : UsedR n o o') (w : Lookups) (xs ys : ℚ)
    (box : Nat) (px py : ℚ) (pb : Nat) :
    o.resample w xs ys box px py pb = o'.resample w xs ys box px py pb := by
  obtain ⟨hf, ⟨im, im', ns, ns', e1, e2, e3, e4, hi, hn⟩, ⟨b, eb, sb⟩, io, io', fr, fr', pm, pm',
    f1, f2, f3, f4, f5, f6, hio, hfr, hpm⟩ := h
  unfold SEObj.resample
  rw [← hf.boxSize, ← hf.psfBoxSize, f5, f6]
  cases o.boxSize with
  | none => rfl
  | some selfBox =>
  cases o.psfBoxSize with
  | none => rfl
  | some psb =>
  simp only
  unfold SEObj.resampleGo
  have hpsf : o'.resamplePsf w px py pb 0 0 = o.resamplePsf w px py pb 0 0 := by
    unfold SEObj.resamplePsf
    rw [hf.psfBoxSize, hf.psf, hf.psfXStart, hf.psfYStart]
  rw [hpsf, ← hf.xStart, ← hf.yStart, e1, e2, e3, e4, f1, f2, f3, f4, ← hf.bmask, eb]
  simp only [attr_some, ok_bind]
  refine ExR.eq ?_
  refine ExR.same fun psf _ => ExR.same fun sx _ => ExR.same fun sy _ => ?_
  rw [resampleOne_congr hi]
  refine ExR.same fun rim _ => ?_
  rw [resampleAll_congr hn]
  refine ExR.same fun rns _ => ?_
  refine (divArea_rel hio).bind fun q1 q1' h1 => ?_
  refine (divArea_rel hfr).bind fun q2 q2' h2 => ?_
  rw [lanczosNan2_eq _ _ (h1.1.1.trans h2.1.1.symm) (h1.1.2.trans h2.1.2.symm),
    lanczosNan2_eq _ _ (h1.2.1.1.trans h2.2.1.1.symm) (h1.2.1.2.trans h2.2.1.2.symm),
    lanczosAt_congr h1, lanczosAt_congr h2]
  simp only [ok_bind]
  rw [hpm.1.1, hpm.1.2, hpm.2.1.1, hpm.2.1.2, sb.1, sb.2]
  split
  · exact .error _
  · refine .ok ?_
    congr 1
    congr 1
    funext r c
    rw [nearVal_congr hpm]

/-! ### the whole slice -/

theorem epochRow_kept {e e' : Epoch} (h : EpochR ObjFix e e') (old : EpochRow) (f : BitVec 32) (wt : ℚ) :
    epochRow old e f wt = epochRow old e' f wt := by
  unfold epochRow
  have : e'.src.imageId = e.src.imageId := by rw [h.1]
  rw [h.2.xStart, h.2.yStart, h.2.boxSize, h.2.psfXStart, h.2.psfYStart, h.2.psfBoxSize, this]

theorem setRow_kept {e e' : Epoch} (h : EpochR ObjFix e e') (data : List EpochRow) (loc : Nat)
    (f : BitVec 32) (wt : ℚ) : setRow data loc e f wt = setRow data loc e' f wt := by
  unfold setRow
  simp only [epochRow_kept h]

theorem fillUsed_kept {l l' : List Epoch} (h : List.Forall₂ (EpochR ObjFix) l l') (ws : List ℚ)
    (data : List EpochRow) (loc : Nat) :
    fillUsed data loc (ws.zip l) = fillUsed data loc (ws.zip l') := by
  induction h generalizing ws data loc with
  | nil => rfl
  | cons h _ ih =>
    cases ws with
    | nil => rfl
    | cons w ws =>
      simp only [List.zip_cons_cons, fillUsed]
      rw [setRow_kept h]
      exact ExR.eq (ExR.same fun d _ => by rw [ih]; exact ExR.refl _ fun _ _ => rfl)

theorem fillUnused_kept {l l' : List Epoch} (h : List.Forall₂ (EpochR ObjFix) l l')
    (fs : List (BitVec 32)) (data : List EpochRow) (loc : Nat) :
    fillUnused data loc (fs.zip l) = fillUnused data loc (fs.zip l') := by
  induction h generalizing fs data loc with
  | nil => rfl
  | cons h _ ih =>
    cases fs with
    | nil => rfl
    | cons w fs =>
      simp only [List.zip_cons_cons, fillUnused]
      rw [setRow_kept h]
      exact ExR.eq (ExR.same fun d _ => by rw [ih]; exact ExR.refl _ fun _ _ => rfl)

variable {A σ S : Type}

theorem coaddChosen_congr {v v' : SliceEnv A σ S} (hv : v' = { v with sources := v'.sources })
    {n : Nat} {row : ObjRow} {lay : PsfLayout} {i : Nat} {a a' : Inputs} (h : InputsR n a a') :
    coaddChosen v row lay i a = coaddChosen v' row lay i a' := by
  have hn : v'.nExtra = v.nExtra := by rw [hv]
  have hx : v'.ext = v.ext := by rw [hv]
  have hfx : List.Forall₂ (EpochR ObjFix) a.slices a'.slices := h.slices.imp fun _ _ h => ⟨h.1, h.2.1⟩
  have hinfo : makeEpochsInfo row.id a.weights a.slices a.notUsed a.flags =
      makeEpochsInfo row.id a'.weights a'.slices a'.notUsed a'.flags := by
    unfold makeEpochsInfo
    rw [h.weights, h.flags, h.slices.length_eq, h.notUsed.length_eq]
    simp only
    rw [fillUsed_kept hfx]
    exact ExR.eq (ExR.same fun d _ => by rw [fillUnused_kept h.notUsed]; exact ExR.refl _ fun _ _ => rfl)
  have hres : a.slices.map (resampleEpoch row lay) = a'.slices.map (resampleEpoch row lay) := by
    refine List.forall₂_eq_eq_eq ▸ ?_
    rw [List.forall₂_map_left_iff, List.forall₂_map_right_iff]
    refine h.slices.imp fun e e' he => ?_
    have : e'.src.lookups = e.src.lookups := by rw [he.1]
    unfold resampleEpoch
    rw [this]
    refine ExR.eq (ExR.same fun w _ => ?_)
    rw [resample_congr he.2]
    exact ExR.refl _ fun _ _ => rfl
  unfold coaddChosen
  rw [hinfo, hres, h.weights, hn, hx]

end Pizza
