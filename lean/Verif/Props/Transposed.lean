import Verif.Lemmas.ExRel
import Verif.Props.Coadd
import Verif.Props.Resample
import Verif.Props.Flags
import Verif.Props.SEGeom
import Verif.Lemmas.WcsGrid
import Verif.Spec.Transposed

/-! C159: rows and columns are treated alike. -/

namespace Pizza

theorem ExR.bothOk {α β : Type} {R : α → β → Prop} {a : Except Err α} {b : Except Err β} (h : ExR R a b) : BothOk R a b := by
  cases h with
  | ok h => exact .ok _ _ h
  | error e => exact .error e

theorem BothOk.exR {α β : Type} {R : α → β → Prop} {a : Except Err α} {b : Except Err β} (h : BothOk R a b) : ExR R a b := by
  cases h with
  | ok _ _ h => exact .ok h
  | error e => exact .error e

section
variable {K : Type} [Field K] [LinearOrder K] [IsStrictOrderedRing K] [FloorRing K]

theorem ext_transposed {a b : Img K} (h : Transposed a b) (r c : ℤ) : ext b c r = ext a r c := by
  by_cases hin : 0 ≤ r ∧ r < a.nrow ∧ 0 ≤ c ∧ c < a.ncol
  · obtain ⟨h0, h1, h2, h3⟩ := hin
    rw [ext_in a h0 h1 h2 h3, ext_in b h2 (by rw [h.nrow]; exact h3) h0 (by rw [h.ncol]; exact h1)]
    exact h.px _ (by omega) _ (by omega)
  · rw [ext_out a hin, ext_out b (by rw [h.nrow, h.ncol]; tauto)]

theorem lanczosSum_transposed {im im' : Img K} (h : Transposed im im') (a : ℤ) (y x : K) :
    lanczosSum im' a x y = lanczosSum im a y x := by
  unfold lanczosSum
  rw [Finset.sum_comm]
  refine Finset.sum_congr rfl fun r _ => Finset.sum_congr rfl fun c _ => ?_
  rw [ext_transposed h, mul_comm (kern a (y - r))]

theorem outOfBounds_swap (nx ny xs xf ys yf : ℤ) : outOfBounds ny nx ys yf xs xf = outOfBounds nx ny xs xf ys yf := by
  rw [Bool.eq_iff_iff]
  simp only [outOfBounds, Bool.or_eq_true, decide_eq_true_eq]
  tauto

/-- C159: `lanczos_resample` of the transposed image at the transposed position gives the same value and flag. -/
theorem C159_lanczos (im im' : Img K) (h : Transposed im im') (a : ℤ) (y x v : K) (e : Bool)
    (hv : Resampled im a y x v e) : Resampled im' a x y v e := by
  rw [resampled_iff] at hv ⊢
  obtain ⟨h1, h2, h3⟩ := hv
  rw [lanczosSum_transposed h, h.nrow, h.ncol, outOfBounds_swap]
  exact ⟨h1, h2, h3⟩

end

theorem lanczosAt_transposed {a b : Img ℚ} (h : Transposed a b) (p : Option (ℚ × ℚ)) :
    lanczosAt b (p.map Prod.swap) = lanczosAt a p := by
  rcases p with _ | ⟨y, x⟩
  · rfl
  · simp only [Option.map_some, Prod.swap, lanczosAt]
    rw [lanczosSum_transposed h, h.nrow, h.ncol, outOfBounds_swap]

theorem localPos_transposed {w w' : Lookups} (h : TransposedLookups w w') (xs ys sx sy : ℚ) (r c : Nat) :
    localPos w' ys xs sy sx c r = (localPos w xs ys sx sy r c).map Prod.swap := by
  unfold localPos
  rw [h.toSe, Option.map_map, Option.map_map]
  rfl

theorem nearIn_swap (p : Option (ℚ × ℚ)) (n m : Nat) : nearIn (p.map Prod.swap) m n = nearIn p n m := by
  unfold nearIn
  simp only [Option.map_map]
  rw [Bool.eq_iff_iff]
  simp only [decide_eq_true_eq]
  rcases p with _ | ⟨y, x⟩
  · simp only [Option.map_none]; tauto
  · simp only [Option.map_some, Function.comp, Prod.swap]; tauto

theorem nearVal_transposed {a b : Img (BitVec 32)} (h : Transposed a b) (p : Option (ℚ × ℚ)) (n m : Nat)
    (hp : nearIn p n m = true → nearIn p a.nrow a.ncol = true) :
    nearVal b (p.map Prod.swap) m n = nearVal a p n m := by
  unfold nearVal
  rw [nearIn_swap]
  split
  · rename_i hin
    have := hp hin
    unfold nearIn at this
    simp only [decide_eq_true_eq] at this
    rcases p with _ | ⟨y, x⟩
    · simp only [Option.map_none] at this ⊢
      exact h.px _ (by omega) _ (by omega)
    · simp only [Option.map_some, Prod.swap] at this ⊢
      exact h.px _ (by omega) _ (by omega)
  · rfl

theorem reshape_transposed {α : Type} [Inhabited α] (n : Nat) (f g : Nat → Nat → α) (h : ∀ r c, g c r = f r c) :
    Transposed (reshape n (gridList n f)) (reshape n (gridList n g)) :=
  ⟨rfl, rfl, fun r hr c hc => by
    rw [reshape_gridList _ _ (show r < n from hr) (show c < n from hc), reshape_gridList _ _ (show c < n from hc) (show r < n from hr), h]⟩

theorem timesArea_transposed (n : Nat) (f g a b : Nat → Nat → ℚ) (h : ∀ r c, g c r = f r c) (hab : ∀ r c, b c r = a r c) :
    Transposed (timesArea n (gridList n f) (gridList n a)) (timesArea n (gridList n g) (gridList n b)) :=
  ⟨rfl, rfl, fun r hr c hc => by
    rw [timesArea_px _ _ _ (show r < n from hr) (show c < n from hc), timesArea_px _ _ _ (show c < n from hc) (show r < n from hr), h, hab]⟩

theorem divArea_transposed {a b : Img ℚ} (h : Transposed a b) (f g : Nat → Nat → ℚ) (hfg : ∀ r c, g c r = f r c) (n : Nat) :
    ExR (fun x y => Transposed x y ∧ x.nrow = n ∧ x.ncol = n) (divArea a f n) (divArea b g n) := by
  unfold divArea
  by_cases hs : a.nrow = n ∧ a.ncol = n
  · rw [if_pos hs, if_pos (by rw [h.nrow, h.ncol]; exact ⟨hs.2, hs.1⟩)]
    refine .ok ⟨⟨rfl, rfl, fun r hr c hc => ?_⟩, rfl, rfl⟩
    show b.px c r / g c r = a.px r c / f r c
    rw [h.px r (by rw [hs.1]; exact hr) c (by rw [hs.2]; exact hc), hfg]
  · rw [if_neg hs, if_neg (by rw [h.nrow, h.ncol]; tauto)]
    exact .error _

theorem resampleOne_transposed {a b : Img ℚ} (h : Transposed a b) (f g : Nat → Nat → ℚ) (hfg : ∀ r c, g c r = f r c) (n box : Nat)
    (p q : Nat → Nat → Option (ℚ × ℚ)) (hpq : ∀ r c, q c r = (p r c).map Prod.swap) (s t : Nat → Nat → ℚ) (hst : ∀ r c, t c r = s r c) :
    ExR (fun x y => Transposed x.1 y.1 ∧ Transposed x.2 y.2 ∧ x.2.nrow = box ∧ x.2.ncol = box) (resampleOne a f n (gridList box p) (gridList box s) box)
      (resampleOne b g n (gridList box q) (gridList box t) box) := by
  unfold resampleOne
  refine (divArea_transposed h f g hfg n).bind fun x y hxy => ?_
  rw [lanczosNan_eq, lanczosNan_eq, ok_bind, ok_bind]
  refine .ok ⟨?_, ?_, rfl, rfl⟩
  · simp only [gridList_map]
    exact timesArea_transposed _ _ _ _ _ (fun r c => by rw [hpq, lanczosAt_transposed hxy.1]) hst
  · simp only [gridList_map]
    exact reshape_transposed _ _ _ fun r c => by rw [hpq, lanczosAt_transposed hxy.1]

theorem resampleAll_transposed {l m : List (Img ℚ)} (h : List.Forall₂ Transposed l m) (box : Nat) (f g : Img ℚ → Except Err (Img ℚ × Img Bool))
    (hfg : ∀ a b, Transposed a b → ExR (fun x y => Transposed x.1 y.1 ∧ Transposed x.2 y.2 ∧ x.2.nrow = box ∧ x.2.ncol = box) (f a) (g b)) :
    ExR (fun x y => List.Forall₂ Transposed (x.map Prod.fst) (y.map Prod.fst)) (l.mapM f) (m.mapM g) := by
  induction h with
  | nil => exact .ok .nil
  | cons h _ ih =>
    rw [List.mapM_cons, List.mapM_cons]
    refine (hfg _ _ h).bind fun x y hxy => ih.bind fun xs ys hs => .ok ?_
    exact .cons hxy.1 hs

theorem attr_rel {α : Type} {R : α → α → Prop} {a b : Option α} (h : Option.Rel R a b) : ExR R (attr a) (attr b) := by
  cases h with
  | some h => exact .ok h
  | none => exact .error _

theorem total_transposed {a b : Img ℚ} (h : Transposed a b) : b.total = a.total := by
  unfold Img.total
  rw [h.nrow, h.ncol, Finset.sum_comm]
  exact Finset.sum_congr rfl fun r hr => Finset.sum_congr rfl fun c hc => h.px r (Finset.mem_range.1 hr) c (Finset.mem_range.1 hc)

/-- Reading two attributes in either order fails alike. -/
theorem attr_swap {α β : Type} {R : β → β → Prop} (a b : Option α) {f g : α → α → Except Err β}
    (h : ∀ x y, ExR R (f x y) (g y x)) : ExR R (attr a >>= fun x => attr b >>= fun y => f x y) (attr b >>= fun y => attr a >>= fun x => g y x) := by
  cases a with
  | none =>
    cases b with
    | none => exact .error _
    | some y => exact .error _
  | some x =>
    cases b with
    | none => exact .error _
    | some y => exact h x y

theorem resamplePsf_transposed {o o' : SEObj} (ho : TransposedObj o o') {w w' : Lookups} (hw : TransposedLookups w w')
    (px py : ℚ) (pb : Nat) (dx dy : ℚ) : ExR Transposed (o.resamplePsf w px py pb dx dy) (o'.resamplePsf w' py px pb dy dx) := by
  unfold SEObj.resamplePsf
  rw [ho.psfBoxSize]
  cases o.psfBoxSize with
  | none => exact .error _
  | some box =>
    refine (attr_rel ho.psf).bind fun a b hab => ?_
    rw [ho.psfXStart, ho.psfYStart]
    refine attr_swap o.psfXStart o.psfYStart fun sx sy => ?_
    refine (divArea_transposed hab _ _ (fun r c => hw.areaSe _ _) box).bind fun x y hxy => ?_
    rw [lanczosNan_eq, lanczosNan_eq, ok_bind, ok_bind]
    simp only [gridList_map]
    have ht := timesArea_transposed pb
      (fun r c => if (lanczosAt x ((localPos w px py sx sy r c).map fun q => (q.1 + dy, q.2 + dx))).2 then 0 else
        (lanczosAt x ((localPos w px py sx sy r c).map fun q => (q.1 + dy, q.2 + dx))).1)
      (fun r c => if (lanczosAt y ((localPos w' py px sy sx r c).map fun q => (q.1 + dx, q.2 + dy))).2 then 0 else
        (lanczosAt y ((localPos w' py px sy sx r c).map fun q => (q.1 + dx, q.2 + dy))).1)
      (fun r c => w.areaCoadd ((c : ℚ) + px) ((r : ℚ) + py)) (fun r c => w'.areaCoadd ((c : ℚ) + py) ((r : ℚ) + px))
      (fun r c => by
        have e : (localPos w' py px sy sx c r).map (fun q => (q.1 + dx, q.2 + dy)) =
            ((localPos w px py sx sy r c).map fun q => (q.1 + dy, q.2 + dx)).map Prod.swap := by
          rw [localPos_transposed hw, Option.map_map, Option.map_map]; rfl
        simp only [e, lanczosAt_transposed hxy.1])
      (fun r c => hw.areaCoadd _ _)
    refine .ok ⟨ht.nrow, ht.ncol, fun r hr c hc => ?_⟩
    simp only [Img.map]
    rw [ht.px r hr c hc, total_transposed ht]

/-- C159: `resample_psf`, with the sub-pixel shifts exchanged too. -/
theorem C159_psf (o o' : SEObj) (ho : TransposedObj o o') (w w' : Lookups) (hw : TransposedLookups w w')
    (px py : ℚ) (pb : Nat) (dx dy : ℚ) : BothOk Transposed (o.resamplePsf w px py pb dx dy) (o'.resamplePsf w' py px pb dy dx) :=
  (resamplePsf_transposed ho hw px py pb dx dy).bothOk

theorem resampleGo_transposed {o o' : SEObj} (ho : TransposedObj o o') {w w' : Lookups} (hw : TransposedLookups w w') (xs ys : ℚ)
    (box : Nat) (px py : ℚ) (pb : Nat) (n : Nat) {pm pm' : Img (BitVec 32)} (hpm : Transposed pm pm') :
    ExR TransposedResampling (o.resampleGo w xs ys box px py pb n pm) (o'.resampleGo w' ys xs box py px pb n pm') := by
  unfold SEObj.resampleGo
  refine (resamplePsf_transposed ho hw px py pb 0 0).bind fun psf psf' hpsf => ?_
  rw [ho.xStart, ho.yStart]
  refine attr_swap o.xStart o.yStart fun sx sy => ?_
  have hp : ∀ r c, localPos w' ys xs sy sx c r = (localPos w xs ys sx sy r c).map Prod.swap := localPos_transposed hw xs ys sx sy
  have hac : ∀ r c : Nat, w'.areaCoadd ((r : ℚ) + ys) ((c : ℚ) + xs) = w.areaCoadd ((c : ℚ) + xs) ((r : ℚ) + ys) := fun r c => hw.areaCoadd _ _
  refine (attr_rel ho.image).bind fun im im' him => ?_
  refine (resampleOne_transposed him _ _ (fun r c => hw.areaSe _ _) n box _ _ hp _ _ hac).bind fun rim rim' hrim => ?_
  refine (attr_rel ho.noises).bind fun ns ns' hns => ?_
  refine (resampleAll_transposed hns box _ _ fun a b hab =>
    resampleOne_transposed hab _ _ (fun r c => hw.areaSe _ _) n box _ _ hp _ _ hac).bind fun rns rns' hrns => ?_
  refine (attr_rel ho.interpOnlyImage).bind fun io io' hio => ?_
  refine (divArea_transposed hio _ _ (fun r c => hw.areaSe _ _) n).bind fun i2 i2' hi2 => ?_
  refine (attr_rel ho.interpFrac).bind fun fr fr' hfr => ?_
  refine (divArea_transposed hfr _ _ (fun r c => hw.areaSe _ _) n).bind fun f2 f2' hf2 => ?_
  rw [lanczosNan2_eq i2 f2 (hi2.2.1.trans hf2.2.1.symm) (hi2.2.2.trans hf2.2.2.symm),
    lanczosNan2_eq i2' f2' (by rw [hi2.1.nrow, hf2.1.nrow, hi2.2.2, hf2.2.2]) (by rw [hi2.1.ncol, hf2.1.ncol, hi2.2.1, hf2.2.1]),
    ok_bind, ok_bind]
  refine (attr_rel ho.bmask).bind fun bm bm' hbm => ?_
  have hany : (anyPix box box fun r c => nearIn (localPos w' ys xs sy sx r c) bm'.nrow bm'.ncol &&
      !nearIn (localPos w' ys xs sy sx r c) pm'.nrow pm'.ncol) = anyPix box box fun r c =>
      nearIn (localPos w xs ys sx sy r c) bm.nrow bm.ncol && !nearIn (localPos w xs ys sx sy r c) pm.nrow pm.ncol := by
    have hcell : ∀ r c, (nearIn (localPos w' ys xs sy sx c r) bm'.nrow bm'.ncol && !nearIn (localPos w' ys xs sy sx c r) pm'.nrow pm'.ncol) =
        (nearIn (localPos w xs ys sx sy r c) bm.nrow bm.ncol && !nearIn (localPos w xs ys sx sy r c) pm.nrow pm.ncol) := by
      intro r c
      rw [hp, hbm.nrow, hbm.ncol, hpm.nrow, hpm.ncol, nearIn_swap, nearIn_swap]
    rw [Bool.eq_iff_iff, anyPix_iff, anyPix_iff]
    constructor
    · rintro ⟨r, hr, c, hc, h⟩
      exact ⟨c, hc, r, hr, by rw [← hcell]; exact h⟩
    · rintro ⟨r, hr, c, hc, h⟩
      exact ⟨c, hc, r, hr, by rw [hcell]; exact h⟩
  rw [hany]
  split
  · exact .error _
  · rename_i hno
    have hin : ∀ r < box, ∀ c < box, nearIn (localPos w xs ys sx sy r c) bm.nrow bm.ncol = true →
        nearIn (localPos w xs ys sx sy r c) pm.nrow pm.ncol = true := by
      intro r hr c hc h
      by_contra hcon
      exact hno ((anyPix_iff _ _ _).2 ⟨r, hr, c, hc, by simp [h, hcon]⟩)
    refine .ok ⟨hpsf, hrim.1, hrns, ?_, ?_, ⟨rfl, rfl, fun r hr c hc => ?_⟩, ⟨rfl, rfl, fun r hr c hc => ?_⟩⟩
    · simp only [gridList_map]
      exact timesArea_transposed _ _ _ _ _ (fun r c => by rw [hp, lanczosAt_transposed hi2.1]) hac
    · simp only [gridList_map]
      exact timesArea_transposed _ _ _ _ _ (fun r c => by rw [hp, lanczosAt_transposed hf2.1]) hac
    · show nearVal bm' (localPos w' ys xs sy sx c r) bm'.nrow bm'.ncol = _
      rw [hp, hbm.nrow, hbm.ncol, nearVal_transposed hbm _ _ _ id]
    · show (if rim'.2.px c r then nearVal pm' (localPos w' ys xs sy sx c r) bm'.nrow bm'.ncol ||| BMASK_RESAMPLE_BOUNDS
        else nearVal pm' (localPos w' ys xs sy sx c r) bm'.nrow bm'.ncol) =
        if rim.2.px r c then nearVal pm (localPos w xs ys sx sy r c) bm.nrow bm.ncol ||| BMASK_RESAMPLE_BOUNDS
        else nearVal pm (localPos w xs ys sx sy r c) bm.nrow bm.ncol
      rw [hrim.2.1.px r (by rw [hrim.2.2.1]; exact hr) c (by rw [hrim.2.2.2]; exact hc), hp, hbm.nrow, hbm.ncol,
        nearVal_transposed hpm _ _ _ (hin r hr c hc)]

/-- C159: resampling a transposed slice with transposed WCSs onto the transposed grid gives the transposed arrays, or the same error. -/
theorem C159_resample (o o' : SEObj) (ho : TransposedObj o o') (w w' : Lookups) (hw : TransposedLookups w w') (xs ys : ℚ) (box : Nat)
    (px py : ℚ) (pb : Nat) :
    BothOk TransposedResampling (o.resample w xs ys box px py pb) (o'.resample w' ys xs box py px pb) := by
  refine ExR.bothOk ?_
  unfold SEObj.resample
  rw [ho.boxSize, ho.psfBoxSize]
  cases o.boxSize with
  | none => exact .error _
  | some n =>
    cases o.psfBoxSize with
    | none => exact .error _
    | some m =>
      have hp := ho.pmask
      revert hp
      generalize o.pmask = p
      generalize o'.pmask = p'
      intro hp
      cases hp with
      | none => exact .error _
      | some h => exact resampleGo_transposed ho hw xs ys box px py pb n.toNat h

/-! ### the calls that lead to a resampling -/

theorem slice_transposed {α : Type} {a b : Img α} (h : Transposed a b) (r0 r1 c0 c1 : ℤ) :
    Transposed (a.slice r0 r1 c0 c1) (b.slice c0 c1 r0 r1) := by
  unfold Img.slice
  dsimp only
  rw [h.nrow, h.ncol]
  refine ⟨rfl, rfl, fun r hr c hc => ?_⟩
  dsimp only at hr hc ⊢
  have hlt : ∀ (n : Nat) (i : ℤ), pySliceIdx n i ≤ n := by
    intro n i
    unfold pySliceIdx
    split
    · omega
    · exact min_le_right _ _
  have h1 := hlt a.nrow r1
  have h2 := hlt a.ncol c1
  exact h.px _ (by omega) _ (by omega)

theorem map_transposed {α β : Type} {a b : Img α} (h : Transposed a b) (f : α → β) : Transposed (a.map f) (b.map f) :=
  ⟨h.nrow, h.ncol, fun r hr c hc => congrArg f (h.px r hr c hc)⟩

theorem setSlice_transposed {o o' : SEObj} (ho : TransposedObj o o') {f f' : SEReads} (hf : TransposedReads f f') (scale : ℚ)
    {b b' : Bounds ℤ} (hb : TransposedBox b b') :
    TransposedObj (o.setSlice f scale b).1 (o'.setSlice f' scale b').1 ∧ (o'.setSlice f' scale b').2 = (o.setSlice f scale b).2 := by
  obtain ⟨b1, b2, b3, b4⟩ := hb
  unfold SEObj.setSlice
  dsimp only
  rw [b1, b2, b3, b4]
  by_cases hbox : b.colmax - b.colmin + 1 ≠ b.rowmax - b.rowmin + 1
  · rw [if_pos hbox, if_pos (Ne.symm hbox)]
    exact ⟨ho, rfl⟩
  have hbox' : ¬ b.rowmax - b.rowmin + 1 ≠ b.colmax - b.colmin + 1 := fun h => hbox (Ne.symm h)
  rw [if_neg hbox, if_neg hbox']
  have hside : b.colmax - b.colmin + 1 = b.rowmax - b.rowmin + 1 := not_not.1 hbox
  obtain ⟨fi, fb, fm, fw, fn⟩ := f
  obtain ⟨fi', fb', fm', fw', fn'⟩ := f'
  obtain ⟨h1, h2, h3, h4, h5⟩ := hf
  dsimp only at h1 h2 h3 h4 h5 ⊢
  rw [hside]
  cases h1 with
  | error e => exact ⟨{ ho with xStart := rfl, yStart := rfl, boxSize := rfl }, rfl⟩
  | ok im im' him =>
  cases h2 with
  | error e => exact ⟨{ ho with xStart := rfl, yStart := rfl, boxSize := rfl }, rfl⟩
  | ok bk bk' hbk =>
  dsimp only
  rw [him.nrow, him.ncol, hbk.nrow, hbk.ncol]
  by_cases hs : im.nrow ≠ bk.nrow ∨ im.ncol ≠ bk.ncol
  · rw [if_pos hs, if_pos hs.symm]
    exact ⟨{ ho with xStart := rfl, yStart := rfl, boxSize := rfl }, rfl⟩
  rw [if_neg hs, if_neg (fun h => hs h.symm)]
  push Not at hs
  have hd : Transposed (⟨im.nrow, im.ncol, fun r c => im.px r c - bk.px r c⟩ : Img ℚ)
      ⟨im.ncol, im.nrow, fun r c => im'.px r c - bk'.px r c⟩ := by
    refine ⟨rfl, rfl, fun r hr c hc => ?_⟩
    show im'.px c r - bk'.px c r = im.px r c - bk.px r c
    rw [him.px r hr c hc, hbk.px r (by rw [← hs.1]; exact hr) c (by rw [← hs.2]; exact hc)]
  have hi := map_transposed (slice_transposed hd b.rowmin (b.rowmin + (b.rowmax - b.rowmin + 1)) b.colmin
    (b.colmin + (b.rowmax - b.rowmin + 1))) (· * scale)
  cases h3 with
  | error e => exact ⟨{ ho with xStart := rfl, yStart := rfl, boxSize := rfl, image := .some hi }, rfl⟩
  | ok bm bm' hbm =>
  have hm := slice_transposed hbm b.rowmin (b.rowmin + (b.rowmax - b.rowmin + 1)) b.colmin (b.colmin + (b.rowmax - b.rowmin + 1))
  cases h4 with
  | error e => exact ⟨{ ho with xStart := rfl, yStart := rfl, boxSize := rfl, image := .some hi, bmask := .some hm }, rfl⟩
  | ok wt wt' hwt =>
  have hw := map_transposed (slice_transposed hwt b.rowmin (b.rowmin + (b.rowmax - b.rowmin + 1)) b.colmin
    (b.colmin + (b.rowmax - b.rowmin + 1))) (· / scale ^ 2)
  cases h5 with
  | error e =>
    exact ⟨{ ho with xStart := rfl, yStart := rfl, boxSize := rfl, image := .some hi, bmask := .some hm, weight := .some hw }, rfl⟩
  | ok ns ns' hns =>
    refine ⟨{ ho with xStart := rfl, yStart := rfl, boxSize := rfl, image := .some hi, bmask := .some hm, weight := .some hw, noises := .some ?_ }, rfl⟩
    rw [List.forall₂_map_left_iff, List.forall₂_map_right_iff]
    exact hns.imp fun _ _ h => slice_transposed h _ _ _ _

theorem psfStampBounds_swap (x y : ℚ) (n : ℤ) : psfStampBounds y x n = (psfStampBounds x y n).map Prod.swap := by
  unfold psfStampBounds
  dsimp only
  by_cases h1 : ((⌊y + 1/2⌋ : ℤ) : ℚ) - ((n : ℚ) - 1) / 2 ≠ (truncQ (((⌊y + 1/2⌋ : ℤ) : ℚ) - ((n : ℚ) - 1) / 2) : ℚ)
  · rw [if_pos h1]
    split <;> rfl
  · rw [if_neg h1]
    by_cases h2 : ((⌊x + 1/2⌋ : ℤ) : ℚ) - ((n : ℚ) - 1) / 2 ≠ (truncQ (((⌊x + 1/2⌋ : ℤ) : ℚ) - ((n : ℚ) - 1) / 2) : ℚ)
    · rw [if_pos h2, if_pos h2, if_neg h1]; rfl
    · rw [if_neg h2, if_neg h2, if_neg h1]; rfl

theorem setPsf_transposed {o o' : SEObj} (ho : TransposedObj o o') (x y : ℚ) (flag : Except Err Bool) {psf psf' : Except Err (Img ℚ)}
    (h : BothOk (fun a b => Transposed a b ∧ a.nrow = a.ncol) psf psf') :
    TransposedObj (o.setPsf x y flag psf).1 (o'.setPsf y x flag psf').1 ∧ (o'.setPsf y x flag psf').2 = (o.setPsf x y flag psf).2 := by
  unfold SEObj.setPsf
  cases flag with
  | error e => exact ⟨ho, rfl⟩
  | ok fl =>
    cases h with
    | error e => exact ⟨ho, rfl⟩
    | ok a b hab =>
      dsimp only
      rw [show b.nrow = a.nrow by rw [hab.1.nrow, hab.2], psfStampBounds_swap x y]
      cases psfStampBounds x y a.nrow with
      | error e => exact ⟨ho, rfl⟩
      | ok p => exact ⟨{ ho with psf := .some hab.1, psfXStart := rfl, psfYStart := rfl, psfBoxSize := rfl }, rfl⟩

theorem setInterp_transposed {o o' : SEObj} (ho : TransposedObj o o') {im im' : Img ℚ} (hi : Transposed im im') {ns ns' : List (Img ℚ)}
    (hn : List.Forall₂ Transposed ns ns') {mask mask' : Img (BitVec 32)} (hm : Transposed mask mask') :
    TransposedObj (o.setInterp im ns mask).1 (o'.setInterp im' ns' mask').1 ∧ (o'.setInterp im' ns' mask').2 = (o.setInterp im ns mask).2 := by
  unfold SEObj.setInterp
  have him := ho.image
  revert him
  generalize o.image = a
  generalize o'.image = a'
  intro him
  cases him with
  | none => exact ⟨ho, rfl⟩
  | @some a a' ha =>
    dsimp only
    rw [hm.nrow, hm.ncol, ha.nrow, ha.ncol, hi.nrow, hi.ncol]
    by_cases h1 : mask.nrow ≠ a.nrow ∨ mask.ncol ≠ a.ncol
    · rw [if_pos h1, if_pos h1.symm]
      exact ⟨{ ho with image := .some ha, interpFrac := .some (⟨rfl, rfl, fun _ _ _ _ => rfl⟩) }, rfl⟩
    have h1' : ¬ (mask.ncol ≠ a.ncol ∨ mask.nrow ≠ a.nrow) := fun h => h1 h.symm
    rw [if_neg h1, if_neg h1']
    push Not at h1
    have hfr : Transposed (⟨a.nrow, a.ncol, fun r c => if mask.px r c ≠ 0 then 1 else 0⟩ : Img ℚ)
        ⟨a.ncol, a.nrow, fun r c => if mask'.px r c ≠ 0 then 1 else 0⟩ := by
      refine ⟨rfl, rfl, fun r hr c hc => ?_⟩
      dsimp only at hr hc ⊢
      rw [hm.px r (by rw [h1.1]; exact hr) c (by rw [h1.2]; exact hc)]
    by_cases h2 : mask.nrow ≠ im.nrow ∨ mask.ncol ≠ im.ncol
    · rw [if_pos h2, if_pos h2.symm]
      exact ⟨{ ho with image := .some ha, interpFrac := .some hfr, origImage := .some ha, interpOnlyImage := .some hi }, rfl⟩
    have h2' : ¬ (mask.ncol ≠ im.ncol ∨ mask.nrow ≠ im.nrow) := fun h => h2 h.symm
    rw [if_neg h2, if_neg h2']
    push Not at h2
    refine ⟨{ ho with interpFrac := .some hfr, origImage := .some ha, interpOnlyImage := .some ?_, image := .some hi, noises := .some hn, pmask := .some hm }, rfl⟩
    refine ⟨rfl, rfl, fun r hr c hc => ?_⟩
    dsimp only at hr hc ⊢
    rw [hm.px r (by rw [h2.1]; exact hr) c (by rw [h2.2]; exact hc), hi.px r hr c hc]

theorem call_transposed {o o' : SEObj} (ho : TransposedObj o o') {op op' : SEOp} (h : TransposedOp op op') :
    TransposedObj (o.call op).1 (o'.call op').1 ∧ (o'.call op').2 = (o.call op).2 := by
  cases h with
  | setSlice f f' scale b b' hf hb =>
    obtain ⟨h1, h2⟩ := setSlice_transposed ho hf scale hb
    exact ⟨h1, congrArg Option.isNone h2⟩
  | setPsf x y flag psf psf' h =>
    obtain ⟨h1, h2⟩ := setPsf_transposed ho x y flag h
    refine ⟨h1, ?_⟩
    show (o'.setPsf y x flag psf').2.isOk = (o.setPsf x y flag psf).2.isOk
    rw [h2]
  | setInterp im im' ns ns' mask mask' hi hn hm =>
    obtain ⟨h1, h2⟩ := setInterp_transposed ho hi hn hm
    exact ⟨h1, congrArg Option.isNone h2⟩

theorem after_transposed {ops ops' : List SEOp} (h : List.Forall₂ TransposedOp ops ops') : TransposedObj (SEObj.after ops) (SEObj.after ops') := by
  have : ∀ o o', TransposedObj o o' → TransposedObj (ops.foldl (fun o op => (o.call op).1) o) (ops'.foldl (fun o op => (o.call op).1) o') := by
    induction h with
    | nil => exact fun _ _ h => h
    | cons h _ ih => exact fun o o' ho => ih _ _ (call_transposed ho h).1
  exact this {} {} ⟨rfl, rfl, rfl, rfl, rfl, rfl, .none, .none, .none, .none, .none, .none, .none, .none, .none⟩

/-- C159: after any history of calls, failed ones included, and the same history with rows and columns exchanged: the object is transposed,
the next call returns or raises alike, and the resampled arrays are transposed. -/
theorem C159_history (ops ops' : List SEOp) (h : List.Forall₂ TransposedOp ops ops') :
    TransposedObj (SEObj.after ops) (SEObj.after ops') ∧
    (∀ op op', TransposedOp op op' → ((SEObj.after ops').call op').2 = ((SEObj.after ops).call op).2) ∧
    ∀ w w', TransposedLookups w w' → ∀ (xs ys : ℚ) (box : Nat) (px py : ℚ) (pb : Nat),
      BothOk TransposedResampling ((SEObj.after ops).resample w xs ys box px py pb) ((SEObj.after ops').resample w' ys xs box py px pb) :=
  ⟨after_transposed h, fun _ _ hop => (call_transposed (after_transposed h) hop).2,
    fun w w' hw xs ys box px py pb => C159_resample _ _ (after_transposed h) w w' hw xs ys box px py pb⟩

/-- C159: an image of the coadd, such as the mask of the stars, brought to an SE slice. -/
theorem C159_map_image {α : Type} (o o' : SEObj) (ho : TransposedObj o o') (zero : α) (g g' : Img α) (hg : Transposed g g') (xs ys : ℤ)
    (f f' : ℚ → ℚ → Option (ℚ × ℚ)) (hf : ∀ x y, f' y x = (f x y).map Prod.swap) :
    BothOk Transposed (o.mapImage zero g xs ys f) (o'.mapImage zero g' ys xs f') := by
  refine ExR.bothOk ?_
  unfold SEObj.mapImage
  rw [ho.boxSize]
  cases o.boxSize with
  | none => exact .error _
  | some n =>
    dsimp only
    rw [ho.xStart, ho.yStart]
    refine attr_swap o.xStart o.yStart fun sx sy => .ok ⟨rfl, rfl, fun r hr c hc => ?_⟩
    dsimp only
    rw [hf, Option.map_map, Option.map_map, hg.nrow, hg.ncol]
    have e1 : ((f ((c : ℚ) + sx) ((r : ℚ) + sy)).map ((fun q => q.1 - (ys : ℚ)) ∘ Prod.swap)) =
        (f ((c : ℚ) + sx) ((r : ℚ) + sy)).map fun q => q.2 - (ys : ℚ) := rfl
    have e2 : ((f ((c : ℚ) + sx) ((r : ℚ) + sy)).map ((fun q => q.2 - (xs : ℚ)) ∘ Prod.swap)) =
        (f ((c : ℚ) + sx) ((r : ℚ) + sy)).map fun q => q.1 - (xs : ℚ) := rfl
    rw [e1, e2]
    clear hr hc e1 e2
    generalize roundInt64 ((f ((c : ℚ) + sx) ((r : ℚ) + sy)).map fun q => q.2 - ys) = y
    generalize roundInt64 ((f ((c : ℚ) + sx) ((r : ℚ) + sy)).map fun q => q.1 - xs) = x
    by_cases hin : 0 ≤ x ∧ x < g.ncol ∧ 0 ≤ y ∧ y < g.nrow
    · rw [if_pos hin, if_pos ⟨hin.2.2.1, hin.2.2.2, hin.1, hin.2.1⟩]
      exact hg.px _ (by omega) _ (by omega)
    · rw [if_neg hin, if_neg (fun h => hin ⟨h.2.2.1, h.2.2.2, h.1, h.2.1⟩)]

/-! ### the mean of the epochs -/

theorem zeros_transposed {α : Type} (n : Nat) (v : α) : Transposed (⟨n, n, fun _ _ => v⟩ : Img α) ⟨n, n, fun _ _ => v⟩ :=
  ⟨rfl, rfl, fun _ _ _ _ => rfl⟩

theorem addScaled_transposed {a a' b b' : Img ℚ} (ha : Transposed a a') (hb : Transposed b b') (w : ℚ) :
    ExR (fun x y => Transposed x y ∧ x.nrow = a.nrow ∧ x.ncol = a.ncol) (addScaled a b w) (addScaled a' b' w) := by
  unfold addScaled
  by_cases hs : b.nrow = a.nrow ∧ b.ncol = a.ncol
  · rw [if_pos hs, if_pos (by rw [ha.nrow, ha.ncol, hb.nrow, hb.ncol]; exact ⟨hs.2, hs.1⟩)]
    refine .ok ⟨⟨ha.nrow, ha.ncol, fun r hr c hc => ?_⟩, rfl, rfl⟩
    show a'.px c r + b'.px c r * w = a.px r c + b.px r c * w
    rw [ha.px r hr c hc, hb.px r (by rw [hs.1]; exact hr) c (by rw [hs.2]; exact hc)]
  · rw [if_neg hs, if_neg (by rw [ha.nrow, ha.ncol, hb.nrow, hb.ncol]; tauto)]
    exact .error _

theorem orInto_transposed {a a' b b' : Img (BitVec 32)} (ha : Transposed a a') (hb : Transposed b b') :
    ExR Transposed (orInto a b) (orInto a' b') := by
  unfold orInto
  by_cases hs : b.nrow = a.nrow ∧ b.ncol = a.ncol
  · rw [if_pos hs, if_pos (by rw [ha.nrow, ha.ncol, hb.nrow, hb.ncol]; exact ⟨hs.2, hs.1⟩)]
    refine .ok ⟨ha.nrow, ha.ncol, fun r hr c hc => ?_⟩
    show a'.px c r ||| b'.px c r = a.px r c ||| b.px r c
    rw [ha.px r hr c hc, hb.px r (by rw [hs.1]; exact hr) c (by rw [hs.2]; exact hc)]
  · rw [if_neg hs, if_neg (by rw [ha.nrow, ha.ncol, hb.nrow, hb.ncol]; tauto)]
    exact .error _

/-- Transposed, and `n` by `n`. -/
def TransposedSq (n : Nat) (a b : Img ℚ) : Prop := Transposed a b ∧ a.nrow = n ∧ a.ncol = n

theorem addNoises_transposed {n : Nat} {l l' m m' : List (Img ℚ)} (hl : List.Forall₂ (TransposedSq n) l l')
    (hm : List.Forall₂ Transposed m m') (w : ℚ) : ExR (List.Forall₂ (TransposedSq n)) (addNoises w l m) (addNoises w l' m') := by
  induction hl generalizing m m' with
  | nil =>
    unfold addNoises
    exact .ok .nil
  | cons h hl ih =>
    cases hm with
    | nil => exact .error _
    | cons hb hm =>
      unfold addNoises
      refine (addScaled_transposed h.1 hb w).bind fun x y hxy => (ih hm).bind fun s t hst => .ok ?_
      exact .cons ⟨hxy.1, hxy.2.1.trans h.2.1, hxy.2.2.trans h.2.2⟩ hst

/-- The accumulated arrays with rows and columns exchanged. -/
structure TransposedStacks (n : Nat) (s s' : Stacks) : Prop where
  image : Transposed s.image s'.image
  interpFrac : Transposed s.interpFrac s'.interpFrac
  noises : List.Forall₂ (TransposedSq n) s.noises s'.noises
  psf : Transposed s.psf s'.psf
  bmask : Transposed s.bmask s'.bmask
  ormask : Transposed s.ormask s'.ormask

theorem stackStep_transposed {n : Nat} {s s' : Stacks} (hs : TransposedStacks n s s') {d d' : EpochData} (hd : TransposedEpoch d d') (w : ℚ) :
    ExR (TransposedStacks n) (stackStep s d w) (stackStep s' d' w) := by
  unfold stackStep
  refine (addScaled_transposed hs.image hd.image w).bind fun i i' hi => ?_
  refine (addNoises_transposed hs.noises hd.noises w).bind fun ns ns' hns => ?_
  refine (addScaled_transposed hs.interpFrac (map_transposed hd.interpFrac clipFrac) w).bind fun f f' hf => ?_
  refine (addScaled_transposed hs.psf (map_transposed hd.psf _) w).bind fun p p' hp => ?_
  refine (orInto_transposed hs.ormask hd.bmask).bind fun o o' ho => ?_
  refine (orInto_transposed hs.bmask hd.pmask).bind fun b b' hb => .ok ?_
  exact ⟨hi.1, hf.1, hns, hp.1, hb, ho⟩

theorem stackAll_transposed {n : Nat} {l l' : List (Except Err EpochData × ℚ)}
    (hl : List.Forall₂ (fun p q => BothOk TransposedEpoch p.1 q.1 ∧ q.2 = p.2) l l') {s s' : Stacks} (hs : TransposedStacks n s s') :
    ExR (TransposedStacks n) (stackAll s l) (stackAll s' l') := by
  induction hl generalizing s s' with
  | nil => exact .ok hs
  | @cons p q _ _ h _ ih =>
    obtain ⟨d, w⟩ := p
    obtain ⟨d', w'⟩ := q
    obtain ⟨h1, h2⟩ := h
    cases h2
    unfold stackAll
    exact h1.exR.bind fun x y hxy => (stackStep_transposed hs hxy w).bind fun u v huv => ih huv

theorem invVar_transposed {n : Nat} {a b : Img ℚ} (h : TransposedSq n a b) : invVar b = invVar a := by
  obtain ⟨⟨h1, h2, h3⟩, h4, h5⟩ := h
  obtain ⟨ar, ac, f⟩ := a
  obtain ⟨br, bc, g⟩ := b
  dsimp only at h1 h2 h3 h4 h5
  subst h1 h2 h4
  subst h5
  have hsum : ∀ k : ℚ → ℚ, (((⟨br, br, g⟩ : Img ℚ).values).map k).sum = (((⟨br, br, f⟩ : Img ℚ).values).map k).sum := by
    intro k
    rw [(values_sum br g k).1, (values_sum br f k).1, Finset.sum_comm]
    exact Finset.sum_congr rfl fun r hr => Finset.sum_congr rfl fun c hc => by
      rw [h3 r (Finset.mem_range.1 hr) c (Finset.mem_range.1 hc)]
  have hlen : (⟨br, br, g⟩ : Img ℚ).values.length = (⟨br, br, f⟩ : Img ℚ).values.length := by
    rw [(values_sum br g id).2, (values_sum br f id).2]
  have hmean : npMean (⟨br, br, g⟩ : Img ℚ).values = npMean (⟨br, br, f⟩ : Img ℚ).values := by
    have := hsum id
    rw [List.map_id, List.map_id] at this
    unfold npMean
    rw [this, hlen]
  unfold invVar
  dsimp only
  have hnil : (⟨br, br, g⟩ : Img ℚ).values = [] ↔ (⟨br, br, f⟩ : Img ℚ).values = [] := by
    rw [← List.length_eq_zero_iff, hlen, List.length_eq_zero_iff]
  have hvar : npMean ((⟨br, br, g⟩ : Img ℚ).values.map fun x => (x - npMean (⟨br, br, g⟩ : Img ℚ).values) ^ 2) =
      npMean ((⟨br, br, f⟩ : Img ℚ).values.map fun x => (x - npMean (⟨br, br, f⟩ : Img ℚ).values) ^ 2) := by
    rw [hmean]
    unfold npMean
    rw [hsum, List.length_map, List.length_map, hlen]
  rw [hvar]
  by_cases h0 : (⟨br, br, f⟩ : Img ℚ).values = []
  · rw [if_pos h0, if_pos (hnil.2 h0)]
  · rw [if_neg h0, if_neg (fun h => h0 (hnil.1 h))]

/-- C159: coadding transposed epochs gives the transposed coadd, with the same weight map value, or the same error. -/
theorem C159_coadd (box psfBox nExtra : Nat) (data data' : List (Except Err EpochData))
    (h : List.Forall₂ (BothOk TransposedEpoch) data data') (weights : List ℚ) :
    BothOk TransposedCoadd (coaddSliceInputs box psfBox nExtra data weights) (coaddSliceInputs box psfBox nExtra data' weights) := by
  refine ExR.bothOk ?_
  unfold coaddSliceInputs
  dsimp only
  rw [h.length_eq]
  by_cases hlen : data'.length ≠ (weights.map (· / weights.sum)).length
  · rw [if_pos hlen, if_pos hlen]; exact .error _
  rw [if_neg hlen, if_neg hlen]
  by_cases hnil : data = []
  · subst hnil
    cases h
    rw [if_pos rfl]
    exact .error _
  rw [if_neg hnil, if_neg (by rintro rfl; cases h; exact hnil rfl)]
  have hz : List.Forall₂ (fun (p q : Except Err EpochData × ℚ) => BothOk TransposedEpoch p.1 q.1 ∧ q.2 = p.2)
      (data.zip (weights.map (· / weights.sum))) (data'.zip (weights.map (· / weights.sum))) := by
    generalize weights.map (· / weights.sum) = ws
    clear hlen hnil
    induction h generalizing ws with
    | nil => exact .nil
    | cons h _ ih =>
      cases ws with
      | nil => exact .nil
      | cons w ws => exact .cons ⟨h, rfl⟩ (ih ws)
  have hrep : ∀ k, List.Forall₂ (TransposedSq box) (List.replicate k (zerosImg box)) (List.replicate k (zerosImg box)) := by
    intro k
    induction k with
    | zero => exact .nil
    | succ k ih => exact .cons ⟨zeros_transposed box 0, rfl, rfl⟩ ih
  refine (stackAll_transposed hz (n := box) ⟨zeros_transposed _ _, zeros_transposed _ _, hrep _, zeros_transposed _ _, zeros_transposed _ _,
    zeros_transposed _ _⟩).bind fun s s' hs => ?_
  have hns := hs.noises
  have hall : List.Forall₂ Transposed s.noises s'.noises := hns.imp fun _ _ h => h.1
  have hfirst : ExR (TransposedSq box) (firstNoise s.noises) (firstNoise s'.noises) := by
    revert hns
    generalize s.noises = l
    generalize s'.noises = l'
    intro hns
    cases hns with
    | nil => exact .error _
    | cons h _ => exact .ok h
  refine hfirst.bind fun a b hab => .ok ?_
  refine ⟨hs.image, hs.bmask, hs.ormask, hall, hs.psf, ⟨hab.1.nrow, hab.1.ncol, fun r hr c hc => ?_⟩, hs.interpFrac⟩
  exact invVar_transposed hab

/-! ### the geometry -/

/-- C159: the box of an SE slice. -/
theorem C159_bounds (col row fracBuffer : ℚ) (boxSize : ℤ) :
    TransposedBox (computeSliceBounds col row boxSize fracBuffer) (computeSliceBounds row col boxSize fracBuffer) :=
  ⟨rfl, rfl, rfl, rfl⟩

/-- C159: whether a box is on the CCD. -/
theorem C159_contains (nrow ncol : Nat) (b b' : Bounds ℤ) (h : TransposedBox b b') (buffer : ℤ) :
    ccdContainsBounds ncol nrow b' buffer = ccdContainsBounds nrow ncol b buffer := by
  obtain ⟨h1, h2, h3, h4⟩ := h
  unfold ccdContainsBounds Bounds.containsBounds ccdBnds
  dsimp only
  rw [h1, h2, h3, h4]
  split <;> (rw [Bool.eq_iff_iff]; simp only [decide_eq_true_eq]; tauto)

/-- C159: the area of a pixel. -/
theorem C159_area (celestial : Bool) (f f' : ℚ → ℚ → ℚ × ℚ) (hf : ∀ x y, f' y x = f x y) (cosd : ℚ → ℚ) (x y dxy : ℚ) :
    computeWcsArea celestial f' cosd y x dxy = computeWcsArea celestial f cosd x y dxy := by
  unfold computeWcsArea
  dsimp only
  simp only [hf]
  split
  · rw [← abs_neg]; congr 1; ring
  · rw [← abs_neg]; congr 1; ring

/-- C159: the interpolated pixel areas, when the spline treats its two directions alike. -/
theorem C159_area_interp (spl : Spline) (hs : SplineAlike spl) (celestial : Bool) (f f' : ℚ → ℚ → ℚ × ℚ) (hf : ∀ x y, f' y x = f x y)
    (cosd : ℚ → ℚ) (nrow ncol delta : Nat) (off : ℚ) :
    BothOk (fun (g g' : ℚ → ℚ → ℚ) => ∀ x y, g' y x = g x y) (getWcsAreaInterp spl celestial f cosd nrow ncol delta off)
      (getWcsAreaInterp spl celestial f' cosd ncol nrow delta off) := by
  by_cases hd : delta = 0
  · subst hd
    exact .error _
  obtain ⟨ys, hy⟩ : ∃ ys, mgridAxis nrow delta = .ok ys := ⟨_, if_neg hd⟩
  obtain ⟨xs, hx⟩ : ∃ xs, mgridAxis ncol delta = .ok xs := ⟨_, if_neg hd⟩
  obtain ⟨a, a1, a2, a3, a4⟩ := getWcsAreaInterp_eq spl celestial f cosd nrow ncol delta off ys xs hy hx
  obtain ⟨b, b1, b2, b3, b4⟩ := getWcsAreaInterp_eq spl celestial f' cosd ncol nrow delta off xs ys hx hy
  rw [a3, b3]
  refine hs _ _ a b (by rw [a1, List.length_map]) (by rw [a2, List.length_map]) ⟨by rw [b1, a2], by rw [b2, a1], fun i hi j hj => ?_⟩
  have hxi : xs[i]? = some xs[i] := List.getElem?_eq_getElem (by rw [← a1]; exact hi)
  have hyj : ys[j]? = some ys[j] := List.getElem?_eq_getElem (by rw [← a2]; exact hj)
  rw [a4 i j _ _ hxi hyj, b4 j i _ _ hyj hxi]
  exact C159_area celestial f f' hf cosd _ _ 1

/-- C159: the Jacobian has its columns exchanged. -/
theorem C159_jacobian (f f' : ℚ → ℚ → ℚ × ℚ) (hf : ∀ x y, f' y x = f x y) (cosd : ℚ → ℚ) (x y step a b c d : ℚ)
    (h : getJacobian f cosd x y step = (a, b, c, d)) : getJacobian f' cosd y x step = (b, a, d, c) := by
  unfold getJacobian at h ⊢
  dsimp only at h ⊢
  simp only [hf]
  simp only [Prod.mk.injEq] at h ⊢
  exact ⟨h.2.1, h.1, h.2.2.2, h.2.2.1⟩

/-! ### the cuts -/

/-- C159: whether a mask has flags. -/
theorem C159_has_flags (b b' : Img (BitVec 32)) (h : Transposed b b') (flags : BitVec 32) :
    sliceHasFlags b' flags = sliceHasFlags b flags := by
  rw [Bool.eq_iff_iff, C14_has_flags_iff, C14_has_flags_iff, h.nrow, h.ncol]
  constructor
  · rintro ⟨r, hr, c, hc, hf⟩
    exact ⟨c, hc, r, hr, by rw [← h.px c hc r hr]; exact hf⟩
  · rintro ⟨r, hr, c, hc, hf⟩
    exact ⟨c, hc, r, hr, by rw [h.px r hr c hc]; exact hf⟩

/-- The edge that comes to lie where rows and columns are exchanged. -/
def Edge.swap : Edge → Edge
  | .top => .left
  | .left => .top
  | .bottom => .right
  | .right => .bottom

theorem Edge.on_swap (e : Edge) (n m r c : Nat) (h : e.swap.On m n c r) : e.On n m r c := by
  cases e <;> simp only [Edge.On, Edge.swap] at h ⊢ <;> omega

theorem edges_transposed (n m : Nat) (P Q : Nat → Nat → Prop) (h : ∀ r < n, ∀ c < m, (Q c r ↔ P r c)) :
    (∃ e : Edge, ∀ r c, e.On n m r c → P r c) → ∃ e : Edge, ∀ r c, e.On m n r c → Q r c := by
  rintro ⟨e, he⟩
  refine ⟨e.swap, fun r c hrc => ?_⟩
  exact (h c hrc.2.1 r hrc.1).2 (he c r (e.on_swap n m c r hrc))

/-- C159: whether an edge is fully masked. -/
theorem C159_full_edge (w w' : Img ℚ) (b b' : Img (BitVec 32)) (hw : Transposed w w') (hb : Transposed b b') (flags : BitVec 32)
    (hs : b.nrow = w.nrow ∧ b.ncol = w.ncol) (hr : 0 < w.nrow) (hc : 0 < w.ncol) :
    sliceFullEdgeMasked w' b' flags = sliceFullEdgeMasked w b flags := by
  obtain ⟨v, h1, h2⟩ := C13_full_edge_iff w b flags hs hr hc
  obtain ⟨v', h1', h2'⟩ := C13_full_edge_iff w' b' flags ⟨by rw [hb.nrow, hw.nrow, hs.2], by rw [hb.ncol, hw.ncol, hs.1]⟩
    (by rw [hw.nrow]; exact hc) (by rw [hw.ncol]; exact hr)
  rw [h1, h1']
  congr 1
  rw [Bool.eq_iff_iff, h2, h2', hw.nrow, hw.ncol]
  have hwp : ∀ r < w.nrow, ∀ c < w.ncol, (w'.px c r ≤ 0 ↔ w.px r c ≤ 0) := fun r hr c hc => by rw [hw.px r hr c hc]
  have hbp : ∀ r < w.nrow, ∀ c < w.ncol, (Carries (b'.px c r) flags ↔ Carries (b.px r c) flags) := fun r hr c hc => by
    rw [hb.px r (by rw [hs.1]; exact hr) c (by rw [hs.2]; exact hc)]
  constructor
  · exact Or.imp (edges_transposed _ _ _ _ fun r hr c hc => (hwp c hc r hr).symm) (edges_transposed _ _ _ _ fun r hr c hc => (hbp c hc r hr).symm)
  · exact Or.imp (edges_transposed _ _ _ _ hwp) (edges_transposed _ _ _ _ hbp)

theorem countPix_transposed {n m : Nat} {p q : Nat → Nat → Bool} (h : ∀ r < n, ∀ c < m, q c r = p r c) : countPix m n q = countPix n m p := by
  unfold countPix pixels
  refine Finset.card_nbij' Prod.swap Prod.swap ?_ ?_ (fun _ _ => rfl) (fun _ _ => rfl)
  · rintro ⟨c, r⟩ hrc
    simp only [Finset.coe_filter, Finset.mem_product, Finset.mem_range, Set.mem_ofPred_eq, Prod.swap] at hrc ⊢
    exact ⟨⟨hrc.1.2, hrc.1.1⟩, by rw [← h r hrc.1.2 c hrc.1.1]; exact hrc.2⟩
  · rintro ⟨r, c⟩ hrc
    simp only [Finset.coe_filter, Finset.mem_product, Finset.mem_range, Set.mem_ofPred_eq, Prod.swap] at hrc ⊢
    exact ⟨⟨hrc.1.2, hrc.1.1⟩, by rw [h r hrc.1.1 c hrc.1.2]; exact hrc.2⟩

/-- C159: the masked fraction. -/
theorem C159_masked_fraction (w w' : Img ℚ) (b b' : Img (BitVec 32)) (hw : Transposed w w') (hb : Transposed b b')
    (hs : b.nrow = w.nrow ∧ b.ncol = w.ncol) (flags : BitVec 32) (ig ig' : Option (Img Bool)) (hig : Option.Rel Transposed ig ig')
    (hsi : ∀ g, ig = some g → g.nrow = w.nrow ∧ g.ncol = w.ncol) :
    computeMaskedFraction w' b' flags ig' = computeMaskedFraction w b flags ig := by
  have hbad : ∀ r < w.nrow, ∀ c < w.ncol, badPix w' b' flags c r = badPix w b flags r c := by
    intro r hr c hc
    unfold badPix
    rw [hw.px r hr c hc, hb.px r (by rw [hs.1]; exact hr) c (by rw [hs.2]; exact hc)]
  unfold computeMaskedFraction
  cases hig with
  | none =>
    dsimp only
    rw [hw.nrow, hw.ncol, Nat.mul_comm w.ncol, countPix_transposed hbad]
  | @some g g' hg =>
    obtain ⟨g1, g2⟩ := hsi g rfl
    have hgp : ∀ r < w.nrow, ∀ c < w.ncol, g'.px c r = g.px r c := fun r hr c hc =>
      hg.px r (by rw [g1]; exact hr) c (by rw [g2]; exact hc)
    have hall : (allLt w.ncol fun c => allLt w.nrow fun r => g'.px c r) = allLt w.nrow fun r => allLt w.ncol fun c => g.px r c := by
      rw [Bool.eq_iff_iff]
      simp only [allLt_iff]
      constructor
      · intro h r hr c hc
        rw [← hgp r hr c hc]; exact h c hc r hr
      · intro h c hc r hr
        rw [hgp r hr c hc]; exact h r hr c hc
    have e1 : (countPix w.ncol w.nrow fun r c => badPix w' b' flags r c && !g'.px r c) =
        countPix w.nrow w.ncol fun r c => badPix w b flags r c && !g.px r c :=
      countPix_transposed fun r hr c hc => by rw [hbad r hr c hc, hgp r hr c hc]
    have e2 : (countPix w.ncol w.nrow fun r c => !g'.px r c) = countPix w.nrow w.ncol fun r c => !g.px r c :=
      countPix_transposed fun r hr c hc => by rw [hgp r hr c hc]
    dsimp only
    rw [hw.nrow, hw.ncol, hall, e1, e2]

end Pizza
