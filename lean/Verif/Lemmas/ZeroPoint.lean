import Mathlib.Tactic.FieldSimp
import Mathlib.Tactic.Positivity
import Verif.Lemmas.Calibrated
import Verif.Props.Lanczos
import Verif.Spec.ZeroPoint

/-! What every step of the computation of a slice makes of fluxes multiplied by a factor and weights divided by its square. -/

namespace Pizza

/-- All pixels times `k`. -/
def Img.sc (k : ℚ) (a : Img ℚ) : Img ℚ := a.map (k * ·)

/-- All pixels divided by the square of `k`. -/
def Img.sw (k : ℚ) (a : Img ℚ) : Img ℚ := a.map (· / k ^ 2)

def SEReads.sc (k : ℚ) (f : SEReads) : SEReads := { f with noises := f.noises.map (List.map (Img.sc k)) }

def SEObj.sc (k : ℚ) (o : SEObj) : SEObj :=
  { o with
    image := o.image.map (Img.sc k), weight := o.weight.map (Img.sw k), noises := o.noises.map (List.map (Img.sc k)),
    origImage := o.origImage.map (Img.sc k), interpOnlyImage := o.interpOnlyImage.map (Img.sc k) }

def Src.sc (k : ℚ) (s : Src) : Src := { s with reads := s.reads.sc k, scale := k * s.scale }

def Cand.sc (k : ℚ) (d : Cand) : Cand := { d with src := d.src.sc k, obj := d.obj.sc k }

def Epoch.sc (k : ℚ) (e : Epoch) : Epoch := ⟨e.src.sc k, e.obj.sc k⟩

def Work.sc (k : ℚ) (d : Work) : Work := ⟨d.image.sc k, d.noises.map (Img.sc k), d.pmask⟩

def Outcome.sc (k : ℚ) : Outcome → Outcome
  | .used o wt => .used (o.sc k) (wt / k ^ 2)
  | .unused o f => .unused (o.sc k) f

/-- The lists while weights are not yet divided by their sum. -/
def Inputs.sc (k : ℚ) (a : Inputs) : Inputs :=
  ⟨a.slices.map (Epoch.sc k), a.weights.map (· / k ^ 2), a.notUsed.map (Epoch.sc k), a.flags⟩

/-- The lists at the end. -/
def Inputs.scEnd (k : ℚ) (a : Inputs) : Inputs :=
  ⟨a.slices.map (Epoch.sc k), a.weights, a.notUsed.map (Epoch.sc k), a.flags⟩

section
variable {A σ : Type} {x : Ext A σ} {c : BuildCfg A} {rng : σ} {k : ℚ}

theorem setSlice_sc (o : SEObj) (f : SEReads) (s : ℚ) (b : Bounds ℤ) :
    (o.sc k).setSlice (f.sc k) (k * s) b = ((o.setSlice f s b).1.sc k, (o.setSlice f s b).2) := by
  unfold SEObj.setSlice SEReads.sc
  simp only
  split
  · rfl
  cases f.image with
  | error e => rfl
  | ok im =>
  cases f.bkg with
  | error e => rfl
  | ok bkg =>
  simp only
  split
  · rfl
  have h1 : ∀ d : Img ℚ, d.map (· * (k * s)) = (d.map (· * s)).sc k := by
    intro d
    unfold Img.map Img.sc Img.map
    simp only
    congr 1
    funext r c
    ring
  have h2 : ∀ d : Img ℚ, d.map (· / (k * s) ^ 2) = (d.map (· / s ^ 2)).sw k := by
    intro d
    unfold Img.map Img.sw Img.map
    simp only
    congr 1
    funext r c
    rw [div_div, mul_pow, mul_comm]
  cases f.bmask with
  | error e =>
    simp only [h1]
    rfl
  | ok bm =>
  cases f.weight with
  | error e =>
    simp only [h1]
    rfl
  | ok w =>
  cases f.noises with
  | error e =>
    simp only [h1, h2]
    rfl
  | ok ns =>
    simp only [h1, h2, Except.map, SEObj.sc, Option.map_some, List.map_map]
    rfl

theorem setPsf_sc (o : SEObj) (px py : ℚ) (flag : Except Err Bool) (psf : Except Err (Img ℚ)) :
    (o.sc k).setPsf px py flag psf = ((o.setPsf px py flag psf).1.sc k, (o.setPsf px py flag psf).2) := by
  unfold SEObj.setPsf
  cases flag with
  | error e => rfl
  | ok flag =>
  cases psf with
  | error e => rfl
  | ok psf =>
  simp only
  cases psfStampBounds px py psf.nrow with
  | error e => rfl
  | ok b => rfl

theorem roughCut_sc (s : Src) : roughCut c (s.sc k) = (roughCut c s).map (List.map (Cand.sc k)) := by
  unfold roughCut
  show (if s.imageFlags = 0 then _ else _) = _
  split
  swap
  · rfl
  show ((s.init >>= fun _ => s.containsRadec >>= fun inside => _) : Except Err (List Cand)) = _
  cases s.init with
  | error e => rfl
  | ok _ =>
  simp only [ok_bind]
  cases s.containsRadec with
  | error e => rfl
  | ok inside =>
  cases inside with
  | false => rfl
  | true =>
  simp only [ok_bind, if_true]
  show ((s.pos >>= fun p => _) : Except Err (List Cand)) = _
  cases s.pos with
  | error e => rfl
  | ok p =>
  simp only [ok_bind]
  show (if ccdContainsBounds s.nrow s.ncol _ _ = true then _ else _) = _
  split
  swap
  · rfl
  have h := setSlice_sc (k := k) {} s.reads s.scale (computeSliceBounds p.1 p.2 c.boxSize c.fracBuffer)
  have h0 : (({} : SEObj).sc k) = {} := rfl
  rw [h0] at h
  have h' : ({} : SEObj).setSlice (s.sc k).reads (s.sc k).scale (computeSliceBounds p.1 p.2 c.boxSize c.fracBuffer) = _ := h
  rw [h']
  rcases ({} : SEObj).setSlice s.reads s.scale (computeSliceBounds p.1 p.2 c.boxSize c.fracBuffer) with ⟨o, e⟩
  cases e with
  | some e => rfl
  | none =>
    simp only
    have h2 : (o.sc k).setPsf (s.sc k).psfX (s.sc k).psfY (s.sc k).psfFlag (s.sc k).psfImage = _ :=
      setPsf_sc o s.psfX s.psfY s.psfFlag s.psfImage
    rw [h2]
    simp only
    cases (o.setPsf s.psfX s.psfY s.psfFlag s.psfImage).2 with
    | error e => rfl
    | ok flag => rfl

theorem rejectOutliers_sc (hx : x.Follows k) (l : List Cand) :
    rejectOutliers x c (l.map (Cand.sc k)) = (rejectOutliers x c l).map (List.map (Cand.sc k)) := by
  unfold rejectOutliers
  split
  swap
  · rfl
  have h1 : (l.map (Cand.sc k)).mapM (fun d => attr d.obj.image) =
      (l.mapM fun d => attr d.obj.image).map (List.map (Img.map (k * ·))) := by
    induction l with
    | nil => rfl
    | cons d l ih =>
      rw [List.map_cons, List.mapM_cons, List.mapM_cons, ih]
      show (attr (d.obj.image.map (Img.sc k)) >>= _) = _
      cases d.obj.image with
      | none => rfl
      | some a => cases (l.mapM fun d => attr d.obj.image) <;> rfl
  have h2 : (l.map (Cand.sc k)).mapM (fun d => attr d.obj.weight) =
      (l.mapM fun d => attr d.obj.weight).map (List.map (Img.map (· / k ^ 2))) := by
    clear h1
    induction l with
    | nil => rfl
    | cons d l ih =>
      rw [List.map_cons, List.mapM_cons, List.mapM_cons, ih]
      show (attr (d.obj.weight.map (Img.sw k)) >>= _) = _
      cases d.obj.weight with
      | none => rfl
      | some a => cases (l.mapM fun d => attr d.obj.weight) <;> rfl
  rw [h1, h2]
  cases (l.mapM fun d => attr d.obj.image) with
  | error e => rfl
  | ok ims =>
  cases (l.mapM fun d => attr d.obj.weight) with
  | error e => rfl
  | ok wts =>
  simp only [Except.map, ok_bind]
  rw [hx.outliers]
  cases x.outliers ims wts with
  | error e => rfl
  | ok new =>
    show Except.ok (List.mapIdx _ (l.map (Cand.sc k))) = Except.ok ((List.mapIdx _ l).map (Cand.sc k))
    congr 1
    refine List.ext_getElem? fun i => ?_
    rw [List.getElem?_map, List.getElem?_mapIdx, List.getElem?_mapIdx, List.getElem?_map]
    cases l[i]? <;> rfl

/-! ### masks -/

theorem sw_zero (hk : 0 < k) (a : Img ℚ) (r c : Nat) : (a.sw k).px r c = 0 ↔ a.px r c = 0 := by
  show a.px r c / k ^ 2 = 0 ↔ _
  rw [div_eq_zero_iff]
  have : k ^ 2 ≠ 0 := by positivity
  tauto

theorem div_nonpos_iff' (hk : 0 < k) (v : ℚ) : v / k ^ 2 ≤ 0 ↔ v ≤ 0 := by
  rw [div_le_iff₀ (by positivity), zero_mul]

theorem div_neg_iff' (hk : 0 < k) (v : ℚ) : v / k ^ 2 < 0 ↔ v < 0 := by
  rw [div_lt_iff₀ (by positivity), zero_mul]

theorem div_pos_iff' (hk : 0 < k) (v : ℚ) : 0 < v / k ^ 2 ↔ 0 < v := by
  rw [lt_div_iff₀ (by positivity), zero_mul]

theorem symmetrizeWeight_sc (hk : 0 < k) (rot : A → Img ℚ → Img ℚ) (w : Img ℚ) (a : Option A) (g : Option (Img Bool)) :
    symmetrizeWeight rot (w.sw k) a g = (symmetrizeWeight rot w a g).map (Img.sw k) := by
  unfold symmetrizeWeight
  show (if w.nrow ≠ w.ncol then _ else _) = _
  split
  · rfl
  have h0 : ∀ r c, decide ((w.sw k).px r c = 0) = decide (w.px r c = 0) := fun r c => by simp only [sw_zero hk]
  have h1 : ∀ r c, decide ((w.sw k).rot90.px r c = 0) = decide (w.rot90.px r c = 0) := fun r c => h0 _ _
  have hz : ∀ m : Nat → Nat → Bool, (⟨w.nrow, w.ncol, fun r c => if m r c then 0 else (w.sw k).px r c⟩ : Img ℚ) =
      (⟨w.nrow, w.ncol, fun r c => if m r c then 0 else w.px r c⟩ : Img ℚ).sw k := by
    intro m
    unfold Img.sw Img.map
    simp only
    congr 1
    funext r c
    split <;> simp
  have hr : (w.sw k).nrow = w.nrow := rfl
  have hc : (w.sw k).ncol = w.ncol := rfl
  cases a with
  | none =>
    simp only [h1, hr, hc, hz]
    split <;> rfl
  | some a =>
    simp only [h0, hr, hc, hz]
    split
    · split <;> rfl
    · rfl

theorem symOneAngle_sc (hk : 0 < k) (rot : A → Img ℚ → Img ℚ) (g : Option (Img Bool)) (fl : BitVec 32) (w0 : Img ℚ)
    (b0 : Img (BitVec 32)) (st : Img ℚ × Img (BitVec 32)) (a : Option A) :
    symOneAngle rot g fl (w0.sw k) b0 (st.1.sw k, st.2) a =
      (symOneAngle rot g fl w0 b0 st a).map fun p => (p.1.sw k, p.2) := by
  unfold symOneAngle
  rw [symmetrizeWeight_sc hk]
  cases symmetrizeWeight rot w0 a g with
  | error e => rfl
  | ok wr =>
  simp only [Except.map, ok_bind]
  cases symmetrizeBmask rot b0 a g (some fl) with
  | error e => rfl
  | ok br =>
    simp only [ok_bind]
    show Except.ok _ = Except.ok _
    congr 2
    unfold Img.sw Img.map
    simp only
    congr 1
    funext r c
    have := sw_zero hk wr r c
    unfold Img.sw Img.map at this
    simp only at this
    simp only [this]
    split <;> simp

theorem symmetrizeSlice_sc (hk : 0 < k) (rot : A → Img ℚ → Img ℚ) (cfg : SymCfg A) (g : Option (Img Bool)) (fl : BitVec 32)
    (w0 : Img ℚ) (b0 : Img (BitVec 32)) :
    symmetrizeSlice rot cfg g fl (w0.sw k) b0 = (symmetrizeSlice rot cfg g fl w0 b0).map fun p => (p.1.sw k, p.2) := by
  have key : ∀ (l : List (Option A)) (st : Img ℚ × Img (BitVec 32)),
      l.foldlM (symOneAngle rot g fl (w0.sw k) b0) (st.1.sw k, st.2) =
        (l.foldlM (symOneAngle rot g fl w0 b0) st).map fun p => (p.1.sw k, p.2) := by
    intro l
    induction l with
    | nil => intro st; rfl
    | cons a l ih =>
      intro st
      rw [List.foldlM_cons, List.foldlM_cons, symOneAngle_sc hk]
      cases symOneAngle rot g fl w0 b0 st a with
      | error e => rfl
      | ok st' => exact ih st'
  unfold symmetrizeSlice
  cases cfg with
  | off => rfl
  | angles l =>
    cases l with
    | nil => rfl
    | cons a l => exact key (a :: l) (w0, b0)
  | plain =>
    simp only
    cases symmetrizeBmask rot b0 none g (some fl) with
    | error e => rfl
    | ok b =>
    simp only [ok_bind]
    rw [symmetrizeWeight_sc hk]
    cases symmetrizeWeight rot w0 none g <;> rfl

theorem allRowCol_sc (hk : 0 < k) (w : Img ℚ) :
    allFirstRow (w.sw k) (fun w => decide (w ≤ 0)) = allFirstRow w (fun w => decide (w ≤ 0)) ∧
    allLastRow (w.sw k) (fun w => decide (w ≤ 0)) = allLastRow w (fun w => decide (w ≤ 0)) ∧
    allFirstCol (w.sw k) (fun w => decide (w ≤ 0)) = allFirstCol w (fun w => decide (w ≤ 0)) ∧
    allLastCol (w.sw k) (fun w => decide (w ≤ 0)) = allLastCol w (fun w => decide (w ≤ 0)) := by
  have h0 : ∀ r c, decide ((w.sw k).px r c ≤ 0) = decide (w.px r c ≤ 0) := fun r c => by
    show decide (w.px r c / k ^ 2 ≤ 0) = _
    simp only [div_nonpos_iff' hk]
  unfold allFirstRow allLastRow allFirstCol allLastCol
  simp only [h0]
  exact ⟨rfl, rfl, rfl, rfl⟩

theorem sliceFullEdgeMasked_sc (hk : 0 < k) (w : Img ℚ) (b : Img (BitVec 32)) (fl : BitVec 32) :
    sliceFullEdgeMasked (w.sw k) b fl = sliceFullEdgeMasked w b fl := by
  obtain ⟨h1, h2, h3, h4⟩ := allRowCol_sc hk w
  unfold sliceFullEdgeMasked
  simp only [h1, h2, h3, h4]

theorem badPix_sc (hk : 0 < k) (w : Img ℚ) (b : Img (BitVec 32)) (fl : BitVec 32) : badPix (w.sw k) b fl = badPix w b fl := by
  funext r c
  unfold badPix
  congr 1
  show decide (w.px r c / k ^ 2 ≤ 0) = _
  simp only [div_nonpos_iff' hk]

theorem computeMaskedFraction_sc (hk : 0 < k) (w : Img ℚ) (b : Img (BitVec 32)) (fl : BitVec 32) (g : Option (Img Bool)) :
    computeMaskedFraction (w.sw k) b fl g = computeMaskedFraction w b fl g := by
  unfold computeMaskedFraction
  rw [badPix_sc hk]
  rfl

/-! ### interpolation -/

theorem qmax?_sc (hk : 0 < k) (l : List ℚ) : qmax? (l.map (· / k ^ 2)) = (qmax? l).map (· / k ^ 2) := by
  have hq : (0 : ℚ) < k ^ 2 := by positivity
  cases l with
  | nil => rfl
  | cons a l =>
    show Except.ok _ = Except.ok _
    congr 1
    induction l generalizing a with
    | nil => rfl
    | cons b l ih =>
      show (l.map (· / k ^ 2)).foldl max (max (a / k ^ 2) (b / k ^ 2)) = (l.foldl max (max a b)) / k ^ 2
      rw [max_div_div_right hq.le]
      exact ih _


theorem values_sw (a : Img ℚ) : ((List.range (a.sw k).nrow).flatMap fun r => (List.range (a.sw k).ncol).map fun c => (a.sw k).px r c) =
    ((List.range a.nrow).flatMap fun r => (List.range a.ncol).map fun c => a.px r c).map (· / k ^ 2) := by
  rw [List.map_flatMap]
  congr 1
  funext r
  rw [List.map_map]
  rfl

theorem npMax_sc (hk : 0 < k) (a : Img ℚ) : (a.sw k).npMax = a.npMax.map (· / k ^ 2) := by
  unfold Img.npMax
  rw [values_sw, qmax?_sc hk]

theorem maxPositive_sc (hk : 0 < k) (a : Img ℚ) : maxPositive (a.sw k) = (maxPositive a).map (· / k ^ 2) := by
  unfold maxPositive
  have h : ((fun v : ℚ => decide (0 < v)) ∘ fun v => v / k ^ 2) = fun v => decide (0 < v) := by
    funext v
    simp only [Function.comp, div_pos_iff' hk]
  rw [values_sw, List.filter_map, h, qmax?_sc hk]

theorem maxPositive_pos {a : Img ℚ} {t : ℚ} (h : maxPositive a = .ok t) : 0 < t := by
  unfold maxPositive at h
  generalize hl : List.filter _ _ = l at h
  have hp : ∀ v ∈ l, 0 < v := by
    intro v hv
    rw [← hl, List.mem_filter] at hv
    exact of_decide_eq_true hv.2
  cases l with
  | nil => cases h
  | cons b l =>
    cases h
    have hb := hp b (by simp)
    have : ∀ (l : List ℚ) (b : ℚ), 0 < b → 0 < l.foldl max b := by
      intro l
      induction l with
      | nil => intro b hb; exact hb
      | cons d l ih => intro b hb; exact ih _ (lt_max_of_lt_left hb)
    exact this l b hb

theorem buildCoaddWeight_sc (hk : 0 < k) (f : Img ℚ → Except Err ℚ) (kind : CoaddWeight) (w psf : Img ℚ) :
    buildCoaddWeight f kind (w.sw k) psf = (buildCoaddWeight f kind w psf).map (· / k ^ 2) := by
  unfold buildCoaddWeight
  cases kind with
  | noise => exact npMax_sc hk w
  | unknown => rfl
  | noiseFwhm =>
    simp only
    rw [npMax_sc hk]
    cases w.npMax with
    | error e => rfl
    | ok t =>
    simp only [Except.map, ok_bind]
    cases f psf with
    | error e => rfl
    | ok g =>
      show Except.ok _ = Except.ok _
      rw [div_right_comm]

theorem noiseDraw_sc (hx : x.Follows k) (w : Img ℚ) (hw : ∀ r c, 0 < w.px r c) (rng : σ) :
    noiseDraw x (w.sw k) rng = ((noiseDraw x w rng).1.sc k, (noiseDraw x w rng).2) := by
  unfold noiseDraw
  simp only
  congr 1
  unfold Img.sc Img.sw Img.map
  simp only
  congr 1
  funext r c
  rw [hx.invSqrt _ (hw r c)]
  ring

theorem putWhere_sc (a b : Img ℚ) (m : Nat → Nat → Bool) : (a.sc k).putWhere m (b.sc k) = (a.putWhere m b).sc k := by
  unfold Img.putWhere Img.sc Img.map
  simp only
  congr 1
  funext r c
  split <;> rfl

theorem noiseFill_sc (hx : x.Follows k) (w : Img ℚ) (hw : ∀ r c, 0 < w.px r c) (m : Nat → Nat → Bool) (l : List (Img ℚ)) (rng : σ) :
    noiseFill x (w.sw k) m (l.map (Img.sc k)) rng = ((noiseFill x w m l rng).1.map (Img.sc k), (noiseFill x w m l rng).2) := by
  induction l generalizing rng with
  | nil => rfl
  | cons a l ih =>
    rw [List.map_cons]
    unfold noiseFill
    rw [noiseDraw_sc hx w hw]
    simp only
    rw [ih, putWhere_sc]
    rfl

theorem noiseInterp_sc (hk : 0 < k) (hx : x.Follows k) (fl : BitVec 32) (im : Img ℚ) (ns : List (Img ℚ)) (w : Img ℚ)
    (b : Img (BitVec 32)) (rng : σ) :
    noiseInterp x fl (im.sc k) (ns.map (Img.sc k)) (w.sw k) b rng =
      (noiseInterp x fl im ns w b rng).map fun p => (p.1.sc k, p.2) := by
  unfold noiseInterp
  simp only
  split
  swap
  · rfl
  rw [maxPositive_sc hk]
  cases ht : maxPositive w with
  | error e => rfl
  | ok top =>
  simp only [Except.map, ok_bind]
  have htop := maxPositive_pos ht
  have h : (⟨(w.sw k).nrow, (w.sw k).ncol, fun r c => if (w.sw k).px r c ≤ 0 then top / k ^ 2 else (w.sw k).px r c⟩ : Img ℚ) =
      (⟨w.nrow, w.ncol, fun r c => if w.px r c ≤ 0 then top else w.px r c⟩ : Img ℚ).sw k := by
    unfold Img.sw Img.map
    simp only [div_nonpos_iff' hk]
    congr 1
    funext r c
    split <;> rfl
  have hp : ∀ r c, 0 < (⟨w.nrow, w.ncol, fun r c => if w.px r c ≤ 0 then top else w.px r c⟩ : Img ℚ).px r c := by
    intro r c
    simp only
    split
    · exact htop
    · rename_i h
      exact not_le.mp h
  rw [h, noiseDraw_sc hx _ hp]
  simp only
  rw [noiseFill_sc hx _ hp, putWhere_sc]
  rfl

theorem changed_sc (hk : 0 < k) (a b : Img ℚ) (as bs : List (Img ℚ)) :
    changed (a.sc k) (b.sc k) (as.map (Img.sc k)) (bs.map (Img.sc k)) = changed a b as bs := by
  funext r c
  have h0 : ∀ u v : Img ℚ, decide ((u.sc k).px r c ≠ (v.sc k).px r c) = decide (u.px r c ≠ v.px r c) := by
    intro u v
    show decide (k * u.px r c ≠ k * v.px r c) = _
    simp only [ne_eq, mul_right_inj' hk.ne']
  unfold changed
  rw [h0, List.zipWith_map]
  simp only [h0]

def EdgeState.sc (k : ℚ) (st : EdgeState ℚ) : EdgeState ℚ := ⟨st.image.sc k, st.noises.map (Img.sc k), st.bmask, st.weight.sw k⟩

theorem edgeRowStep_sc (hk : 0 < k) (w : Img ℚ) (b : Img (BitVec 32)) (fl : BitVec 32) (i j : Nat) (st : EdgeState ℚ) :
    edgeRowStep (w.sw k) b fl i j (st.sc k) = (edgeRowStep w b fl i j st).sc k := by
  unfold edgeRowStep
  simp only [badPix_sc hk]
  show (if (allLt w.ncol _ && _) = true then _ else _) = _
  have h1 : ∀ (a : Img ℚ) g, (a.sc k).copyRow i j g = (a.copyRow i j g).sc k := by
    intro a g
    unfold Img.copyRow Img.sc Img.map
    simp only
    congr 1
    funext r c
    split <;> rfl
  have h2 : ∀ (a : Img ℚ) g, (a.sw k).copyRow i j g = (a.copyRow i j g).sw k := by
    intro a g
    unfold Img.copyRow Img.sw Img.map
    simp only
    congr 1
    funext r c
    split <;> rfl
  show (if (allLt w.ncol (fun c => badPix w b fl i c) && !allLt w.ncol fun c => badPix w b fl j c) = true then _ else _) = _
  split
  · unfold EdgeState.sc
    simp only [h1, h2, List.map_map]
    congr 2
    funext a
    exact h1 a _
  · rfl

theorem edgeColStep_sc (hk : 0 < k) (w : Img ℚ) (b : Img (BitVec 32)) (fl : BitVec 32) (i j : Nat) (st : EdgeState ℚ) :
    edgeColStep (w.sw k) b fl i j (st.sc k) = (edgeColStep w b fl i j st).sc k := by
  unfold edgeColStep
  simp only [badPix_sc hk]
  have h1 : ∀ (a : Img ℚ) g, (a.sc k).copyCol i j g = (a.copyCol i j g).sc k := by
    intro a g
    unfold Img.copyCol Img.sc Img.map
    simp only
    congr 1
    funext r c
    split <;> rfl
  have h2 : ∀ (a : Img ℚ) g, (a.sw k).copyCol i j g = (a.copyCol i j g).sw k := by
    intro a g
    unfold Img.copyCol Img.sw Img.map
    simp only
    congr 1
    funext r c
    split <;> rfl
  show (if (allLt w.nrow (fun r => badPix w b fl r i) && !allLt w.nrow fun r => badPix w b fl r j) = true then _ else _) = _
  split
  · unfold EdgeState.sc
    simp only [h1, h2, List.map_map]
    congr 2
    funext a
    exact h1 a _
  · rfl

theorem copyMaskedEdges_sc (hk : 0 < k) (im : Img ℚ) (ns : List (Img ℚ)) (w : Img ℚ) (b : Img (BitVec 32)) (fl : BitVec 32) :
    copyMaskedEdges (im.sc k) (ns.map (Img.sc k)) (w.sw k) b fl = (copyMaskedEdges im ns w b fl).map (EdgeState.sc k) := by
  unfold copyMaskedEdges
  simp only
  show (if w.nrow < 2 ∨ w.ncol < 2 then _ else _) = _
  split
  · rfl
  show Except.ok _ = Except.ok _
  congr 1
  have h0 : (⟨im.sc k, ns.map (Img.sc k), b, w.sw k⟩ : EdgeState ℚ) = EdgeState.sc k ⟨im, ns, b, w⟩ := rfl
  rw [h0, edgeRowStep_sc hk, edgeColStep_sc hk, edgeRowStep_sc hk, edgeColStep_sc hk]
  rfl

theorem edgeStage_sc (hk : 0 < k) (on : Bool) (fl : BitVec 32) (d : Work) (w : Img ℚ) (b : Img (BitVec 32)) :
    edgeStage on fl (d.sc k) (w.sw k) b = (edgeStage on fl d w b).map fun p => (p.1.sc k, p.2.1.sw k, p.2.2) := by
  unfold edgeStage
  cases on with
  | false => rfl
  | true =>
  simp only [if_true]
  have h := copyMaskedEdges_sc hk d.image d.noises w b fl
  have h' : copyMaskedEdges (d.sc k).image (d.sc k).noises (w.sw k) b fl = _ := h
  rw [h']
  cases copyMaskedEdges d.image d.noises w b fl with
  | error e => rfl
  | ok st =>
  simp only [Except.map, ok_bind]
  have h2 : sliceFullEdgeMasked (st.sc k).weight (st.sc k).bmask fl = _ := sliceFullEdgeMasked_sc hk st.weight st.bmask fl
  rw [h2]
  cases sliceFullEdgeMasked st.weight st.bmask fl with
  | error e => rfl
  | ok bad =>
    simp only [ok_bind]
    have h3 : changed (d.sc k).image (st.sc k).image (d.sc k).noises (st.sc k).noises = _ :=
      changed_sc hk d.image st.image d.noises st.noises
    rw [h3]
    rfl

theorem interpOne_sc (hx : x.Follows k) (im : Img ℚ) (bad good : List (Nat × Nat)) (m : Img Bool) (med med' : ℚ) (rng : Option Unit) :
    interpOne x.interp (fun s _ _ => ([], s)) (im.sc k) bad good m none med' rng =
      (interpOne x.interp (fun s _ _ => ([], s)) im bad good m none med rng).map fun p => (p.1.sc k, p.2) := by
  unfold interpOne
  simp only [pure_bind]
  have h : good.map (fun p => (im.sc k).px p.1 p.2) = (good.map fun p => im.px p.1 p.2).map (k * ·) := by
    rw [List.map_map]
    rfl
  rw [h, hx.interp]
  cases x.interp good (good.map fun p => im.px p.1 p.2) with
  | error e => rfl
  | ok f =>
  simp only [Except.map, ok_bind]
  unfold assignMask
  simp only [List.length_map]
  split
  · show Except.ok _ = Except.ok _
    congr 2
    unfold Img.sc Img.map
    simp only
    congr 1
    funext r c
    split
    · have : bad.map (fun p => k * f p) = (bad.map f).map (k * ·) := by rw [List.map_map]; rfl
      rw [this, List.getD_eq_getElem?_getD, List.getD_eq_getElem?_getD, List.getElem?_map]
      cases (bad.map f)[(maskedList m).idxOf (r, c)]? <;> rfl
    · rfl
  · rfl

theorem interpAll_sc (one one' : Img ℚ → Option Unit → Except Err (Img ℚ × Option Unit))
    (h : ∀ a r, one' (a.sc k) r = (one a r).map fun p => (p.1.sc k, p.2)) (l : List (Img ℚ)) (r : Option Unit) :
    interpAll one' (l.map (Img.sc k)) r = (interpAll one l r).map fun p => (p.1.map (Img.sc k), p.2) := by
  induction l generalizing r with
  | nil => rfl
  | cons a l ih =>
    rw [List.map_cons]
    unfold interpAll
    rw [h]
    cases one a r with
    | error e => rfl
    | ok p =>
    simp only [Except.map, ok_bind]
    rw [ih]
    cases interpAll one l p.2 <;> rfl

theorem interpolateImageAndNoise_sc (hk : 0 < k) (hx : x.Follows k) (im : Img ℚ) (ns : List (Img ℚ)) (w : Img ℚ)
    (b : Img (BitVec 32)) (fl : BitVec 32) :
    interpolateImageAndNoise (σ := Unit) x.interp (fun s _ _ => ([], s)) (im.sc k) (ns.map (Img.sc k)) (w.sw k) b fl none
        (9 / 10) 4 false 1 =
      (interpolateImageAndNoise (σ := Unit) x.interp (fun s _ _ => ([], s)) im ns w b fl none (9 / 10) 4 false 1).map
        fun p => (p.1.map fun q => (q.1.sc k, q.2.map (Img.sc k)), p.2) := by
  unfold interpolateImageAndNoise
  have h0 : badMaskOf (w.sw k) b fl = badMaskOf w b fl := by
    unfold badMaskOf
    rw [badPix_sc hk]
    rfl
  simp only [h0, Bool.false_eq_true, if_false, pure_bind]
  split
  swap
  · rfl
  split
  · rfl
  cases getNearbyGoodPixels (badMaskOf w b fl) (maskSum (badMaskOf w b fl)) 4 1 with
  | error e => rfl
  | ok st =>
  simp only [ok_bind]
  cases unravelIndex (badMaskOf w b fl).nrow (badMaskOf w b fl).ncol st.badInd with
  | error e => rfl
  | ok bad =>
  simp only [ok_bind]
  cases unravelIndex (badMaskOf w b fl).nrow (badMaskOf w b fl).ncol (npUnique st.goodInd) with
  | error e => rfl
  | ok good =>
  simp only [ok_bind]
  generalize median _ = m2
  generalize median _ = m1
  rw [interpOne_sc hx im bad good _ m1 m2]
  cases interpOne x.interp (fun s _ _ => ([], s)) im bad good (badMaskOf w b fl) none m1 none with
  | error e => rfl
  | ok p =>
  simp only [Except.map, ok_bind]
  rw [interpAll_sc _ _ (fun a r => interpOne_sc hx a bad good (badMaskOf w b fl) m1 m2 r)]
  generalize interpAll _ ns p.2 = y
  cases y <;> rfl

theorem splineStage_sc (hk : 0 < k) (hx : x.Follows k) (fl : BitVec 32) (d : Work) (w : Img ℚ) (b : Img (BitVec 32)) :
    splineStage x fl (d.sc k) (w.sw k) b = (splineStage x fl d w b).map (Option.map (Work.sc k)) := by
  unfold splineStage
  have h : interpolateImageAndNoise (σ := Unit) x.interp (fun s _ _ => ([], s)) (d.sc k).image (d.sc k).noises (w.sw k) b fl none
        (9 / 10) 4 false 1 = _ := interpolateImageAndNoise_sc hk hx d.image d.noises w b fl
  rw [h]
  cases interpolateImageAndNoise (σ := Unit) x.interp (fun s _ _ => ([], s)) d.image d.noises w b fl none (9 / 10) 4 false 1 with
  | error e => rfl
  | ok p =>
  obtain ⟨p, _⟩ := p
  simp only [Except.map, ok_bind]
  cases p with
  | none => rfl
  | some q =>
    obtain ⟨i, n⟩ := q
    simp only [Option.map_some]
    have h1 : changed (i.sc k) (d.sc k).image (n.map (Img.sc k)) (d.sc k).noises = _ := changed_sc hk i d.image n d.noises
    have h2 : ∀ r c, decide ((w.sw k).px r c < 0) = decide (w.px r c < 0) := fun r c => by
      show decide (w.px r c / k ^ 2 < 0) = _
      simp only [div_neg_iff' hk]
    simp only [h1, h2]
    rfl

/-! ### candidates -/

theorem setInterp_sc (o : SEObj) (im : Img ℚ) (ns : List (Img ℚ)) (m : Img (BitVec 32)) :
    (o.sc k).setInterp (im.sc k) (ns.map (Img.sc k)) m = ((o.setInterp im ns m).1.sc k, (o.setInterp im ns m).2) := by
  obtain ⟨_, _, _, image, _, _, _, _, _, _, _, _, _, _, _⟩ := o
  unfold SEObj.setInterp SEObj.sc
  simp only
  cases image with
  | none => rfl
  | some a =>
  simp only [Option.map_some]
  show (if m.nrow ≠ a.nrow ∨ m.ncol ≠ a.ncol then _ else if m.nrow ≠ im.nrow ∨ m.ncol ≠ im.ncol then _ else _) = _
  split
  · rfl
  split
  · rfl
  have h : (⟨(im.sc k).nrow, (im.sc k).ncol, fun r c => if m.px r c ≠ 0 then (im.sc k).px r c else 0⟩ : Img ℚ) =
      (⟨im.nrow, im.ncol, fun r c => if m.px r c ≠ 0 then im.px r c else 0⟩ : Img ℚ).sc k := by
    unfold Img.sc Img.map
    simp only
    congr 1
    funext r c
    split <;> simp
  rw [h]
  rfl

theorem interpolateCand_sc (hk : 0 < k) (hx : x.Follows k) (g : Option (Img Bool)) (o : SEObj) (w : Img ℚ) (b : Img (BitVec 32))
    (rng : σ) :
    interpolateCand x c g (o.sc k) (w.sw k) b rng = (interpolateCand x c g o w b rng).map fun p => (p.1.sc k, p.2) := by
  unfold interpolateCand
  show (attr (o.image.map (Img.sc k)) >>= fun image => attr (o.noises.map (List.map (Img.sc k))) >>= fun noises => _) = _
  cases o.image with
  | none => rfl
  | some im =>
  cases o.noises with
  | none => rfl
  | some ns =>
  simp only [Option.map_some, attr, ok_bind]
  rw [noiseInterp_sc hk hx]
  cases noiseInterp x c.noiseFlags im ns w b rng with
  | error e => rfl
  | ok k1 =>
  simp only [Except.map, ok_bind]
  rw [edgeStage_sc hk]
  cases edgeStage c.copyEdges c.splineFlags k1.1 w b with
  | error e => rfl
  | ok k2 =>
  simp only [Except.map, ok_bind]
  split
  · rfl
  rw [splineStage_sc hk hx]
  cases splineStage x c.splineFlags k2.1 k2.2.1 k2.2.2.1 with
  | error e => rfl
  | ok k3 =>
  simp only [Except.map, ok_bind]
  cases k3 with
  | none => rfl
  | some d =>
  simp only [Option.map_some]
  show (if (pmaskFraction d.pmask g).geq c.maxMaskedFraction = true then _ else _) = _
  split
  · rfl
  have h : (o.sc k).setInterp (d.sc k).image (d.sc k).noises (d.sc k).pmask = _ := setInterp_sc o d.image d.noises d.pmask
  rw [h]
  rcases o.setInterp d.image d.noises d.pmask with ⟨o', e⟩
  cases e with
  | some e => rfl
  | none =>
  simp only
  show (attr o'.psf >>= fun psf => _) = _
  cases o'.psf with
  | none => rfl
  | some psf =>
  simp only [attr, ok_bind]
  rw [buildCoaddWeight_sc hk]
  cases buildCoaddWeight x.fwhm c.coaddingWeight w psf <;> rfl

theorem processCand_sc (hk : 0 < k) (hx : x.Follows k) (d : Cand) (rng : σ) :
    processCand x c (d.sc k) rng = (processCand x c d rng).map fun p => (p.1.sc k, p.2) := by
  unfold processCand
  simp only
  have hg : seGaiaMask c (d.sc k).src (d.sc k).obj = seGaiaMask c d.src d.obj := rfl
  rw [hg]
  cases seGaiaMask c d.src d.obj with
  | error e => rfl
  | ok g =>
  simp only [ok_bind]
  show (attr (d.obj.weight.map (Img.sw k)) >>= fun w0 => attr d.obj.bmask >>= fun b0 => _) = _
  cases d.obj.weight with
  | none => rfl
  | some w0 =>
  cases d.obj.bmask with
  | none => rfl
  | some b0 =>
  simp only [Option.map_some, attr, ok_bind]
  rw [symmetrizeSlice_sc hk]
  cases symmetrizeSlice x.rotate c.symmetrize g (c.splineFlags ||| c.noiseFlags) w0 b0 with
  | error e => rfl
  | ok wb =>
  simp only [Except.map, ok_bind]
  have he : edgeCut c.copyEdges (wb.1.sw k) wb.2 c.splineFlags = edgeCut c.copyEdges wb.1 wb.2 c.splineFlags := by
    unfold edgeCut
    rw [sliceFullEdgeMasked_sc hk]
  rw [he, computeMaskedFraction_sc hk]
  cases edgeCut c.copyEdges wb.1 wb.2 c.splineFlags with
  | error e => rfl
  | ok se =>
  simp only [ok_bind]
  show (if (se || _ || _ || d.psfFlag) = true then _ else _) = _
  split
  · rfl
  · exact interpolateCand_sc hk hx g { d.obj with weight := some wb.1, bmask := some wb.2 } wb.1 wb.2 rng

theorem add_sc (acc : Inputs) (s : Src) (o : Outcome) : (acc.sc k).add (s.sc k) (o.sc k) = (acc.add s o).sc k := by
  cases o with
  | used o wt =>
    unfold Inputs.add Outcome.sc Inputs.sc
    simp only [List.map_append]
    rfl
  | unused o f =>
    unfold Inputs.add Outcome.sc Inputs.sc
    simp only [List.map_append]
    rfl

theorem processAll_sc (hk : 0 < k) (hx : x.Follows k) (l : List Cand) (acc : Inputs) (rng : σ) :
    processAll x c (l.map (Cand.sc k)) (acc.sc k) rng = (processAll x c l acc rng).map (Inputs.sc k) := by
  induction l generalizing acc rng with
  | nil => rfl
  | cons d l ih =>
    rw [List.map_cons]
    unfold processAll
    rw [processCand_sc hk hx]
    cases processCand x c d rng with
    | error e => rfl
    | ok r =>
    simp only [Except.map, ok_bind]
    have := add_sc (k := k) acc d.src r.1
    show processAll x c _ ((acc.sc k).add (d.src.sc k) (r.1.sc k)) r.2 = _
    rw [this]
    exact ih _ _

theorem normalised_sc (hk : 0 < k) (l : List ℚ) :
    (l.map (· / k ^ 2)).map (· / (l.map (· / k ^ 2)).sum) = l.map (· / l.sum) := by
  have hs : (l.map (· / k ^ 2)).sum = l.sum / k ^ 2 := by
    induction l with
    | nil => simp
    | cons a l ih => rw [List.map_cons, List.sum_cons, List.sum_cons, ih, add_div]
  rw [hs, List.map_map]
  congr 1
  funext v
  simp only [Function.comp]
  rw [div_div_div_cancel_right₀]
  positivity

theorem buildInputs_sc (hk : 0 < k) (hx : x.Follows k) {l l' : List Src} {cands : List Cand}
    (h : possibleSlices c l = .ok cands) (h' : possibleSlices c l' = .ok (cands.map (Cand.sc k))) (rng : σ) :
    buildSliceInputs x c l' rng = (buildSliceInputs x c l rng).map (Inputs.scEnd k) := by
  unfold buildSliceInputs
  rw [h, h']
  simp only [ok_bind]
  have h1 : ((cands.map (Cand.sc k)).isEmpty || (cands.map (Cand.sc k)).all (·.psfFlag)) =
      (cands.isEmpty || cands.all (·.psfFlag)) := by
    rw [List.isEmpty_map, List.all_map]
    rfl
  rw [h1]
  split
  · rfl
  rw [rejectOutliers_sc hx]
  cases rejectOutliers x c cands with
  | error e => rfl
  | ok cs =>
  simp only [Except.map, ok_bind]
  have h2 : processAll x c (cs.map (Cand.sc k)) {} rng = _ := processAll_sc hk hx cs {} rng
  rw [h2]
  cases processAll x c cs {} rng with
  | error e => rfl
  | ok acc =>
  simp only [Except.map, ok_bind]
  have h3 : (acc.sc k).weights.isEmpty = acc.weights.isEmpty := List.isEmpty_map
  rw [h3]
  split
  · rename_i he
    rw [List.isEmpty_iff] at he
    obtain ⟨_, ws, _, _⟩ := acc
    cases he
    rfl
  · show Except.ok _ = Except.ok _
    congr 1
    unfold Inputs.scEnd
    have := normalised_sc hk acc.weights
    show (⟨_, (acc.weights.map (· / k ^ 2)).map (· / (acc.weights.map (· / k ^ 2)).sum), _, _⟩ : Inputs) = _
    rw [this]
    rfl

/-! ### resampling -/

def Resampling.sc (k : ℚ) (r : Resampling) : Resampling :=
  { r with image := r.image.sc k, noises := r.noises.map (Img.sc k), interpOnlyImage := r.interpOnlyImage.sc k }

theorem lanczosSum_sc (im : Img ℚ) (a : ℤ) (y x : ℚ) : lanczosSum (im.sc k) a y x = k * lanczosSum im a y x := by
  rw [lanczosSum_eq, lanczosSum_eq, Finset.mul_sum]
  refine Finset.sum_congr rfl fun r _ => ?_
  rw [Finset.mul_sum]
  refine Finset.sum_congr rfl fun c _ => ?_
  show k * im.px r c * _ = _
  ring

theorem lanczosNan_sc (im : Img ℚ) (pos : List (Option (ℚ × ℚ))) :
    lanczosNan (im.sc k) pos = (lanczosNan im pos).map (List.map fun v => (k * v.1, v.2)) := by
  unfold lanczosNan
  induction pos with
  | nil => rfl
  | cons p l ih =>
    rw [List.mapM_cons, List.mapM_cons, ih]
    cases p with
    | none =>
      simp only [ok_bind]
      generalize (List.mapM (m := Except Err) (β := ℚ × Bool) _ l) = y
      cases y with
      | error e => rfl
      | ok y =>
        show Except.ok _ = Except.ok _
        rw [List.map_cons, mul_zero]
    | some q =>
      simp only
      rw [lanczosOne_eq, lanczosOne_eq, lanczosSum_sc]
      simp only [ok_bind]
      generalize (List.mapM (m := Except Err) (β := ℚ × Bool) _ l) = y
      cases y <;> rfl

theorem lanczosNan2_sc (im f : Img ℚ) (hr : im.nrow = f.nrow) (hc : im.ncol = f.ncol) (pos : List (Option (ℚ × ℚ))) :
    lanczosNan2 (im.sc k) f pos = (lanczosNan2 im f pos).map (List.map fun v => (k * v.1, v.2)) := by
  unfold lanczosNan2
  induction pos with
  | nil => rfl
  | cons p l ih =>
    rw [List.mapM_cons, List.mapM_cons, ih]
    cases p with
    | none =>
      simp only [ok_bind]
      generalize (List.mapM (m := Except Err) (β := ℚ × ℚ × Bool) _ l) = y
      cases y with
      | error e => rfl
      | ok y =>
        show Except.ok _ = Except.ok _
        rw [List.map_cons, mul_zero]
    | some q =>
      simp only
      rw [lanczosOne2_eq _ _ hr hc, lanczosOne2_eq (im.sc k) f hr hc, lanczosSum_sc]
      simp only [ok_bind]
      generalize (List.mapM (m := Except Err) (β := ℚ × ℚ × Bool) _ l) = y
      cases y <;> rfl

theorem timesArea_sc (n : Nat) (v area : List ℚ) : timesArea n (v.map (k * ·)) area = (timesArea n v area).sc k := by
  unfold timesArea reshape Img.sc Img.map
  simp only
  congr 1
  funext r c
  have h : List.zipWith (· * ·) (v.map (k * ·)) area = (List.zipWith (· * ·) v area).map (k * ·) := by
    rw [List.zipWith_map_left, List.map_zipWith]
    congr 1
    funext a b
    ring
  rw [h, List.getD_eq_getElem?_getD, List.getD_eq_getElem?_getD, List.getElem?_map]
  cases (List.zipWith (· * ·) v area)[r * n + c]? with
  | none => exact (mul_zero k).symm
  | some y => rfl

theorem divArea_sc (a : Img ℚ) (f : Nat → Nat → ℚ) (n : Nat) : divArea (a.sc k) f n = (divArea a f n).map (Img.sc k) := by
  unfold divArea
  show (if a.nrow = n ∧ a.ncol = n then _ else _) = _
  split
  · show Except.ok _ = Except.ok _
    congr 1
    unfold Img.sc Img.map
    simp only
    congr 1
    funext r c
    rw [mul_div_assoc]
  · rfl

theorem divArea_shape {a b : Img ℚ} {f : Nat → Nat → ℚ} {n : Nat} (h : divArea a f n = .ok b) : b.nrow = n ∧ b.ncol = n := by
  unfold divArea at h
  split at h
  · cases h
    exact ⟨rfl, rfl⟩
  · cases h

theorem resampleOne_sc (a : Img ℚ) (f : Nat → Nat → ℚ) (n : Nat) (pos : List (Option (ℚ × ℚ))) (area : List ℚ) (box : Nat) :
    resampleOne (a.sc k) f n pos area box = (resampleOne a f n pos area box).map fun p => (p.1.sc k, p.2) := by
  unfold resampleOne
  rw [divArea_sc]
  cases divArea a f n with
  | error e => rfl
  | ok d =>
  simp only [Except.map, ok_bind]
  rw [lanczosNan_sc]
  cases lanczosNan d pos with
  | error e => rfl
  | ok rs =>
    show Except.ok _ = Except.ok _
    congr 1
    have h1 : (rs.map fun v => (k * v.1, v.2)).map Prod.fst = (rs.map Prod.fst).map (k * ·) := by
      rw [List.map_map, List.map_map]
      rfl
    have h2 : (rs.map fun v => (k * v.1, v.2)).map Prod.snd = rs.map Prod.snd := by
      rw [List.map_map]
      rfl
    simp only [h1, h2, timesArea_sc]

theorem mapM_sc (f : Img ℚ → Except Err (Img ℚ × Img Bool)) (h : ∀ a, f (a.sc k) = (f a).map fun p => (p.1.sc k, p.2))
    (l : List (Img ℚ)) : (l.map (Img.sc k)).mapM f = (l.mapM f).map (List.map fun p => (p.1.sc k, p.2)) := by
  induction l with
  | nil => rfl
  | cons a l ih =>
    rw [List.map_cons, List.mapM_cons, List.mapM_cons, ih, h]
    cases f a with
    | error e => rfl
    | ok p =>
    simp only [Except.map, ok_bind]
    cases l.mapM f <;> rfl

theorem resample_sc (o : SEObj) (w : Lookups) (xs ys : ℚ) (box : Nat) (pxs pys : ℚ) (pbox : Nat) :
    (o.sc k).resample w xs ys box pxs pys pbox = (o.resample w xs ys box pxs pys pbox).map (Resampling.sc k) := by
  obtain ⟨xStart, yStart, boxSize, image, bmask, weight, noises, psf, psfX, psfY, psfBox, frac, orig, iom, pmask⟩ := o
  unfold SEObj.resample
  cases boxSize with
  | none => rfl
  | some n =>
  cases psfBox with
  | none => rfl
  | some pb =>
  cases pmask with
  | none => rfl
  | some pm =>
  show SEObj.resampleGo _ w xs ys box pxs pys pbox n.toNat pm = (SEObj.resampleGo _ w xs ys box pxs pys pbox n.toNat pm).map _
  unfold SEObj.resampleGo
  generalize hp : SEObj.resamplePsf (SEObj.sc k _) w pxs pys pbox 0 0 = p1
  generalize hq : SEObj.resamplePsf _ w pxs pys pbox 0 0 = p2
  have hpq : p1 = p2 := by
    rw [← hp, ← hq]
    rfl
  subst hpq
  cases p1 with
  | error e => rfl
  | ok p =>
  simp only [ok_bind, SEObj.sc]
  cases xStart with
  | none => rfl
  | some sx =>
  cases yStart with
  | none => rfl
  | some sy =>
  cases image with
  | none => rfl
  | some im =>
  simp only [attr, ok_bind, Option.map_some]
  rw [resampleOne_sc]
  generalize resampleOne im _ _ _ _ _ = rim
  cases rim with
  | error e => rfl
  | ok rim =>
  simp only [Except.map, ok_bind]
  cases noises with
  | none => rfl
  | some ns =>
  simp only [ok_bind, Option.map_some]
  rw [mapM_sc _ fun a => resampleOne_sc a _ _ _ _ _]
  generalize (List.mapM (m := Except Err) (β := Img ℚ × Img Bool) _ ns) = rns
  cases rns with
  | error e => rfl
  | ok rns =>
  simp only [Except.map, ok_bind]
  cases iom with
  | none => rfl
  | some im2 =>
  simp only [ok_bind, Option.map_some]
  rw [divArea_sc]
  generalize hd : divArea im2 _ _ = d
  cases d with
  | error e => rfl
  | ok d =>
  simp only [Except.map, ok_bind]
  cases frac with
  | none => rfl
  | some fr =>
  simp only [ok_bind]
  generalize hd2 : divArea fr _ _ = d2
  cases d2 with
  | error e => rfl
  | ok d2 =>
  simp only [ok_bind]
  obtain ⟨a1, a2⟩ := divArea_shape hd
  obtain ⟨a3, a4⟩ := divArea_shape hd2
  rw [lanczosNan2_sc d d2 (a1.trans a3.symm) (a2.trans a4.symm)]
  generalize lanczosNan2 d d2 _ = two
  cases two with
  | error e => rfl
  | ok two =>
  simp only [Except.map, ok_bind]
  cases bmask with
  | none => rfl
  | some bm =>
  simp only [ok_bind]
  split
  · rfl
  · show Except.ok _ = Except.ok _
    congr 1
    unfold Resampling.sc
    have h1 : (two.map fun v => (k * v.1, v.2)).map (fun v => v.1) = (two.map fun v => v.1).map (k * ·) := by
      rw [List.map_map, List.map_map]
      rfl
    have h2 : (two.map fun v => (k * v.1, v.2)).map (fun v => v.2.1) = two.map fun v => v.2.1 := by
      rw [List.map_map]
      rfl
    have h3 : (rns.map fun p => (p.1.sc k, p.2)).map Prod.fst = (rns.map Prod.fst).map (Img.sc k) := by
      rw [List.map_map, List.map_map]
      rfl
    simp only [h1, h2, h3, timesArea_sc]

/-! ### coadding -/

def EpochData.sc (k : ℚ) (d : EpochData) : EpochData := { d with image := d.image.sc k, noises := d.noises.map (Img.sc k) }

def Stacks.sc (k : ℚ) (d : Stacks) : Stacks := { d with image := d.image.sc k, noises := d.noises.map (Img.sc k) }

theorem addScaled_sc (a b : Img ℚ) (w : ℚ) : addScaled (a.sc k) (b.sc k) w = (addScaled a b w).map (Img.sc k) := by
  unfold addScaled
  show (if b.nrow = a.nrow ∧ b.ncol = a.ncol then _ else _) = _
  split
  · show Except.ok _ = Except.ok _
    congr 1
    unfold Img.sc Img.map
    simp only
    congr 1
    funext r c
    ring
  · rfl

theorem addNoises_sc (w : ℚ) (l m : List (Img ℚ)) :
    addNoises w (l.map (Img.sc k)) (m.map (Img.sc k)) = (addNoises w l m).map (List.map (Img.sc k)) := by
  induction l generalizing m with
  | nil => rfl
  | cons a l ih =>
    cases m with
    | nil => rfl
    | cons b m =>
      rw [List.map_cons, List.map_cons]
      unfold addNoises
      rw [addScaled_sc]
      cases addScaled a b w with
      | error e => rfl
      | ok s =>
      simp only [Except.map, ok_bind]
      rw [ih]
      cases addNoises w l m <;> rfl

theorem stackStep_sc (st : Stacks) (d : EpochData) (w : ℚ) :
    stackStep (st.sc k) (d.sc k) w = (stackStep st d w).map (Stacks.sc k) := by
  unfold stackStep
  have h1 : addScaled (st.sc k).image (d.sc k).image w = _ := addScaled_sc st.image d.image w
  have h2 : addNoises w (st.sc k).noises (d.sc k).noises = _ := addNoises_sc w st.noises d.noises
  rw [h1]
  cases addScaled st.image d.image w with
  | error e => rfl
  | ok im =>
  simp only [Except.map, ok_bind]
  rw [h2]
  cases addNoises w st.noises d.noises with
  | error e => rfl
  | ok ns =>
  simp only [Except.map, ok_bind]
  show (addScaled st.interpFrac (d.interpFrac.map clipFrac) w >>= fun frac => addScaled st.psf (d.psf.map fun v => v.getD 0) w >>= fun psf =>
    orInto st.ormask d.bmask >>= fun ormask => orInto st.bmask d.pmask >>= fun bmask => _) = _
  cases addScaled st.interpFrac (d.interpFrac.map clipFrac) w with
  | error e => rfl
  | ok f =>
  simp only [ok_bind]
  cases addScaled st.psf (d.psf.map fun v => v.getD 0) w with
  | error e => rfl
  | ok p =>
  simp only [ok_bind]
  cases orInto st.ormask d.bmask with
  | error e => rfl
  | ok m =>
  simp only [ok_bind]
  cases orInto st.bmask d.pmask <;> rfl

theorem stackAll_sc (st : Stacks) (l : List (Except Err EpochData × ℚ)) :
    stackAll (st.sc k) (l.map fun p => (p.1.map (EpochData.sc k), p.2)) = (stackAll st l).map (Stacks.sc k) := by
  induction l generalizing st with
  | nil => rfl
  | cons p l ih =>
    obtain ⟨d, w⟩ := p
    rw [List.map_cons]
    unfold stackAll
    simp only
    cases d with
    | error e => rfl
    | ok d =>
    simp only [Except.map, ok_bind]
    rw [stackStep_sc]
    cases stackStep st d w with
    | error e => rfl
    | ok st' => exact ih st'

/-- The inverse of a variance in other units. -/
def Flt.overSq (k : ℚ) : Flt → Flt
  | .fin q => .fin (1 / k ^ 2 * q)
  | v => v

theorem values_sc (a : Img ℚ) : (a.sc k).values = a.values.map (k * ·) := by
  unfold Img.values
  rw [List.map_flatMap]
  congr 1
  funext r
  rw [List.map_map]
  rfl

theorem npMean_sc (m : ℚ) (l : List ℚ) : npMean (l.map (m * ·)) = m * npMean l := by
  unfold npMean
  have : (l.map (m * ·)).sum = m * l.sum := by
    induction l with
    | nil => simp
    | cons a l ih => rw [List.map_cons, List.sum_cons, List.sum_cons, ih, mul_add]
  rw [this, List.length_map, mul_div_assoc]

theorem invVar_sc (hk : 0 < k) (a : Img ℚ) : invVar (a.sc k) = (invVar a).overSq k := by
  unfold invVar
  simp only [values_sc, List.map_eq_nil_iff]
  split
  · rfl
  have h : npMean ((a.values.map (k * ·)).map fun x => (x - npMean (a.values.map (k * ·))) ^ 2) =
      k ^ 2 * npMean (a.values.map fun x => (x - npMean a.values) ^ 2) := by
    rw [npMean_sc, ← npMean_sc (k ^ 2), List.map_map, List.map_map]
    congr 2
    funext v
    simp only [Function.comp]
    ring
  rw [h]
  have hq : k ^ 2 ≠ 0 := by positivity
  generalize npMean _ = v
  by_cases hv : v = 0
  · rw [if_pos hv, if_pos (by rw [hv, mul_zero])]
    rfl
  · rw [if_neg hv, if_neg (mul_ne_zero hq hv)]
    show Flt.fin _ = Flt.fin _
    rw [one_div_mul_one_div]

def Coadd.sc (k : ℚ) (d : Coadd) : Coadd :=
  { d with image := d.image.sc k, noises := d.noises.map (Img.sc k), weight := d.weight.map (Flt.overSq k) }

theorem coaddSliceInputs_sc (hk : 0 < k) (box psfBox nExtra : Nat) (data : List (Except Err EpochData)) (weights : List ℚ) :
    coaddSliceInputs box psfBox nExtra (data.map (Except.map (EpochData.sc k))) weights =
      (coaddSliceInputs box psfBox nExtra data weights).map (Coadd.sc k) := by
  unfold coaddSliceInputs
  simp only [List.length_map, List.map_eq_nil_iff]
  split
  · rfl
  split
  · rfl
  have hz : (zerosImg box).sc k = zerosImg box := by
    unfold zerosImg Img.sc Img.map
    simp only [mul_zero]
  have h0 : (⟨zerosImg box, zerosImg box, List.replicate (nExtra + 1) (zerosImg box), zerosImg psfBox, zerosMask box,
      zerosMask box⟩ : Stacks) = Stacks.sc k ⟨zerosImg box, zerosImg box, List.replicate (nExtra + 1) (zerosImg box), zerosImg psfBox,
      zerosMask box, zerosMask box⟩ := by
    unfold Stacks.sc
    simp only [List.map_replicate, hz]
  have h1 : (data.map (Except.map (EpochData.sc k))).zip (weights.map (· / weights.sum)) =
      (data.zip (weights.map (· / weights.sum))).map fun p => (p.1.map (EpochData.sc k), p.2) := by
    rw [List.zip_map_left]
    rfl
  rw [h1]
  conv_lhs => rw [h0]
  rw [stackAll_sc]
  generalize stackAll _ _ = y
  cases y with
  | error e => rfl
  | ok st =>
  simp only [Except.map, ok_bind]
  obtain ⟨image, interpFrac, noises, psf, bmask, ormask⟩ := st
  simp only [Stacks.sc]
  cases noises with
  | nil => rfl
  | cons a l =>
    show Except.ok _ = Except.ok _
    congr 1
    unfold Coadd.sc
    simp only [Img.map, ← invVar_sc hk]
    rfl

/-! ### slices -/

theorem fillUsed_sc (data : List EpochRow) (loc : Nat) (l : List (ℚ × Epoch)) :
    fillUsed data loc (l.map fun p => (p.1, p.2.sc k)) = fillUsed data loc l := by
  induction l generalizing data loc with
  | nil => rfl
  | cons p l ih =>
    rw [List.map_cons]
    unfold fillUsed
    have : setRow data loc (p.2.sc k) 0 p.1 = setRow data loc p.2 0 p.1 := rfl
    simp only [this, ih]

theorem fillUnused_sc (data : List EpochRow) (loc : Nat) (l : List (BitVec 32 × Epoch)) :
    fillUnused data loc (l.map fun p => (p.1, p.2.sc k)) = fillUnused data loc l := by
  induction l generalizing data loc with
  | nil => rfl
  | cons p l ih =>
    rw [List.map_cons]
    unfold fillUnused
    have : setRow data loc (p.2.sc k) p.1 0 = setRow data loc p.2 p.1 0 := rfl
    simp only [this, ih]

theorem makeEpochsInfo_sc (id : ℤ) (ws : List ℚ) (us ns : List Epoch) (fs : List (BitVec 32)) :
    makeEpochsInfo id ws (us.map (Epoch.sc k)) (ns.map (Epoch.sc k)) fs = makeEpochsInfo id ws us ns fs := by
  unfold makeEpochsInfo
  have h1 : ws.zip (us.map (Epoch.sc k)) = (ws.zip us).map fun p => (p.1, p.2.sc k) := by
    rw [List.zip_map_right]
    rfl
  have h2 : fs.zip (ns.map (Epoch.sc k)) = (fs.zip ns).map fun p => (p.1, p.2.sc k) := by
    rw [List.zip_map_right]
    rfl
  simp only [List.length_map, h1, h2, fillUsed_sc, fillUnused_sc]

theorem resampleEpoch_sc (row : ObjRow) (lay : PsfLayout) (e : Epoch) :
    resampleEpoch row lay (e.sc k) = (resampleEpoch row lay e).map (EpochData.sc k) := by
  unfold resampleEpoch
  show (e.src.lookups >>= fun w => (e.obj.sc k).resample w _ _ _ _ _ _ >>= fun r => _) = _
  cases e.src.lookups with
  | error e => rfl
  | ok w =>
  simp only [ok_bind]
  rw [resample_sc]
  generalize SEObj.resample _ _ _ _ _ _ _ _ = y
  cases y <;> rfl

end
end Pizza
