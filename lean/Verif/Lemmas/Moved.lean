import Verif.Lemmas.Calibrated
import Verif.Spec.Moved

/-! A slice does not depend on where the pixels of the coadd are numbered from. -/

namespace Pizza

section
variable {A σ S P : Type} {x : Ext A σ} {rng : σ} {dx dy o : ℤ}

theorem BothOk.bind {α β γ : Type} {R : α → β → Prop} {a : Except Err α} {b : Except Err β} (h : BothOk R a b)
    {f : α → Except Err γ} {g : β → Except Err γ} (hf : ∀ x y, R x y → f x = g y) : (a >>= f) = (b >>= g) := by
  cases h with
  | error e => rfl
  | ok a b h => exact hf a b h

/-- The arguments of the selection on the other tile. -/
def BuildCfg.moved (dx dy : ℤ) (c : BuildCfg A) : BuildCfg A :=
  { c with startRow := c.startRow + dy, startCol := c.startCol + dx }

theorem mapImage_moved {α : Type} (k : SEObj) (zero : α) (g : Img α) (xs ys : ℤ) (f f' : ℚ → ℚ → Option (ℚ × ℚ))
    (h : ∀ x y, f' x y = (f x y).map fun q => (q.1 + (dx : ℚ), q.2 + (dy : ℚ))) :
    k.mapImage zero g (xs + dx) (ys + dy) f' = k.mapImage zero g xs ys f := by
  unfold SEObj.mapImage
  have e1 : ∀ p : Option (ℚ × ℚ), (p.map fun q => (q.1 + (dx : ℚ), q.2 + (dy : ℚ))).map (fun q => q.1 - ((xs + dx : ℤ) : ℚ)) =
      p.map fun q => q.1 - (xs : ℚ) := by
    intro p
    cases p with
    | none => rfl
    | some q =>
      simp only [Option.map_some]
      congr 1
      push_cast
      ring
  have e2 : ∀ p : Option (ℚ × ℚ), (p.map fun q => (q.1 + (dx : ℚ), q.2 + (dy : ℚ))).map (fun q => q.2 - ((ys + dy : ℤ) : ℚ)) =
      p.map fun q => q.2 - (ys : ℚ) := by
    intro p
    cases p with
    | none => rfl
    | some q =>
      simp only [Option.map_some]
      congr 1
      push_cast
      ring
  simp only [h, e1, e2]

theorem seGaiaMask_moved (c : BuildCfg A) {s s' : Src} (h : MovedSrc dx dy s s') (k : SEObj) :
    seGaiaMask (c.moved dx dy) s' k = seGaiaMask c s k := by
  unfold seGaiaMask
  show (match c.gaia with | some g => _ | none => _) = _
  cases c.gaia with
  | none => rfl
  | some g =>
    refine (h.toCoadd.bind fun f f' hf => ?_).symm
    rw [show (c.moved dx dy).startCol = c.startCol + dx from rfl, show (c.moved dx dy).startRow = c.startRow + dy from rfl,
      mapImage_moved k false g c.startCol c.startRow f f' hf]

/-- Two candidates from the two tiles. -/
def MovedCand (dx dy : ℤ) (k k' : Cand) : Prop := MovedSrc dx dy k.src k'.src ∧ k'.obj = k.obj ∧ k'.psfFlag = k.psfFlag

def MovedEpoch (dx dy : ℤ) (e e' : Epoch) : Prop := MovedSrc dx dy e.src e'.src ∧ e'.obj = e.obj

structure MovedInputs (dx dy : ℤ) (a a' : Inputs) : Prop where
  slices : List.Forall₂ (MovedEpoch dx dy) a.slices a'.slices
  weights : a'.weights = a.weights
  notUsed : List.Forall₂ (MovedEpoch dx dy) a.notUsed a'.notUsed
  flags : a'.flags = a.flags

theorem roughCut_moved (c : BuildCfg A) {s s' : Src} (h : MovedSrc dx dy s s') :
    BothOk (List.Forall₂ (MovedCand dx dy)) (roughCut c s) (roughCut (c.moved dx dy) s') := by
  have hr := h.rest
  have f1 : s'.imageFlags = s.imageFlags := by rw [hr]
  have f2 : s'.init = s.init := by rw [hr]
  have f3 : s'.containsRadec = s.containsRadec := by rw [hr]
  have f4 : s'.pos = s.pos := by rw [hr]
  have f5 : s'.nrow = s.nrow := by rw [hr]
  have f6 : s'.ncol = s.ncol := by rw [hr]
  have f7 : s'.psfX = s.psfX := by rw [hr]
  have f8 : s'.psfY = s.psfY := by rw [hr]
  have f9 : s'.psfFlag = s.psfFlag := by rw [hr]
  have f10 : s'.psfImage = s.psfImage := by rw [hr]
  have f11 : s'.reads = s.reads := by rw [hr]
  have f12 : s'.scale = s.scale := by rw [hr]
  unfold roughCut
  rw [f1, f2, f3, f4, f5, f6, f7, f8, f9, f10, f11, f12]
  have hb : (c.moved dx dy).boxSize = c.boxSize := rfl
  have hf : (c.moved dx dy).fracBuffer = c.fracBuffer := rfl
  have he : (c.moved dx dy).edgeBuffer = c.edgeBuffer := rfl
  rw [hb, hf, he]
  split
  swap
  · exact .ok _ _ .nil
  cases s.init with
  | error e => exact .error e
  | ok _ =>
  cases s.containsRadec with
  | error e => exact .error e
  | ok inside =>
  cases inside with
  | false => exact .ok _ _ .nil
  | true =>
  cases s.pos with
  | error e => exact .error e
  | ok p =>
  simp only [ok_bind, if_true]
  split
  swap
  · exact .ok _ _ .nil
  rcases ({} : SEObj).setSlice s.reads s.scale (computeSliceBounds p.1 p.2 c.boxSize c.fracBuffer) with ⟨o, e⟩
  cases e with
  | some e => exact .error e
  | none =>
    simp only
    cases (o.setPsf s.psfX s.psfY s.psfFlag s.psfImage).2 with
    | error e => exact .error e
    | ok flag => exact .ok _ _ (.cons ⟨h, rfl, rfl⟩ .nil)

theorem possibleSlices_moved (c : BuildCfg A) {l l' : List Src} (h : List.Forall₂ (MovedSrc dx dy) l l') :
    BothOk (List.Forall₂ (MovedCand dx dy)) (possibleSlices c l) (possibleSlices (c.moved dx dy) l') := by
  induction h with
  | nil => exact .ok _ _ .nil
  | @cons s s' l l' h _ ih =>
    unfold possibleSlices
    have h1 := roughCut_moved c h
    generalize roughCut c s = a at h1
    generalize roughCut (c.moved dx dy) s' = a' at h1
    cases h1 with
    | error e => exact .error e
    | ok a a' h1 =>
      generalize possibleSlices c l = b at ih
      generalize possibleSlices (c.moved dx dy) l' = b' at ih
      cases ih with
      | error e => exact .error e
      | ok b b' h2 => exact .ok _ _ (List.rel_append h1 h2)

theorem mapM_moved {α : Type} (f : SEObj → Except Err α) {l l' : List Cand} (h : List.Forall₂ (MovedCand dx dy) l l') :
    l'.mapM (fun k => f k.obj) = l.mapM fun k => f k.obj := by
  induction h with
  | nil => rfl
  | cons h _ ih => rw [List.mapM_cons, List.mapM_cons, ih, h.2.1]

theorem mapIdx_moved (g : Nat → SEObj → SEObj) {l l' : List Cand} (h : List.Forall₂ (MovedCand dx dy) l l') :
    List.Forall₂ (MovedCand dx dy) (l.mapIdx fun i k => { k with obj := g i k.obj }) (l'.mapIdx fun i k => { k with obj := g i k.obj }) := by
  induction h generalizing g with
  | nil => exact .nil
  | cons h _ ih =>
    rw [List.mapIdx_cons, List.mapIdx_cons]
    exact .cons ⟨h.1, by rw [h.2.1], h.2.2⟩ (ih fun i => g (i + 1))

theorem rejectOutliers_moved (c : BuildCfg A) {l l' : List Cand} (h : List.Forall₂ (MovedCand dx dy) l l') :
    BothOk (List.Forall₂ (MovedCand dx dy)) (rejectOutliers x c l) (rejectOutliers x (c.moved dx dy) l') := by
  unfold rejectOutliers
  rw [mapM_moved (fun o => attr o.image) h, mapM_moved (fun o => attr o.weight) h,
    show (c.moved dx dy).rejectOutliers = c.rejectOutliers from rfl]
  split
  swap
  · exact .ok _ _ h
  cases (l.mapM fun k => attr k.obj.image) with
  | error e => exact .error e
  | ok ims =>
  cases (l.mapM fun k => attr k.obj.weight) with
  | error e => exact .error e
  | ok wts =>
  simp only [ok_bind]
  cases x.outliers ims wts with
  | error e => exact .error e
  | ok new => exact .ok _ _ (mapIdx_moved (fun i o => { o with weight := some (new i) }) h)

theorem processCand_moved (c : BuildCfg A) {k k' : Cand} (h : MovedCand dx dy k k') :
    processCand x (c.moved dx dy) k' rng = processCand x c k rng := by
  unfold processCand
  rw [h.2.1, h.2.2, seGaiaMask_moved c h.1]
  rfl

theorem add_moved {a a' : Inputs} (h : MovedInputs dx dy a a') {s s' : Src} (hs : MovedSrc dx dy s s') (r : Outcome) :
    MovedInputs dx dy (a.add s r) (a'.add s' r) := by
  cases r with
  | used k wt =>
    exact ⟨List.rel_append h.slices (.cons ⟨hs, rfl⟩ .nil), by show a'.weights ++ _ = _; rw [h.weights]; rfl, h.notUsed, h.flags⟩
  | unused k f =>
    exact ⟨h.slices, h.weights, List.rel_append h.notUsed (.cons ⟨hs, rfl⟩ .nil), by show a'.flags ++ _ = _; rw [h.flags]; rfl⟩

theorem processAll_moved (c : BuildCfg A) {l l' : List Cand} (h : List.Forall₂ (MovedCand dx dy) l l') {a a' : Inputs}
    (ha : MovedInputs dx dy a a') :
    BothOk (MovedInputs dx dy) (processAll x c l a rng) (processAll x (c.moved dx dy) l' a' rng) := by
  induction h generalizing a a' rng with
  | nil => exact .ok _ _ ha
  | cons h _ ih =>
    unfold processAll
    rw [processCand_moved c h]
    generalize processCand x c _ rng = r
    cases r with
    | error e => exact .error e
    | ok r => exact ih (add_moved ha h.1 r.1)

theorem buildSliceInputs_moved (c : BuildCfg A) {l l' : List Src} (h : List.Forall₂ (MovedSrc dx dy) l l') :
    BothOk (MovedInputs dx dy) (buildSliceInputs x c l rng) (buildSliceInputs x (c.moved dx dy) l' rng) := by
  unfold buildSliceInputs
  have h1 := possibleSlices_moved c h
  generalize possibleSlices c l = k at h1
  generalize possibleSlices (c.moved dx dy) l' = k' at h1
  cases h1 with
  | error e => exact .error e
  | ok k k' h1 =>
  simp only [ok_bind]
  have e1 : k'.isEmpty = k.isEmpty := by cases h1 <;> rfl
  have e2 : k'.all (·.psfFlag) = k.all (·.psfFlag) := by
    clear e1
    induction h1 with
    | nil => rfl
    | cons h _ ih => rw [List.all_cons, List.all_cons, ih, h.2.2]
  rw [e1, e2]
  split
  · exact .ok _ _ ⟨.nil, rfl, .nil, rfl⟩
  have h2 := rejectOutliers_moved (x := x) c h1
  generalize rejectOutliers x c k = r at h2
  generalize rejectOutliers x (c.moved dx dy) k' = r' at h2
  cases h2 with
  | error e => exact .error e
  | ok r r' h2 =>
  simp only [ok_bind]
  have h3 := processAll_moved (x := x) (rng := rng) c h2 (a := {}) (a' := {}) ⟨.nil, rfl, .nil, rfl⟩
  generalize processAll x c r {} rng = a at h3
  generalize processAll x (c.moved dx dy) r' {} rng = a' at h3
  cases h3 with
  | error e => exact .error e
  | ok a a' h3 =>
  simp only [ok_bind]
  rw [h3.weights]
  split
  · exact .ok _ _ h3
  · exact .ok _ _ ⟨h3.slices, rfl, h3.notUsed, h3.flags⟩

/-- The row of the epochs table with another slice number. -/
def EpochRow.withId (n : ℤ) (e : EpochRow) : EpochRow := { e with id := n }

theorem setRow_moved (n : ℤ) (data : List EpochRow) (loc : Nat) {e e' : Epoch} (h : MovedEpoch dx dy e e') (f : BitVec 32) (w : ℚ) :
    setRow (data.map (EpochRow.withId n)) loc e' f w = (setRow data loc e f w).map (List.map (EpochRow.withId n)) := by
  unfold setRow
  rw [List.getElem?_map]
  cases data[loc]? with
  | none => rfl
  | some old =>
    simp only [Option.map_some]
    unfold epochRow
    have hid : e'.src.imageId = e.src.imageId := by rw [h.1.rest]
    rw [h.2, hid]
    cases attr e.obj.yStart with
    | error e => rfl
    | ok a1 =>
    cases attr e.obj.xStart with
    | error e => rfl
    | ok a2 =>
    cases attr e.obj.boxSize with
    | error e => rfl
    | ok a3 =>
    cases attr e.obj.psfYStart with
    | error e => rfl
    | ok a4 =>
    cases attr e.obj.psfXStart with
    | error e => rfl
    | ok a5 =>
    cases attr e.obj.psfBoxSize with
    | error e => rfl
    | ok a6 =>
      show Except.ok _ = Except.ok _
      rw [List.map_set]
      rfl

theorem fillUsed_moved (n : ℤ) (ws : List ℚ) {l l' : List Epoch} (h : List.Forall₂ (MovedEpoch dx dy) l l') (data : List EpochRow)
    (loc : Nat) : fillUsed (data.map (EpochRow.withId n)) loc (ws.zip l') =
      (fillUsed data loc (ws.zip l)).map fun r => (r.1.map (EpochRow.withId n), r.2) := by
  induction h generalizing ws data loc with
  | nil =>
    rw [List.zip_nil_right]
    rfl
  | cons h _ ih =>
    cases ws with
    | nil => rfl
    | cons w ws =>
      rw [List.zip_cons_cons, List.zip_cons_cons]
      unfold fillUsed
      rw [setRow_moved n data loc h]
      generalize setRow data loc _ 0 w = d
      cases d with
      | error e => rfl
      | ok d => exact ih _ _ _

theorem fillUnused_moved (n : ℤ) (ws : List (BitVec 32)) {l l' : List Epoch} (h : List.Forall₂ (MovedEpoch dx dy) l l')
    (data : List EpochRow) (loc : Nat) : fillUnused (data.map (EpochRow.withId n)) loc (ws.zip l') =
      (fillUnused data loc (ws.zip l)).map (List.map (EpochRow.withId n)) := by
  induction h generalizing ws data loc with
  | nil =>
    rw [List.zip_nil_right]
    rfl
  | cons h _ ih =>
    cases ws with
    | nil => rfl
    | cons w ws =>
      rw [List.zip_cons_cons, List.zip_cons_cons]
      unfold fillUnused
      rw [setRow_moved n data loc h]
      generalize setRow data loc _ w 0 = d
      cases d with
      | error e => rfl
      | ok d => exact ih _ _ _

theorem makeEpochsInfo_moved (n n' : ℤ) {a a' : Inputs} (h : MovedInputs dx dy a a') :
    makeEpochsInfo n' a'.weights a'.slices a'.notUsed a'.flags =
      (makeEpochsInfo n a.weights a.slices a.notUsed a.flags).map (List.map (EpochRow.withId n')) := by
  unfold makeEpochsInfo
  have e : List.replicate (a'.slices.length + a'.notUsed.length) ({ id := n' } : EpochRow) =
      (List.replicate (a.slices.length + a.notUsed.length) ({ id := n } : EpochRow)).map (EpochRow.withId n') := by
    rw [List.map_replicate, h.slices.length_eq, h.notUsed.length_eq]
    rfl
  simp only [e]
  rw [h.weights, h.flags, fillUsed_moved n' _ h.slices]
  generalize fillUsed _ 0 (a.weights.zip a.slices) = r
  cases r with
  | error e => rfl
  | ok r => exact fillUnused_moved n' _ h.notUsed _ _

/-- Pixels of the two tiles that are the same have the same SE position. -/
theorem localPos_moved {l l' : Lookups} (h : ∀ u v, l'.toSe (u + (dx : ℚ)) (v + (dy : ℚ)) = l.toSe u v) (xs ys sx sy : ℚ) (r c : Nat) :
    localPos l' (xs + dx) (ys + dy) sx sy r c = localPos l xs ys sx sy r c := by
  unfold localPos
  rw [← add_assoc, ← add_assoc, h]

theorem resample_moved {l l' : Lookups} (hs : l'.areaSe = l.areaSe) (h : ∀ u v, l'.toSe (u + (dx : ℚ)) (v + (dy : ℚ)) = l.toSe u v)
    (ha : ∀ u v, l'.areaCoadd (u + (dx : ℚ)) (v + (dy : ℚ)) = l.areaCoadd u v) (k : SEObj) (xs ys px py : ℚ) (box pbox : Nat) :
    k.resample l' (xs + dx) (ys + dy) box (px + dx) (py + dy) pbox = k.resample l xs ys box px py pbox := by
  unfold SEObj.resample SEObj.resampleGo SEObj.resamplePsf
  have hl : ∀ xs ys sx sy, localPos l' (xs + (dx : ℚ)) (ys + (dy : ℚ)) sx sy = localPos l xs ys sx sy :=
    fun xs ys sx sy => funext₂ fun r c => localPos_moved h xs ys sx sy r c
  simp only [hl, hs, ← add_assoc, ha]

theorem resampleEpoch_moved {row row' : ObjRow} (hr : MovedRow dx dy row row') (lay lay' : PsfLayout)
    (h1 : lay'.startCol = lay.startCol + dx) (h2 : lay'.startRow = lay.startRow + dy) {e e' : Epoch} (h : MovedEpoch dx dy e e') :
    resampleEpoch row' lay' e' = resampleEpoch row lay e := by
  unfold resampleEpoch
  refine (h.1.lookups.bind fun l l' hl => ?_).symm
  rw [h.2, hr.boxSize, hr.psfBoxSize, hr.startRow, hr.startCol, h1, h2, resample_moved hl.1 hl.2.1 hl.2.2]

theorem map_resample_moved {row row' : ObjRow} (hr : MovedRow dx dy row row') (lay lay' : PsfLayout)
    (h1 : lay'.startCol = lay.startCol + dx) (h2 : lay'.startRow = lay.startRow + dy) {l l' : List Epoch}
    (h : List.Forall₂ (MovedEpoch dx dy) l l') : l'.map (resampleEpoch row' lay') = l.map (resampleEpoch row lay) := by
  induction h with
  | nil => rw [List.map_nil, List.map_nil]
  | cons h _ ih => rw [List.map_cons, List.map_cons, ih, resampleEpoch_moved hr lay lay' h1 h2 h]

theorem layout_moved {v v' : SliceEnv A σ S} (h : MovedTile dx dy o v v') (ra dec : ℚ) (n : ℤ) :
    coaddPsfLayout v'.fwd v'.inv ra dec n v'.offset = (coaddPsfLayout v.fwd v.inv ra dec n v.offset).map fun lay =>
      { lay with startRow := lay.startRow + dy, startCol := lay.startCol + dx } := by
  unfold coaddPsfLayout
  simp only [h.inv, h.offset]
  have e : ∀ (q : ℚ) (d : ℤ), ⌊q + ((d : ℚ) + (o : ℚ)) + 1 / 2⌋ = ⌊q + 1 / 2⌋ + (d + o) := by
    intro q d
    rw [show q + ((d : ℚ) + (o : ℚ)) + 1 / 2 = q + 1 / 2 + ((d + o : ℤ) : ℚ) by push_cast; ring, Int.floor_add_intCast]
  rw [e, e]
  have e2 := h.fwd (⌊(v.inv ra dec).1 + 1 / 2⌋ : ℤ) (⌊(v.inv ra dec).2 + 1 / 2⌋ : ℤ)
  push_cast
  rw [e2]
  split
  · rfl
  · show Except.ok _ = Except.ok _
    congr 2 <;> ring

theorem gaiaFor_moved {v v' : SliceEnv A σ S} (h : MovedTile dx dy o v v') {row row' : ObjRow} (hr : MovedRow dx dy row row') :
    gaiaFor v' row' = gaiaFor v row := by
  have e1 : v'.gaiaFile = v.gaiaFile := by rw [h.rest]
  have e2 : v'.gaiaCfg = v.gaiaCfg := by rw [h.rest]
  have e3 : v'.draw = v.draw := by rw [h.rest]
  have e4 : v'.pow10 = v.pow10 := by rw [h.rest]
  have e5 : v'.f4 = v.f4 := by rw [h.rest]
  unfold gaiaFor
  rw [e1, e2, e3, e4, e5]
  cases v.gaiaFile with
  | none => rfl
  | some file =>
  cases v.gaiaCfg with
  | none => rfl
  | some g =>
  cases file with
  | error e => rfl
  | ok cat =>
    simp only [ok_bind]
    rw [hr.startRow, hr.startCol, hr.boxSize, Int.floor_add_intCast, Int.floor_add_intCast]
    unfold buildGaiaStarMask
    have key : (addGaiaRadius v.pow10 v.f4 (readGaiaStars v'.inv v'.offset cat) g.maxMag g.coeffs).map
        (fun s => (⟨s.1.x - ((⌊row.origStartCol⌋ + dx : ℤ) : ℚ), s.1.y - ((⌊row.origStartRow⌋ + dy : ℤ) : ℚ), s.2⟩ : Circle)) =
      (addGaiaRadius v.pow10 v.f4 (readGaiaStars v.inv v.offset cat) g.maxMag g.coeffs).map
        (fun s => (⟨s.1.x - ((⌊row.origStartCol⌋ : ℤ) : ℚ), s.1.y - ((⌊row.origStartRow⌋ : ℤ) : ℚ), s.2⟩ : Circle)) := by
      unfold readGaiaStars addGaiaRadius
      rw [List.filterMap_map, List.filterMap_map, List.map_filterMap, List.map_filterMap]
      congr 1
      funext s
      simp only [Function.comp]
      cases s.mag with
      | none => rfl
      | some m =>
        simp only
        split
        · simp only [Option.map_some, h.inv, h.offset]
          congr 2 <;> · push_cast; ring
        · rfl
    simp only [key]

theorem cfgFor_moved {v v' : SliceEnv A σ S} (h : MovedTile dx dy o v v') {row row' : ObjRow} (hr : MovedRow dx dy row row')
    (g : Option (Img Bool)) : cfgFor v' row' g = (cfgFor v row g).moved dx dy := by
  have e1 : v'.cfg = v.cfg := by rw [h.rest]
  unfold cfgFor BuildCfg.moved
  rw [e1, hr.boxSize, hr.startRow, hr.startCol, Int.floor_add_intCast, Int.floor_add_intCast]

theorem coaddChosen_moved {v v' : SliceEnv A σ S} (h : MovedTile dx dy o v v') {row row' : ObjRow} (hr : MovedRow dx dy row row')
    (i i' : Nat) (lay lay' : PsfLayout) (hl1 : lay'.startCol = lay.startCol + dx) (hl2 : lay'.startRow = lay.startRow + dy) {a a' : Inputs}
    (h1 : MovedInputs dx dy a a') : coaddChosen v' row' lay' i' a' =
      (coaddChosen v row lay i a).map fun r => { r with i := i', epochs := r.epochs.map (EpochRow.withId row'.id) } := by
  have e1 : v'.ext = v.ext := by rw [h.rest]
  have e3 : v'.nExtra = v.nExtra := by rw [h.rest]
  have h2 : a'.slices.map (resampleEpoch row' lay') = a.slices.map (resampleEpoch row lay) :=
    map_resample_moved hr lay lay' hl1 hl2 h1.slices
  unfold coaddChosen
  rw [h2, makeEpochsInfo_moved row.id row'.id h1, e1, e3, h1.weights, hr.boxSize, hr.psfBoxSize]
  generalize makeEpochsInfo _ a.weights a.slices a.notUsed a.flags = rows
  generalize coaddSliceInputs row.boxSize.toNat row.psfBoxSize.toNat v.nExtra (a.slices.map (resampleEpoch row lay)) a.weights = co
  generalize v.ext.fwhm = fw
  cases rows with
  | error e => rfl
  | ok rows =>
  simp only [Except.map, ok_bind]
  split
  · cases co with
    | error e => rfl
    | ok co =>
    simp only [ok_bind]
    cases fw co.psf with
    | error e => rfl
    | ok s => rfl
  · rfl

end
end Pizza
