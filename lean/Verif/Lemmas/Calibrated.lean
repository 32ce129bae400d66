import Verif.Lemmas.ExRel
import Verif.Model.Slice

/-! A slice depends on the arrays and the zero point of an SE image only through what `set_slice` makes of them. -/

namespace Pizza

/-- A source without its files and its zero point. -/
def Src.strip (s : Src) : Src :=
  { s with reads := ⟨.error .keyError, .error .keyError, .error .keyError, .error .keyError, .error .keyError⟩, scale := 0 }

def Cand.strip (k : Cand) : Cand := { k with src := k.src.strip }

def Epoch.strip (e : Epoch) : Epoch := { e with src := e.src.strip }

def Inputs.strip (a : Inputs) : Inputs :=
  { a with slices := a.slices.map Epoch.strip, notUsed := a.notUsed.map Epoch.strip }

/-- The slice objects made from two sources are the same. -/
def SameCut (s s' : Src) : Prop :=
  s'.strip = s.strip ∧ ∀ B o e, ({} : SEObj).setSlice s.reads s.scale B = (o, e) →
    ∃ o', ({} : SEObj).setSlice s'.reads s'.scale B = (o', e) ∧ (e = none → o' = o)

section
variable {A σ : Type} {x : Ext A σ} {c : BuildCfg A} {rng : σ}

theorem roughCut_strip {s s' : Src} (h : SameCut s s') :
    (roughCut c s').map (List.map Cand.strip) = (roughCut c s).map (List.map Cand.strip) := by
  obtain ⟨h1, h2⟩ := h
  have f1 : s'.imageFlags = s.imageFlags := (congrArg Src.imageFlags h1 :)
  have f2 : s'.init = s.init := (congrArg Src.init h1 :)
  have f3 : s'.containsRadec = s.containsRadec := (congrArg Src.containsRadec h1 :)
  have f4 : s'.pos = s.pos := (congrArg Src.pos h1 :)
  have f5 : s'.nrow = s.nrow := (congrArg Src.nrow h1 :)
  have f6 : s'.ncol = s.ncol := (congrArg Src.ncol h1 :)
  have f7 : s'.psfX = s.psfX := (congrArg Src.psfX h1 :)
  have f8 : s'.psfY = s.psfY := (congrArg Src.psfY h1 :)
  have f9 : s'.psfFlag = s.psfFlag := (congrArg Src.psfFlag h1 :)
  have f10 : s'.psfImage = s.psfImage := (congrArg Src.psfImage h1 :)
  unfold roughCut
  rw [f1, f2, f3, f4, f5, f6, f7, f8, f9, f10]
  split
  swap
  · rfl
  cases s.init with
  | error e => rfl
  | ok _ =>
  cases s.containsRadec with
  | error e => rfl
  | ok inside =>
  cases inside with
  | false => rfl
  | true =>
  cases s.pos with
  | error e => rfl
  | ok p =>
  simp only [ok_bind, if_true]
  split
  swap
  · rfl
  rcases hs : ({} : SEObj).setSlice s.reads s.scale (computeSliceBounds p.1 p.2 c.boxSize c.fracBuffer) with ⟨o, e⟩
  obtain ⟨o', g1, g2⟩ := h2 _ _ _ hs
  rw [g1]
  cases e with
  | some e => rfl
  | none =>
    rw [g2 rfl]
    simp only
    cases (o.setPsf s.psfX s.psfY s.psfFlag s.psfImage).2 with
    | error e => rfl
    | ok flag =>
      show Except.ok [(⟨s'.strip, _, flag⟩ : Cand)] = Except.ok [(⟨s.strip, _, flag⟩ : Cand)]
      rw [h1]

theorem possibleSlices_strip {l l' : List Src} (h : List.Forall₂ SameCut l l') :
    (possibleSlices c l').map (List.map Cand.strip) = (possibleSlices c l).map (List.map Cand.strip) := by
  induction h with
  | nil => rfl
  | @cons s s' l l' h _ ih =>
    unfold possibleSlices
    have h := roughCut_strip (c := c) h
    cases h1 : roughCut c s with
    | error e =>
      rw [h1] at h
      cases h2 : roughCut c s' with
      | error e' => rw [h2] at h; cases h; rfl
      | ok a => rw [h2] at h; cases h
    | ok a =>
      rw [h1] at h
      cases h2 : roughCut c s' with
      | error e' => rw [h2] at h; cases h
      | ok a' =>
        rw [h2] at h
        have ha : a'.map Cand.strip = a.map Cand.strip := Except.ok.inj h
        simp only [ok_bind]
        cases h3 : possibleSlices c l with
        | error e =>
          rw [h3] at ih
          cases h4 : possibleSlices c l' with
          | error e' => rw [h4] at ih; cases ih; rfl
          | ok b => rw [h4] at ih; cases ih
        | ok b =>
          rw [h3] at ih
          cases h4 : possibleSlices c l' with
          | error e' => rw [h4] at ih; cases ih
          | ok b' =>
            rw [h4] at ih
            have hb : b'.map Cand.strip = b.map Cand.strip := Except.ok.inj ih
            show Except.ok ((a' ++ b').map Cand.strip) = Except.ok ((a ++ b).map Cand.strip)
            rw [List.map_append, List.map_append, ha, hb]

theorem mapM_strip {α : Type} (f : SEObj → Except Err α) (l : List Cand) :
    (l.map Cand.strip).mapM (fun k => f k.obj) = l.mapM fun k => f k.obj := by
  rw [List.mapM_map]
  rfl

theorem rejectOutliers_strip (l : List Cand) :
    rejectOutliers x c (l.map Cand.strip) = (rejectOutliers x c l).map (List.map Cand.strip) := by
  unfold rejectOutliers
  rw [mapM_strip (fun o => attr o.image), mapM_strip (fun o => attr o.weight)]
  split
  swap
  · rfl
  cases (l.mapM fun k => attr k.obj.image) with
  | error e => rfl
  | ok ims =>
  cases (l.mapM fun k => attr k.obj.weight) with
  | error e => rfl
  | ok wts =>
  simp only [ok_bind]
  cases x.outliers ims wts with
  | error e => rfl
  | ok new =>
    show Except.ok _ = Except.ok _
    congr 1
    apply List.ext_getElem (by simp)
    intro n h1 h2
    simp [Cand.strip]

theorem processCand_strip (k : Cand) : processCand x c k.strip rng = processCand x c k rng := rfl

theorem add_strip (acc : Inputs) (s : Src) (o : Outcome) : acc.strip.add s.strip o = (acc.add s o).strip := by
  cases o <;> simp [Inputs.add, Inputs.strip, Epoch.strip]

theorem processAll_strip (l : List Cand) (acc : Inputs) :
    processAll x c (l.map Cand.strip) acc.strip rng = (processAll x c l acc rng).map Inputs.strip := by
  induction l generalizing acc rng with
  | nil => rfl
  | cons k l ih =>
    rw [List.map_cons]
    unfold processAll
    rw [processCand_strip]
    cases processCand x c k rng with
    | error e => rfl
    | ok r =>
      simp only [ok_bind]
      rw [show k.strip.src = k.src.strip from rfl, add_strip]
      exact ih _

/-- The part of the selection that comes after the first loop. -/
def restOfBuild (x : Ext A σ) (c : BuildCfg A) (rng : σ) (cands : List Cand) : Except Err Inputs :=
  if cands.isEmpty || cands.all (·.psfFlag) then pure {}
  else do
    let cands ← rejectOutliers x c cands
    let acc ← processAll x c cands {} rng
    if acc.weights.isEmpty then pure acc
    else pure { acc with weights := acc.weights.map (· / acc.weights.sum) }

theorem restOfBuild_strip (l : List Cand) :
    restOfBuild x c rng (l.map Cand.strip) = (restOfBuild x c rng l).map Inputs.strip := by
  unfold restOfBuild
  have h1 : (l.map Cand.strip).isEmpty = l.isEmpty := by cases l <;> rfl
  have h2 : (l.map Cand.strip).all (·.psfFlag) = l.all (·.psfFlag) := by
    rw [List.all_map]
    rfl
  rw [h1, h2, rejectOutliers_strip]
  split
  · rfl
  cases rejectOutliers x c l with
  | error e => rfl
  | ok l =>
    show (processAll x c (l.map Cand.strip) ({} : Inputs).strip rng >>= _) = _
    rw [processAll_strip]
    show _ = ((processAll x c l {} rng >>= _) : Except Err Inputs).map Inputs.strip
    cases processAll x c l {} rng with
    | error e => rfl
    | ok acc =>
      simp only [Except.map, ok_bind]
      have : acc.strip.weights = acc.weights := rfl
      rw [this]
      split <;> rfl

theorem buildSliceInputs_strip {l l' : List Src} (h : List.Forall₂ SameCut l l') :
    (buildSliceInputs x c l' rng).map Inputs.strip = (buildSliceInputs x c l rng).map Inputs.strip := by
  have hb : ∀ l : List Src, (buildSliceInputs x c l rng).map Inputs.strip =
      ((possibleSlices c l).map (List.map Cand.strip)) >>= restOfBuild x c rng := by
    intro l
    show (possibleSlices c l >>= restOfBuild x c rng).map Inputs.strip = _
    cases possibleSlices c l with
    | error e => rfl
    | ok k => exact (restOfBuild_strip k).symm
  rw [hb, hb, possibleSlices_strip h]

variable {S : Type}

theorem fillUsed_strip (l : List (ℚ × Epoch)) (data : List EpochRow) (loc : Nat) :
    fillUsed data loc (l.map fun p => (p.1, p.2.strip)) = fillUsed data loc l := by
  induction l generalizing data loc with
  | nil => rfl
  | cons p l ih =>
    obtain ⟨w, e⟩ := p
    rw [List.map_cons]
    unfold fillUsed
    rw [show setRow data loc (w, e.strip).2 0 w = setRow data loc e 0 w from rfl]
    cases setRow data loc e 0 w with
    | error e => rfl
    | ok d => exact ih _ _

theorem fillUnused_strip (l : List (BitVec 32 × Epoch)) (data : List EpochRow) (loc : Nat) :
    fillUnused data loc (l.map fun p => (p.1, p.2.strip)) = fillUnused data loc l := by
  induction l generalizing data loc with
  | nil => rfl
  | cons p l ih =>
    obtain ⟨w, e⟩ := p
    rw [List.map_cons]
    unfold fillUnused
    rw [show setRow data loc (w, e.strip).2 w 0 = setRow data loc e w 0 from rfl]
    cases setRow data loc e w 0 with
    | error e => rfl
    | ok d => exact ih _ _

theorem coaddChosen_strip (v v' : SliceEnv A σ S) (h : v' = { v with sources := v'.sources }) (row : ObjRow)
    (lay : PsfLayout) (i : Nat) (inp : Inputs) :
    coaddChosen v' row lay i inp.strip = coaddChosen v row lay i inp := by
  have e1 : v'.ext = v.ext := by rw [h]
  have e2 : v'.nExtra = v.nExtra := by rw [h]
  unfold coaddChosen
  rw [e1, e2]
  have h1 : inp.strip.slices.map (resampleEpoch row lay) = inp.slices.map (resampleEpoch row lay) := by
    show (inp.slices.map Epoch.strip).map _ = _
    rw [List.map_map]
    rfl
  have h2 : makeEpochsInfo row.id inp.strip.weights inp.strip.slices inp.strip.notUsed inp.strip.flags =
      makeEpochsInfo row.id inp.weights inp.slices inp.notUsed inp.flags := by
    have z : ∀ {α : Type} (a : List α) (b : List Epoch),
        a.zip (b.map Epoch.strip) = (a.zip b).map fun p => (p.1, p.2.strip) := by
      intro α a b
      rw [List.zip_map_right]
      rfl
    unfold makeEpochsInfo
    show (fillUsed (List.replicate ((inp.slices.map Epoch.strip).length + (inp.notUsed.map Epoch.strip).length) _) 0
      (inp.weights.zip (inp.slices.map Epoch.strip)) >>= fun r => fillUnused r.1 r.2
      (inp.flags.zip (inp.notUsed.map Epoch.strip))) = _
    rw [List.length_map, List.length_map, z, z, fillUsed_strip]
    simp only [fillUnused_strip]
  rw [h1, h2]
  rfl

theorem coaddSingleSlice_strip (v v' : SliceEnv A σ S) (h : v' = { v with sources := v'.sources })
    (hs : ∀ ra dec a b, List.Forall₂ SameCut (v.sources ra dec a b) (v'.sources ra dec a b)) (i seed : Nat) :
    coaddSingleSlice v' i seed = coaddSingleSlice v i seed := by
  have e1 : v'.objects = v.objects := by rw [h]
  have e2 : v'.fwd = v.fwd ∧ v'.inv = v.inv ∧ v'.offset = v.offset := by
    refine ⟨?_, ?_, ?_⟩ <;> rw [h]
  have e3 : v'.ext = v.ext := by rw [h]
  have e4 : v'.seeded = v.seeded := by rw [h]
  have e5 : ∀ row, gaiaFor v' row = gaiaFor v row := by
    intro row
    rw [h]
    rfl
  have e6 : ∀ row g, cfgFor v' row g = cfgFor v row g := by
    intro row g
    rw [h]
    rfl
  unfold coaddSingleSlice
  rw [e1, e2.1, e2.2.1, e2.2.2, e3, e4]
  cases objRow v.objects i with
  | error e => rfl
  | ok row =>
  simp only [ok_bind]
  cases coaddPsfLayout v.fwd v.inv row.ra row.dec row.psfBoxSize v.offset with
  | error e => rfl
  | ok lay =>
  simp only [ok_bind]
  rw [e5]
  cases gaiaFor v row with
  | error e => rfl
  | ok g =>
  simp only [ok_bind]
  rw [e6]
  have hb := buildSliceInputs_strip (x := v.ext) (c := cfgFor v row g) (rng := v.seeded seed)
    (hs row.ra row.dec lay.raPsf lay.decPsf)
  cases h1 : buildSliceInputs v.ext (cfgFor v row g) (v.sources row.ra row.dec lay.raPsf lay.decPsf) (v.seeded seed) with
  | error e =>
    rw [h1] at hb
    cases h2 : buildSliceInputs v.ext (cfgFor v row g) (v'.sources row.ra row.dec lay.raPsf lay.decPsf) (v.seeded seed) with
    | error e' => rw [h2] at hb; cases hb; rfl
    | ok b => rw [h2] at hb; cases hb
  | ok a =>
    rw [h1] at hb
    cases h2 : buildSliceInputs v.ext (cfgFor v row g) (v'.sources row.ra row.dec lay.raPsf lay.decPsf) (v.seeded seed) with
    | error e' => rw [h2] at hb; cases hb
    | ok b =>
      rw [h2] at hb
      have hb : b.strip = a.strip := Except.ok.inj hb
      simp only [ok_bind]
      rw [← coaddChosen_strip v' v' rfl, hb, coaddChosen_strip v v' h]

end
end Pizza
