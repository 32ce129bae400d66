import Verif.Spec.Calibrated

/-! Two calls whose slices give the same write the same. -/

namespace Pizza

variable {A σ S W ρ : Type}

/-- Two calls that differ in the descriptions that they write and in their SE images, which give the same slices. -/
structure SameWork (m m' : MakeIn A σ S W ρ) : Prop where
  rest : m' = { m with srcs := m'.srcs, json := m'.json, sourcesOf := m'.sourcesOf }
  srcs : m'.srcs.length = m.srcs.length
  slices : ∀ objs i seed,
    coaddSingleSlice (sliceEnvFor m' objs) i seed = coaddSingleSlice (sliceEnvFor m objs) i seed

theorem finishFile_swap {m m' : MakeIn A σ S W ρ} (h : m'.slice = m.slice) {p p' : Prepared} (hp : p'.objects = p.objects)
    (n : Nat) (o : Out Flt EpochRow) :
    List.Forall₂ SameButDescription (finishFile m p n o).1 (finishFile m' p' n o).1 ∧
      (finishFile m' p' n o).2 = (finishFile m p n o).2 := by
  have hr : ∀ l : List Section, List.Forall₂ SameButDescription l l := fun l =>
    List.forall₂_same.2 fun s _ => .same s
  unfold finishFile
  rw [h, hp]
  simp only
  split
  · exact ⟨hr _, rfl⟩
  split
  · exact ⟨hr _, rfl⟩
  have h4 : ∀ a : List Section, List.Forall₂ SameButDescription
      (a ++ [.epochsInfo o.epochs.flatten, .metadata p.md, .tileInfo p.json, .imageInfo p.imageInfo])
      (a ++ [.epochsInfo o.epochs.flatten, .metadata p'.md, .tileInfo p'.json, .imageInfo p'.imageInfo]) := fun a =>
    List.rel_append (hr a) (.cons (.same _) (.cons (.metadata _ _) (.cons (.tileInfo _ _) (.cons (.imageInfo _ _) .nil))))
  split
  · exact ⟨h4 _, rfl⟩
  · exact ⟨h4 _, rfl⟩
  · exact ⟨List.rel_append (h4 _) (hr _), rfl⟩

theorem FitsBody.swap {m m' : MakeIn A σ S W ρ} (h : SameWork m m') {p p' : Prepared} (hp : p'.objects = p.objects)
    {ss : List Section} {r : Option Err} (hb : FitsBody m p ss r) :
    ∃ ss', FitsBody m' p' ss' r ∧ List.Forall₂ SameButDescription ss ss' := by
  have hr : ∀ l : List Section, List.Forall₂ SameButDescription l l := fun l =>
    List.forall₂_same.2 fun s _ => .same s
  have e0 : m'.slice = m.slice := by rw [h.rest]
  have e1 : ∀ objs, selectSlices m' objs = selectSlices m objs := by intro objs; rw [h.rest]; rfl
  have e2 : m'.ops = m.ops := by rw [h.rest]
  have e3 : m'.pars = m.pars := by rw [h.rest]
  have e4 : m'.nJobs = m.nJobs := by rw [h.rest]
  have e5 : m'.nChunks = m.nChunks := by rw [h.rest]
  have e6 : m'.rows0 = m.rows0 := by rw [h.rest]
  have e7 : ∀ objs, seedsFor m' objs = seedsFor m objs := by
    intro objs
    unfold seedsFor
    rw [h.srcs, e0, show m'.rand = m.rand by rw [h.rest], show m'.randState = m.randState by rw [h.rest]]
  have e8 : ∀ objs, coaddSingleSlice (sliceEnvFor m' objs) = coaddSingleSlice (sliceEnvFor m objs) := fun objs =>
    funext fun i => funext fun seed => h.slices objs i seed
  cases hb with
  | select e a => exact ⟨[], .select e (by rw [e1, hp]; exact a), hr _⟩
  | counts sl e a b => exact ⟨[], .counts sl e (by rw [e1, hp]; exact a) (by rw [hp]; exact b), hr _⟩
  | reserve sl n ss e a b c =>
    exact ⟨ss, .reserve sl n ss e (by rw [e1, hp]; exact a) (by rw [hp]; exact b) (by rw [e0, e2, e3]; exact c), hr _⟩
  | slices sl n fits ss e a b c d =>
    refine ⟨ss, .slices sl n fits ss e (by rw [e1, hp]; exact a) (by rw [hp]; exact b) (by rw [e0, e2, e3]; exact c) ?_, hr _⟩
    rw [e0, e2, e3, e4, e5, e6, hp, e7, e8]
    exact d
  | finish sl n fits o a b c d =>
    obtain ⟨f1, f2⟩ := finishFile_swap e0 hp sl.length o
    refine ⟨(finishFile m' p' sl.length o).1, ?_, f1⟩
    rw [← f2]
    refine .finish sl n fits o (by rw [e1, hp]; exact a) (by rw [hp]; exact b) (by rw [e0, e2, e3]; exact c) ?_
    rw [e0, e2, e3, e4, e5, e6, hp, e7, e8]
    exact d

end Pizza
