import Verif.Props.CalibratedExamples
import Verif.Props.MaskedFiles

/-!
Cases that meet the hypotheses of C120 for files.
-/

namespace Pizza

/-- The files of `exProcWorld` with other values in one row of the image and of the background of SE image `b`. -/
def exRowWorld (row : Nat) : ProcWorld Unit Nat Unit Unit :=
  { exProcWorld with
    files := fun k =>
      if k = (['b'], ['s']) then .ok (.num ⟨8, 8, fun r c => if r = row then 1000 else r * c⟩)
      else if k = (['b'], ['b']) then .ok (.num ⟨8, 8, fun r _ => if r = row then -7 else 1⟩)
      else exProcWorld.files k }

theorem exRow_masked (j : Nat) (hj : j < 8) : MaskedOut exProcWorld exBumps (exProcEntry ['b'] 1 (.mem 0)) 4 j := by
  have h : ∀ j < 8, (match freshMask exProcWorld exBumps (exProcEntry ['b'] 1 (.mem 0)) with
      | .ok bm => (bm.px 4 j).getLsbD 1 | .error _ => false) = true := by decide +kernel
  have h := h j hj
  cases hf : freshMask exProcWorld exBumps (exProcEntry ['b'] 1 (.mem 0)) with
  | error e => rw [hf] at h; cases h
  | ok bm =>
    rw [hf] at h
    exact ⟨bm, hf, .inr ⟨rfl, 1, by norm_num, h, rfl⟩⟩

theorem exRow_files : SameOffMasks exProcWorld (exRowWorld 4) exBumps where
  world := rfl
  weight := by intro e he; rcases exBumps_entries he with rfl | rfl <;> rfl
  mask := by intro e he; rcases exBumps_entries he with rfl | rfl <;> rfl
  image := by
    intro e he
    rcases exBumps_entries he with rfl | rfl
    · exact .inr ⟨_, _, rfl, rfl, SameOff.refl _ _⟩
    · refine .inr ⟨_, _, rfl, rfl, rfl, rfl, fun r hr j hj hn => ?_⟩
      have : r ≠ 4 := by
        rintro rfl
        exact hn (exRow_masked j hj)
      simp [Arr.asNum, this]
  bkg := by
    intro e he
    rcases exBumps_entries he with rfl | rfl
    · exact .inr ⟨_, _, rfl, rfl, SameOff.refl _ _⟩
    · refine .inr ⟨_, _, rfl, rfl, rfl, rfl, fun r hr j hj hn => ?_⟩
      have : r ≠ 4 := by
        rintro rfl
        exact hn (exRow_masked j hj)
      simp [Arr.asNum, this]

/-- C120: a row under a mask does not matter, the next one does. -/
theorem C120_mask_needed : SameOffMasks exProcWorld (exRowWorld 4) exBumps ∧
    SoundEnv (freshEnv exProcWorld exBumps) 3 3 ∧ exBumps.cfg.rejectOutliers = false ∧
    exFirstPixel (coaddSingleSlice (freshEnv (exRowWorld 4) exBumps) 2 7) =
      exFirstPixel (coaddSingleSlice (freshEnv exProcWorld exBumps) 2 7) ∧
    (exFirstPixel (coaddSingleSlice (freshEnv exProcWorld exBumps) 2 7)).isSome ∧
    exFirstPixel (coaddSingleSlice (freshEnv (exRowWorld 3) exBumps) 2 7) ≠
      exFirstPixel (coaddSingleSlice (freshEnv exProcWorld exBumps) 2 7) := by
  refine ⟨exRow_files, exBumps_sound, rfl, by rw [C120_files exRow_files 3 3 exBumps_sound rfl], ?_, ?_⟩ <;> decide +kernel

theorem Orderly.files {A σ S P : Type} {w w' : ProcWorld A σ S P} {U : Tile A S P → Prop} (h : Orderly w U)
    (hw : w' = { w with files := w'.files, arrays := w'.arrays }) : Orderly w' U := by
  refine ⟨h.maskOnly, h.sameMasking, ?_, h.coaddHash⟩
  rw [hw]
  exact h.seHash

/-- The call for these files. -/
def exRowCall : MakeP Unit Nat Unit Unit Nat Nat where
  args := exMakeP.args
  world := exRowWorld 4
  tile := exBumps
  same := rfl

theorem exRowCall_within : exRowCall.Within (exRowWorld 4) exSeeded :=
  ⟨rfl, fun t h1 h2 => (exMakeP_within exMakeP.args.nJobs exMakeP.args.nChunks none).2 t h1 h2⟩

/-- C120_process, C120_call and C120_process_call: two calls in two processes that come to an end. -/
example : SameCallOffMasks exMakeP exRowCall ∧ SoundMake exMakeP.fresh 3 3 ∧ Orderly exProcWorld (· = exBumps) ∧
    Orderly (exRowWorld 4) (· = exBumps) ∧ Orderly exProcWorld exSeeded ∧ Orderly (exRowWorld 4) exSeeded ∧
    exMakeP.Within exProcWorld exSeeded ∧ exRowCall.Within (exRowWorld 4) exSeeded ∧
    (1 < exMakeP.args.nJobs → exMakeP.args.nChunks ≠ some 0) ∧
    ∃ p ss st1 ss' r su1, prepare exMakeP.plan = .ok p ∧
      FitsBodyP exMakeP p (Proc.fresh (fun _ => 1) exProcWorld.arrays 0) ss none st1 ∧
      FitsBodyP exRowCall p (Proc.fresh (fun _ => 0) (exRowWorld 4).arrays 3) ss' r su1 := by
  have hj : 1 < exMakeP.args.nJobs → exMakeP.args.nChunks ≠ some 0 := by decide
  have h : SameCallOffMasks exMakeP exRowCall := ⟨exRow_files, rfl, rfl⟩
  obtain ⟨p, hp, -⟩ := exMakeP_prepare
  obtain ⟨ss, st1, a⟩ := exMakeP_processed exMakeP.args.nJobs exMakeP.args.nChunks none hj p hp
    (Proc.fresh (fun _ => 1) exProcWorld.arrays 0) (.fresh _ _)
  have hs : SoundMake exRowCall.fresh 3 3 := by
    refine C116_sound exRowCall 3 3 (by norm_num) rfl rfl rfl (le_refl _) ?_ (fun _ _ => ⟨rfl, rfl⟩) exTile_sound.keeps
      exTile_sound.fwhm (fun _ h => h) exArgsort_spec (fun n => List.length_replicate)
    intro e he con hc
    have : con.shape = (8, 8) := by
      rcases exBumps_entries he with rfl | rfl <;> (cases hc; rfl)
    rw [this]
    rcases exBumps_entries he with rfl | rfl <;> refine ⟨?_, ?_, ?_⟩ <;> intro a ha <;> cases ha <;> rfl
  obtain ⟨ss', r, su1, b⟩ := C116_ends (exSeeded_orderly.files rfl) exRowCall exRowCall_within 3 3 hs p hp
    (Proc.fresh (fun _ => 0) (exRowWorld 4).arrays 3) (.fresh _ _)
  exact ⟨h, exMakeP_sound, exProcWorld_orderly, exProcWorld_orderly.files rfl, exSeeded_orderly, exSeeded_orderly.files rfl,
    exMakeP_within _ _ _, exRowCall_within, hj, p, ss, st1, ss', r, su1, hp, a, b⟩

/-- `C120_files`: a row under a mask. -/
example := C120_files exRow_files 3 3 exBumps_sound rfl 2 7

end Pizza
