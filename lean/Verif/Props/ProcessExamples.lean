import Verif.Props.Process
import Verif.Props.SliceExamples

/-!
Cases that meet the hypotheses of C113 and C114, and what happens without them.
-/

namespace Pizza

/-- A plane through the first three of the points of a grid with two columns. -/
def exPlane : Fit := fun pts vals =>
  match pts, vals with
  | [p0, p1, p2, _], [v0, v1, v2, _] => .ok fun q =>
    some (v0 + (q.2 - p0.2) / (p1.2 - p0.2) * (v1 - v0) + (q.1 - p0.1) / (p2.1 - p0.1) * (v2 - v0))
  | _, _ => .error .valueError

/-- A shift as a WCS. -/
def exProcShift (d : ℚ) : WcsObj := ⟨.affine, fun x y => (x - d, y - d), fun u v => (u + d, v + d), fun _ _ => (1, 0, 0, 1)⟩

/-- Two SE images, `a` with all of its arrays in files, `b` with a mask in memory. -/
def exProcWorld : ProcWorld Unit Nat Unit Unit where
  ext := exExt
  seeded := id
  draw := fun _ n _ => ⟨n, n, fun _ _ => 0⟩
  pow10 := id
  f4 := id
  disk :=
    { imageWcs := fun p _ => if p = ['a'] then .ok (exProcShift 3) else if p = ['b'] then .ok (exProcShift 2) else .error .ioError
      headWcs := fun _ _ _ => .error .ioError
      piff := fun _ _ => .error .ioError
      psfex := fun p => if p = ['p'] then .ok () else .error .ioError
      header := fun _ _ => .ok fun k => if k = "naxis1" ∨ k = "naxis2" then some 8 else none
      skyBounds := fun _ _ _ => .ok (⟨-9, 9, -9, 9⟩, 0, 0) }
  files := fun k => if k.2 = ['m'] then .ok (.bits ⟨8, 8, fun r c => if r = c then 2048 else 0⟩) else
    if k.2 = ['w'] then .ok (.num ⟨8, 8, fun r c => 1 + r + c⟩) else
    if k.2 = ['s'] then .ok (.num ⟨8, 8, fun r c => r * c⟩) else .ok (.num ⟨8, 8, fun _ _ => 1⟩)
  arrays := fun _ => .bits ⟨8, 8, fun r _ => if r = 4 then 2 else 0⟩
  gaia := fun _ => .error .ioError
  zpScale := id
  memNoise := fun s a => ⟨a.nrow, a.ncol, fun r c => if r = c then s else 0⟩
  toUV := fun _ _ _ _ => (0, 0)
  psfKind := fun _ => .psfex
  setupDim := fun _ _ _ _ _ => 3
  drawPsf := fun _ _ _ _ _ _ _ _ _ => .ok ⟨3, 3, fun _ _ => 1⟩
  tGrid := fun _ _ _ _ => .error .ioError
  fit := exPlane
  spl := fun _ _ _ => .ok fun _ _ => 1
  cosd := fun _ => 1
  hash := fun n t e => if t.tapeBumps then e.imageId else e.imageId + 2 * n + 2

/-- An SE image. -/
def exProcEntry (path : PyStr) (id : ℤ) (mask : Loc FileKey) : Entry Unit where
  src := ⟨some path, some ['s'], none, none, none, some 1, none, some ['p'], none⟩
  imageFlags := 0
  imageId := id
  magzp := 2
  offset := 0
  noiseSeeds := [5]
  piffSeed := 0
  image := .file (path, ['s'])
  bkg := .file (path, ['b'])
  bmask := mask
  weight := .file (path, ['w'])

/-- A tile with two SE images and masking of tape bumps. -/
def exBumps : Tile Unit Unit Unit where
  entries := [exProcEntry ['a'] 0 (.file (['a'], ['m'])), exProcEntry ['b'] 1 (.mem 0)]
  wcs := .named "image"
  psf := .named "psfex"
  kwargs := []
  tapeBumps := true
  piffCheck := none
  tmpdir := none
  seDelta := 8
  coaddDelta := 4
  fwd := fun x y => (x, y)
  inv := fun x y => (x, y)
  celestial := false
  key := 0
  offset := 0
  shape := (4, 4)
  cfg := exCfg
  gaiaPath := none
  gaiaCfg := none
  nExtra := 0
  objects := exObjects

theorem exBumps_entries {e : Entry Unit} (h : e ∈ exBumps.entries) :
    e = exProcEntry ['a'] 0 (.file (['a'], ['m'])) ∨ e = exProcEntry ['b'] 1 (.mem 0) := by
  simpa [exBumps] using h

theorem exProcWorld_orderly : Orderly exProcWorld (· = exBumps) where
  maskOnly := by
    rintro t e t' e' rfl he rfl he' -
    rcases exBumps_entries he with rfl | rfl <;> rcases exBumps_entries he' with rfl | rfl <;>
      refine ⟨?_, ?_, ?_⟩ <;> simp [exProcEntry]
  sameMasking := by
    rintro t e t' e' rfl he rfl he' - -
    rcases exBumps_entries he with rfl | rfl <;> rcases exBumps_entries he' with rfl | rfl <;> exact ⟨rfl, rfl⟩
  seHash := by
    rintro n t e n' t' e' rfl he rfl he' h
    rcases exBumps_entries he with rfl | rfl <;> rcases exBumps_entries he' with rfl | rfl <;>
      first | exact ⟨rfl, rfl⟩ | (simp [exProcWorld, exBumps, exProcEntry] at h)
  coaddHash := by rintro t t' rfl rfl -; exact ⟨rfl, rfl, rfl⟩

/-- C08: the same tile without masking of tape bumps meets the assumptions of `C08_originals_kept`. -/
example : Orderly exProcWorld (· = { exBumps with tapeBumps := false }) ∧
    ∀ t, t = { exBumps with tapeBumps := false } → t.tapeBumps = false := by
  refine ⟨⟨?_, ?_, ?_, ?_⟩, by rintro t rfl; rfl⟩
  · rintro t e t' e' rfl - rfl - h
    cases h
  · rintro t e t' e' rfl - rfl - h
    cases h
  · rintro n t e n' t' e' rfl he rfl he' h
    rcases exBumps_entries he with rfl | rfl <;> rcases exBumps_entries he' with rfl | rfl <;>
      first | exact ⟨rfl, rfl⟩ | (simp [exProcWorld, exProcEntry] at h; omega)
  · rintro t t' rfl rfl -; exact ⟨rfl, rfl, rfl⟩

theorem exBumps_sound : SoundEnv (freshEnv exProcWorld exBumps) 3 3 := by
  refine C113_sound exProcWorld exBumps 3 3 (by norm_num) rfl (C93_boxes 1 1 4 3 3 _ _ 0 _ (by norm_num) exObjects_eq)
    (le_refl _) ?_ (fun _ _ => ⟨rfl, rfl⟩) ?_ ?_ ?_
  · intro e he con hc
    have : con.shape = (8, 8) := by
      rcases exBumps_entries he with rfl | rfl <;> (cases hc; rfl)
    rw [this]
    rcases exBumps_entries he with rfl | rfl <;> refine ⟨?_, ?_, ?_⟩ <;> intro a ha <;> cases ha <;> rfl
  · intro e he
    rcases exBumps_entries he with rfl | rfl <;> rfl
  · exact exTile_sound.keeps
  · exact exTile_sound.fwhm

/-- What is compared of a result: the weights, the flags of the epochs and whether there is a pixel with a bit set. -/
def exProcSummary (bit : ℤ) (r : Except Err (SliceRes Flt EpochRow)) : Option (List ℚ × List (BitVec 32) × Option Bool) :=
  match r with
  | .ok r => some (r.weights, r.epochs.map EpochRow.flags, r.pix.map fun p => p.ormask.any fun
    | .fin x => decide (x.floor / bit % 2 = 1)
    | _ => false)
  | .error _ => none

theorem exProcSummary_ok {bit : ℤ} {r : Except Err (SliceRes Flt EpochRow)}
    {x : List ℚ × List (BitVec 32) × Option Bool} (h : exProcSummary bit r = some x) : ∃ v, r = .ok v := by
  cases r with
  | ok v => exact ⟨v, rfl⟩
  | error e => cases h

/-- A process that has computed slices of the tile, with and without clearing its caches, computes a further one. -/
example : Orderly exProcWorld (· = exBumps) ∧
    OpsIn (· = exBumps) [.slice exBumps 0 7, .clear, .chunk exBumps [(3, 1), (9, 2), (1, 1)]] ∧
    exProcSummary 16384 (coaddSingleSliceP exProcWorld exBumps 2 7 (procRun exProcWorld (Proc.fresh (fun _ => 1) exProcWorld.arrays 0)
      [.slice exBumps 0 7, .clear, .chunk exBumps [(3, 1), (9, 2), (1, 1)]])).1 =
      some ([6 / 11, 5 / 11], [0, 0], some true) := by
  have hops : OpsIn (· = exBumps) [.slice exBumps 0 7, .clear, .chunk exBumps [(3, 1), (9, 2), (1, 1)]] := by
    intro t
    constructor
    · intro i seed h; simp at h; exact h.1
    · intro jobs h; simp at h; exact h.1
  refine ⟨exProcWorld_orderly, hops, ?_⟩
  rw [C113_slice exProcWorld_orderly _ _ _ hops _ rfl]
  decide +kernel

/-- The same tile without masking of tape bumps. -/
def exNoBumps : Tile Unit Unit Unit := { exBumps with tapeBumps := false }

/-- C113: that all tiles have the same setting for tape bumps is needed: after a slice with masking of tape bumps, a slice of
the same images without it has the bit of tape bumps set in its masks, also if it does not have it set otherwise. -/
theorem C113_condition_needed : ∃ (w : ProcWorld Unit Nat Unit Unit) (t t' : Tile Unit Unit Unit) (i seed : Nat),
    t' = { t with tapeBumps := false } ∧
    exProcSummary 16384 (coaddSingleSlice (freshEnv w t') i seed) = some ([6 / 11, 5 / 11], [0, 0], some false) ∧
    exProcSummary 16384 (coaddSingleSliceP w t' i seed
      (procRun w (Proc.fresh (fun _ => 16) w.arrays 0) [.slice t i seed])).1 =
      some ([6 / 11, 5 / 11], [0, 0], some true) := by
  refine ⟨exProcWorld, exBumps, exNoBumps, 2, 7, rfl, ?_, ?_⟩ <;> decide +kernel

theorem exBumps_ok (i : Nat) (hi : i < 4) : ∃ r, coaddSingleSlice (freshEnv exProcWorld exBumps) i 7 = .ok r := by
  have h : ∀ j < 4, (exProcSummary 1 (coaddSingleSlice (freshEnv exProcWorld exBumps) j 7)).isSome = true := by decide +kernel
  obtain ⟨x, hx⟩ := Option.isSome_iff_exists.1 (h i hi)
  exact exProcSummary_ok hx

/-- `C114_parallel`: a complete parallel run in processes forked from a parent that has already computed a slice. -/
example : ∃ fits chunks k s, ∃ parent : Proc Unit,
    parent = procRun exProcWorld (Proc.fresh (fun _ => 1) exProcWorld.arrays 0) [.slice exBumps 0 7] ∧
    reserveImages exFltOps none (exBumps.objects.length * (3 * 3)) (exBumps.objects.length * (3 * 3)) exBumps.nExtra
      (3 * 3) (3 * 3) = .ok fits ∧
    allChunks [2, 0, 1] [7, 7, 7, 7] 2 = .ok chunks ∧
    QSteps exProcWorld exBumps (runShapeOf (freshEnv exProcWorld exBumps) exFltOps none 3 3) parent.arrays 3 20 k
      (QState.init chunks parent 2 ⟨fits, List.replicate exBumps.objects.length ⟨0, 0, 0, 0, 0, 0⟩, []⟩) s ∧
    s.status = .done := by
  have hops : OpsIn (· = exBumps) [.slice exBumps 0 7] := by
    intro t
    constructor
    · intro i seed h; simp at h; exact h.1
    · intro jobs h; simp at h
  obtain ⟨fits, hf, _⟩ := C63_reserved exFltOps none (exBumps.objects.length * (3 * 3))
    (exBumps.objects.length * (3 * 3)) exBumps.nExtra (3 * 3) (3 * 3)
  obtain ⟨k, s, h1, h2⟩ := C114_completes exProcWorld_orderly (fun _ => 1) 0 _ hops exBumps rfl
    (runShapeOf (freshEnv exProcWorld exBumps) exFltOps none 3 3) 3 2 20 0 [[(2, 7), (0, 7)], [(1, 7)]] _ rfl
    ⟨fits, List.replicate exBumps.objects.length ⟨0, 0, 0, 0, 0, 0⟩, []⟩ _ (.refl _)
  refine ⟨fits, _, _, s, _, rfl, hf, rfl, h1, ?_⟩
  refine (C114_outcome exProcWorld_orderly _ _ _ hops exBumps rfl 3 3 exBumps_sound exFltOps (fun x hx => hx) none _
    (by rw [List.length_replicate]) fits hf [2, 0, 1] [7, 7, 7, 7] (by decide) 2 2 20 _ (by omega) (by omega) _ rfl _ rfl s
    h1 h2).2.1 ?_
  intro i hi
  simp only [List.mem_cons, List.not_mem_nil, or_false] at hi
  rcases hi with rfl | rfl | rfl <;> exact exBumps_ok _ (by norm_num)

theorem exBumps_ops : OpsIn (· = exBumps) [.slice exBumps 0 7, .clear, .chunk exBumps [(3, 1), (9, 2), (1, 1)]] := by
  intro t
  constructor
  · intro i seed h; simp at h; exact h.1
  · intro jobs h; simp at h; exact h.1

/-- `C113_history_independent`, `C113_chunk`, `C113_arrays_kept` and `C114_sequential` for such a process. -/
example (c : RunShape Flt) (o : Out Flt EpochRow) := And.intro
  (C113_history_independent exProcWorld_orderly (fun _ => 1) (fun _ => 9) 0 3 _ [] exBumps_ops
    (by intro t; constructor <;> simp) exBumps rfl 2 7)
  (And.intro (C113_chunk exProcWorld_orderly (fun _ => 1) 0 _ exBumps_ops exBumps rfl [(2, 7), (0, 7)])
    (And.intro
      (C113_arrays_kept exProcWorld_orderly (fun _ => 1) 0 _ exBumps_ops 5 (by
        rintro t e rfl he -
        rcases exBumps_entries he with rfl | rfl <;> simp [exProcEntry]))
      (C114_sequential exProcWorld_orderly (fun _ => 1) 0 _ exBumps_ops exBumps rfl c o [(2, 7), (0, 7)])))

/-- `C113_sound` gives `exBumps_sound`. -/
example := exBumps_sound

end Pizza
