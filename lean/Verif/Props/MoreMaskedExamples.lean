import Verif.Props.MoreMasked
import Verif.Props.CombineExamples

/-!
Cases that meet the hypotheses of C125, and the role of one of them.
-/

namespace Pizza

/-- The SE images with other fluxes, with a pixel of weight zero, and with most of image `b` flagged. -/
def exMoreWorld : ProcWorld Unit Nat Unit Unit :=
  { exSkyWorld with
    files := fun k =>
      if k.2 = ['w'] then
        .ok (.num ⟨24, 24, fun r c => if r = 9 ∧ c = 12 then 0 else if k.1 = ['a'] then 1 else 2⟩) else
      if k.2 = ['s'] then .ok (.num ⟨24, 24, fun r c => r + c⟩) else exSkyWorld.files k
    arrays := fun _ => .bits ⟨24, 24, fun _ c => if 6 ≤ c then 2 else 0⟩ }

/-- The SE images that a slice uses. -/
def usedIn (r : Except Err (SliceRes Flt EpochRow)) : Option (List ℤ) :=
  match r with
  | .ok r => some ((usedWeights r).map Prod.fst)
  | .error _ => none

theorem usedIn_ok {x : Except Err (SliceRes Flt EpochRow)} {l : List ℤ} (h : usedIn x = some l) :
    ∃ r, x = .ok r ∧ (usedWeights r).map Prod.fst = l := by
  cases x with
  | error e => cases h
  | ok r => exact ⟨r, rfl, Option.some.inj h⟩

theorem exMore_used : usedIn (coaddSingleSlice (freshEnv exSkyWorld exSkyTile) 3 8) = some [0, 1] ∧
    usedIn (coaddSingleSlice (freshEnv exMoreWorld exSkyTile) 3 9) = some [0] := by
  constructor <;> decide +kernel

theorem exExt_rotates : exExt.RotatesMore := fun _ _ _ _ _ h r hr j hj hp => lt_of_lt_of_le hp (h r hr j hj)

/-- Files like those of `exSkyWorld` fit the tile. -/
theorem exSky_sound' (w : ProcWorld Unit Nat Unit Unit)
    (hw : w = { exSkyWorld with files := w.files, arrays := w.arrays })
    (hf : ∀ e ∈ exSkyTile.entries, (∀ a, w.original e.image = .ok a → a.dims = (24, 24)) ∧
      (∀ a, w.original e.bmask = .ok a → a.dims = (24, 24)) ∧ ∀ a, w.original e.weight = .ok a → a.dims = (24, 24))
    (cfg : BuildCfg Unit) (hc : 1 ≤ cfg.fracBuffer) : SoundEnv (freshEnv w { exSkyTile with cfg := cfg }) 3 3 := by
  have h1 : w.disk = exSkyWorld.disk := by rw [hw]
  refine C113_sound w { exSkyTile with cfg := cfg } 3 3 (by norm_num) rfl
    (C93_boxes 1 1 4 3 3 _ _ 0 _ (by norm_num) exObjects_eq) hc ?_ (fun _ _ => by rw [hw]; exact ⟨rfl, rfl⟩) ?_ ?_ ?_
  · intro e he con hcon
    have hs : con.shape = (24, 24) := by
      rw [h1] at hcon
      rcases exBumps_entries he with rfl | rfl <;> (cases hcon; rfl)
    rw [hs]
    obtain ⟨a1, a2, a3⟩ := hf e he
    exact ⟨a1, a2, a3⟩
  · intro e he
    rcases exBumps_entries he with rfl | rfl <;> rfl
  · rw [hw]
    exact exTile_sound.keeps
  · rw [hw]
    exact exTile_sound.fwhm

/-- C125_files, C125_slice: with other fluxes, with one pixel of weight zero and with image `b` mostly flagged, image
`b` is no longer used. -/
example : ∃ r r', MoreMaskedFiles exSkyWorld exMoreWorld exSkyTile ∧ SoundEnv (freshEnv exSkyWorld exSkyTile) 3 3 ∧
    SoundEnv (freshEnv exMoreWorld exSkyTile) 3 3 ∧ exSkyWorld.ext.RotatesMore ∧
    exSkyTile.cfg.rejectOutliers = false ∧ exSkyTile.cfg.copyEdges = false ∧
    coaddSingleSlice (freshEnv exSkyWorld exSkyTile) 3 8 = .ok r ∧
    coaddSingleSlice (freshEnv exMoreWorld exSkyTile) 3 9 = .ok r' ∧
    (usedWeights r).map Prod.fst = [0, 1] ∧ (usedWeights r').map Prod.fst = [0] := by
  obtain ⟨r, a1, a2⟩ := usedIn_ok exMore_used.1
  obtain ⟨r', b1, b2⟩ := usedIn_ok exMore_used.2
  refine ⟨r, r', ⟨rfl, ?_, ?_⟩, exSky_sound exObjects 3 (by norm_num) { exCfg with fracBuffer := 4 }
    (by show (1 : ℚ) ≤ 4; norm_num) (C93_boxes 1 1 4 3 3 _ _ 0 _ (by norm_num) exObjects_eq),
    exSky_sound' exMoreWorld rfl ?_ { exCfg with fracBuffer := 4 } (by show (1 : ℚ) ≤ 4; norm_num), exExt_rotates, rfl,
    rfl, a1, b1, a2, b2⟩
  · intro e he b b' hb hb'
    rcases exBumps_entries he with rfl | rfl <;> cases hb <;> cases hb'
    · exact .refl _
    · refine ⟨rfl, rfl, fun r _ j _ k _ h => ?_⟩
      revert h
      show (0 : BitVec 32).getLsbD k = true → _
      simp
  · intro e he a a' ha ha'
    rcases exBumps_entries he with rfl | rfl <;> cases ha <;> cases ha' <;> refine ⟨rfl, rfl, fun r _ j _ => ?_⟩ <;>
      simp only [Arr.asNum] <;> split <;> simp
  · intro e he
    rcases exBumps_entries he with rfl | rfl <;> refine ⟨?_, ?_, ?_⟩ <;> intro a ha <;> cases ha <;> rfl

/-- The same masks and weights with other fluxes. -/
def exOtherWorld : ProcWorld Unit Nat Unit Unit :=
  { exSkyWorld with
    files := fun k => if k.2 = ['s'] then .ok (.num ⟨24, 24, fun r c => r + c⟩) else exSkyWorld.files k }

/-- The tile with masked edges copied. -/
def exCopyTile : Tile Unit Unit Unit :=
  { exSkyTile with cfg := { exCfg with fracBuffer := 4, copyEdges := true } }

theorem exOther_used : usedIn (coaddSingleSlice (freshEnv exSkyWorld exCopyTile) 3 8) = some [0, 1] ∧
    usedIn (coaddSingleSlice (freshEnv exOtherWorld exCopyTile) 3 9) = some [0, 1] := by
  constructor <;> decide +kernel

/-- C125_values: the same masks and weights, other fluxes, edges copied. -/
example : ∃ r r', SoundEnv (freshEnv exSkyWorld exCopyTile) 3 3 ∧ SoundEnv (freshEnv exOtherWorld exCopyTile) 3 3 ∧
    (∀ ra dec raPsf decPsf, List.Forall₂ (fun s s' => MoreMasked s s' ∧ MoreMasked s' s)
      ((freshEnv exSkyWorld exCopyTile).sources ra dec raPsf decPsf)
      ((freshEnv exOtherWorld exCopyTile).sources ra dec raPsf decPsf)) ∧
    coaddSingleSlice (freshEnv exSkyWorld exCopyTile) 3 8 = .ok r ∧
    coaddSingleSlice (freshEnv exOtherWorld exCopyTile) 3 9 = .ok r' ∧ (usedWeights r).map Prod.fst = [0, 1] := by
  obtain ⟨r, a1, a2⟩ := usedIn_ok exOther_used.1
  obtain ⟨r', b1, -⟩ := usedIn_ok exOther_used.2
  have hw : ∀ e ∈ exCopyTile.entries, exOtherWorld.original e.bmask = exSkyWorld.original e.bmask ∧
      exOtherWorld.original e.weight = exSkyWorld.original e.weight := by
    intro e he
    rcases exBumps_entries he with rfl | rfl <;> exact ⟨rfl, rfl⟩
  have h1 : MoreMaskedFiles exSkyWorld exOtherWorld exCopyTile := by
    refine ⟨rfl, fun e he b b' hb hb' => ?_, fun e he a a' ha ha' => ?_⟩
    · rw [(hw e he).1, hb] at hb'
      cases hb'
      exact .refl _
    · rw [(hw e he).2, ha] at ha'
      cases ha'
      exact .refl _
  have h2 : MoreMaskedFiles exOtherWorld exSkyWorld exCopyTile := by
    refine ⟨rfl, fun e he b b' hb hb' => ?_, fun e he a a' ha ha' => ?_⟩
    · rw [(hw e he).1, hb'] at hb
      cases hb
      exact .refl _
    · rw [(hw e he).2, ha'] at ha
      cases ha
      exact .refl _
  refine ⟨r, r', exSky_sound exObjects 3 (by norm_num) { exCfg with fracBuffer := 4, copyEdges := true }
    (by show (1 : ℚ) ≤ 4; norm_num) (C93_boxes 1 1 4 3 3 _ _ 0 _ (by norm_num) exObjects_eq),
    exSky_sound' exOtherWorld rfl ?_ { exCfg with fracBuffer := 4, copyEdges := true } (by show (1 : ℚ) ≤ 4; norm_num), ?_, a1, b1, a2⟩
  · intro e he
    rcases exBumps_entries he with rfl | rfl <;> refine ⟨?_, ?_, ?_⟩ <;> intro a ha <;> cases ha <;> rfl
  · intro ra dec raPsf decPsf
    show List.Forall₂ _ (exCopyTile.entries.map _) (exCopyTile.entries.map _)
    rw [List.forall₂_map_left_iff, List.forall₂_map_right_iff, List.forall₂_same]
    exact fun e he => ⟨h1.src he ra dec raPsf decPsf, h2.src he ra dec raPsf decPsf⟩

/-- Image `b` with all but four pixels of its window flagged; with `more` one of the four is flagged too. -/
def exEdgeWorld (more : Bool) : ProcWorld Unit Nat Unit Unit :=
  { exSkyWorld with
    arrays := fun _ => .bits ⟨24, 24, fun r c =>
      if r = c ∧ ((r = 8 ∧ more = false) ∨ r = 9 ∨ r = 11 ∨ r = 14) then 0 else 2⟩ }

/-- The tile with masked edges copied. -/
def exEdgeTile : Tile Unit Unit Unit :=
  { exSkyTile with cfg := { exCfg with fracBuffer := 2, copyEdges := true, maxMaskedFraction := 1 } }

theorem exEdge_used : usedIn (coaddSingleSlice (freshEnv (exEdgeWorld false) exEdgeTile) 3 8) = some [0] ∧
    usedIn (coaddSingleSlice (freshEnv (exEdgeWorld true) exEdgeTile) 3 8) = some [0, 1] := by
  constructor <;> decide +kernel

/-- C125 needs that edges are not copied: with the corner of an edge flagged too the whole edge is masked and is
replaced by its neighbours, after which few enough pixels are left to interpolate. -/
theorem C125_edges_matter : ∃ r r', MoreMaskedFiles (exEdgeWorld false) (exEdgeWorld true) exEdgeTile ∧
    SoundEnv (freshEnv (exEdgeWorld false) exEdgeTile) 3 3 ∧ SoundEnv (freshEnv (exEdgeWorld true) exEdgeTile) 3 3 ∧
    (exEdgeWorld false).ext.RotatesMore ∧ exEdgeTile.cfg.rejectOutliers = false ∧
    coaddSingleSlice (freshEnv (exEdgeWorld false) exEdgeTile) 3 8 = .ok r ∧
    coaddSingleSlice (freshEnv (exEdgeWorld true) exEdgeTile) 3 8 = .ok r' ∧
    ¬ ((usedWeights r').map Prod.fst).Sublist ((usedWeights r).map Prod.fst) := by
  obtain ⟨r, a1, a2⟩ := usedIn_ok exEdge_used.1
  obtain ⟨r', b1, b2⟩ := usedIn_ok exEdge_used.2
  have hs : ∀ more, SoundEnv (freshEnv (exEdgeWorld more) exEdgeTile) 3 3 := by
    intro more
    refine exSky_sound' (exEdgeWorld more) rfl ?_ { exCfg with fracBuffer := 2, copyEdges := true, maxMaskedFraction := 1 }
      (by show (1 : ℚ) ≤ 2; norm_num)
    intro e he
    rcases exBumps_entries he with rfl | rfl <;> refine ⟨?_, ?_, ?_⟩ <;> intro a ha <;> cases ha <;> rfl
  refine ⟨r, r', ⟨rfl, ?_, ?_⟩, hs false, hs true, exExt_rotates, rfl, a1, b1, ?_⟩
  · intro e he b b' hb hb'
    rcases exBumps_entries he with rfl | rfl <;> cases hb <;> cases hb'
    · exact .refl _
    · refine ⟨rfl, rfl, fun r _ j _ k _ => ?_⟩
      show (if r = j ∧ ((r = 8 ∧ false = false) ∨ r = 9 ∨ r = 11 ∨ r = 14) then (0 : BitVec 32) else 2).getLsbD k = true →
        (if r = j ∧ ((r = 8 ∧ true = false) ∨ r = 9 ∨ r = 11 ∨ r = 14) then (0 : BitVec 32) else 2).getLsbD k = true
      by_cases h1 : r = j ∧ ((r = 8 ∧ true = false) ∨ r = 9 ∨ r = 11 ∨ r = 14)
      · rw [if_pos (show r = j ∧ ((r = 8 ∧ false = false) ∨ r = 9 ∨ r = 11 ∨ r = 14) from
          ⟨h1.1, h1.2.imp (fun h => absurd h.2 (by decide)) id⟩)]
        simp
      · rw [if_neg h1]
        split
        · simp
        · exact id
  · intro e he a a' ha ha'
    rcases exBumps_entries he with rfl | rfl <;> cases ha <;> cases ha' <;> exact .refl _
  · rw [a2, b2]
    intro h
    have := h.length_le
    simp at this

end Pizza
