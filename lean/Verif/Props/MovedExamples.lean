import Verif.Props.Moved
import Verif.Props.ProcessExamples
import Verif.Props.WcsGridExamples

/-! Cases that meet the hypotheses of C157. -/

namespace Pizza

/-- Moving the positions of an SE image on the coadd. -/
def exMoveSrc (dx dy : ℤ) (s : Src) : Src :=
  { s with
    toCoadd := s.toCoadd.map fun f x y => (f x y).map fun q => (q.1 + (dx : ℚ), q.2 + (dy : ℚ))
    lookups := s.lookups.map fun l => ⟨fun u v => l.toSe (u - dx) (v - dy), l.areaSe, fun u v => l.areaCoadd (u - dx) (v - dy)⟩ }

theorem exMoveSrc_moved (dx dy : ℤ) (s : Src) : MovedSrc dx dy s (exMoveSrc dx dy s) := by
  refine ⟨rfl, ?_, ?_⟩
  · show BothOk _ s.toCoadd (s.toCoadd.map _)
    cases s.toCoadd with
    | error e => exact .error e
    | ok f => exact .ok _ _ fun _ _ => rfl
  · show BothOk _ s.lookups (s.lookups.map _)
    cases s.lookups with
    | error e => exact .error e
    | ok l => exact .ok _ _ ⟨rfl, fun u v => by simp, fun u v => by simp⟩

/-- Moving a tile, with other numbers for the slices. -/
def exMoveEnv (dx dy o : ℤ) (n : Nat) (v : SliceEnv Unit Nat Unit) : SliceEnv Unit Nat Unit :=
  { v with
    fwd := fun x y => v.fwd (x - (dx + o)) (y - (dy + o))
    inv := fun ra dec => ((v.inv ra dec).1 + (dx + o), (v.inv ra dec).2 + (dy + o))
    offset := v.offset + o
    sources := fun a b c d => (v.sources a b c d).map (exMoveSrc dx dy)
    objects := v.objects.map fun r => { r with id := r.id + n, origStartRow := r.origStartRow + dy, origStartCol := r.origStartCol + dx } }

theorem exMoveEnv_moved (dx dy o : ℤ) (n : Nat) (v : SliceEnv Unit Nat Unit) : MovedTile dx dy o v (exMoveEnv dx dy o n v) where
  rest := rfl
  offset := rfl
  fwd := fun x y => by simp [exMoveEnv]
  inv := fun _ _ => rfl
  sources := fun a b c d => by
    show List.Forall₂ _ _ (List.map _ _)
    rw [List.forall₂_map_right_iff, List.forall₂_same]
    exact fun s _ => exMoveSrc_moved dx dy s

/-- `C157_slice`: the first slice of a tile with two SE images, and the same tile moved by 100 columns and -20 rows, with pixels counted from 1. -/
example : ∃ r, coaddSingleSlice exTile 0 7 = .ok r ∧ r.pix ≠ none ∧
    coaddSingleSlice (exMoveEnv 100 (-20) 1 5 exTile) 0 7 = .ok { r with i := 0, epochs := r.epochs.map fun e => { e with id := 5 } } := by
  have hl : exObjects.length = 4 := by decide +kernel
  obtain ⟨row, hrow⟩ : ∃ row, exObjects[0]? = some row := ⟨_, List.getElem?_eq_getElem (by omega)⟩
  have hid : row.id = 0 := by
    have h : (exObjects[0]?.map ObjRow.id) = some 0 := by decide +kernel
    rw [hrow] at h
    exact Option.some.inj h
  have h := C157_slice exTile _ (exMoveEnv_moved 100 (-20) 1 5 exTile) 0 0 row
    { row with id := row.id + 5, origStartRow := row.origStartRow + ((-20 : ℤ) : ℚ), origStartCol := row.origStartCol + ((100 : ℤ) : ℚ) } hrow
    (by show (exObjects.map _)[0]? = _; rw [List.getElem?_map, hrow]; rfl) ⟨rfl, rfl, rfl, rfl, rfl, rfl⟩ 7
  have hp : (match coaddSingleSlice exTile 0 7 with | .ok r => r.pix.isSome | .error _ => false) = true := by decide +kernel
  cases hr : coaddSingleSlice exTile 0 7 with
  | error e =>
    rw [hr] at hp
    cases hp
  | ok r =>
    rw [hr] at hp h
    refine ⟨r, rfl, ?_, ?_⟩
    · intro hn
      change r.pix.isSome = true at hp
      rw [hn] at hp
      cases hp
    · rw [h]
      simp [Except.map, hid]

theorem exPlane_moves : Fit.Moves exPlane where
  pts := by
    intro p vals a b
    rcases p with _ | ⟨p0, _ | ⟨p1, _ | ⟨p2, _ | ⟨p3, _ | ⟨p4, l⟩⟩⟩⟩⟩ <;> try rfl
    rcases vals with _ | ⟨v0, _ | ⟨v1, _ | ⟨v2, _ | ⟨v3, _ | ⟨v4, k⟩⟩⟩⟩⟩ <;> try rfl
    show Except.ok _ = Except.ok _
    congr 1
    funext q
    simp only [add_sub_add_right_eq_sub]
    rw [show q.1 - a - p0.1 = q.1 - (p0.1 + a) by ring, show q.2 - b - p0.2 = q.2 - (p0.2 + b) by ring]
  vals := by
    intro p vals a
    rcases p with _ | ⟨p0, _ | ⟨p1, _ | ⟨p2, _ | ⟨p3, _ | ⟨p4, l⟩⟩⟩⟩⟩ <;> try rfl
    rcases vals with _ | ⟨v0, _ | ⟨v1, _ | ⟨v2, _ | ⟨v3, _ | ⟨v4, k⟩⟩⟩⟩⟩ <;> try rfl
    show Except.ok _ = Except.ok _
    congr 1
    funext q
    simp only [Option.map_some, add_sub_add_right_eq_sub]
    congr 1
    ring

/-- The objects of a tile of 8 by 8 pixels, counted from 1, of which the tile of 4 by 4 pixels is a part. -/
def exLargeObjects : List ObjRow :=
  match buildObjectData 1 1 8 3 (fun x y => (x - 2, y - 3)) (fun _ _ => (1, 0, 0, 1)) 1 with
  | .ok l => l
  | .error _ => []

/-- The tile of 8 by 8 pixels. -/
def exLargeTile : Tile Unit Unit Unit :=
  { exBumps with
    fwd := fun x y => (x - 2, y - 3), inv := fun u v => (u + 2, v + 3), offset := 1, shape := (8, 8), key := 1, coaddDelta := 2
    objects := exLargeObjects }

theorem exLargeTile_moved : MovedFiles 1 2 1 exProcWorld exBumps exLargeTile where
  rest := rfl
  offset := by norm_num [exLargeTile, exBumps]
  fwd := fun x y => by norm_num [exLargeTile, exBumps]
  inv := fun x y => by norm_num [exLargeTile, exBumps]
  area := .ok _ _ fun _ _ => rfl

/-- `C157_objects` and `C157_tile`: each slice of the small tile is a slice of the large one. -/
example (i j : Nat) (hi : i < 2) (hj : j < 2) (seed : Nat) : ∃ n, coaddSingleSlice (freshEnv exProcWorld exLargeTile) ((i + 2) * 6 + (j + 1)) seed =
    (coaddSingleSlice (freshEnv exProcWorld exBumps) (i * 2 + j) seed).map fun r =>
      { r with i := (i + 2) * 6 + (j + 1), epochs := r.epochs.map fun e => { e with id := n } } := by
  obtain ⟨rows, rows', h1, h2, -, -, h⟩ := C157_objects 1 1 4 8 3 (by norm_num) 2 6 2 1 (by norm_num) (by norm_num) (by norm_num) (by norm_num)
    (fun x y => (x, y)) (fun x y => (x - 2, y - 3)) (fun _ _ => (1, 0, 0, 1)) (fun _ _ => (1, 0, 0, 1)) 0 1
    (fun x y => by norm_num) (fun _ _ => rfl)
  obtain ⟨row, row', g1, g2, g3, -⟩ := h i hi j hj
  have e1 : rows = exObjects := Except.ok.inj (h1.symm.trans exObjects_eq)
  have e2 : rows' = exLargeObjects := by
    unfold exLargeObjects
    rw [zero_add] at h2
    have h2' : buildObjectData 1 1 8 3 (fun x y => (x - 2, y - 3)) (fun _ _ => (1, 0, 0, 1)) 1 = .ok rows' := by exact_mod_cast h2
    rw [h2']
  refine ⟨_, C157_tile exProcWorld exBumps exLargeTile exLargeTile_moved exPlane_moves _ _ row row' ?_ ?_ ?_ seed⟩
  · show exObjects[_]? = _
    rw [← e1]
    exact g1
  · show exLargeObjects[_]? = _
    rw [← e2]
    exact g2
  · exact_mod_cast g3

/-- `C157_process`: one process can work on both tiles. -/
example : Orderly exProcWorld fun t => t = exBumps ∨ t = exLargeTile where
  maskOnly := by
    intro t e t' e' ht he ht' he' _
    have h : e ∈ exBumps.entries := by rcases ht with rfl | rfl <;> exact he
    have h' : e' ∈ exBumps.entries := by rcases ht' with rfl | rfl <;> exact he'
    exact exProcWorld_orderly.maskOnly exBumps e exBumps e' rfl h rfl h' rfl
  sameMasking := by
    intro t e t' e' ht he ht' he' hb hm
    have h : e ∈ exBumps.entries := by rcases ht with rfl | rfl <;> exact he
    have h' : e' ∈ exBumps.entries := by rcases ht' with rfl | rfl <;> exact he'
    have := exProcWorld_orderly.sameMasking exBumps e exBumps e' rfl h rfl h' rfl hm
    exact ⟨by rcases ht' with rfl | rfl <;> rfl, this.2⟩
  seHash := by
    intro n t e n' t' e' ht he ht' he' hh
    have h : e ∈ exBumps.entries := by rcases ht with rfl | rfl <;> exact he
    have h' : e' ∈ exBumps.entries := by rcases ht' with rfl | rfl <;> exact he'
    have hh' : exProcWorld.hash n exBumps e = exProcWorld.hash n' exBumps e' := by
      rcases ht with rfl | rfl <;> rcases ht' with rfl | rfl <;> exact hh
    have := exProcWorld_orderly.seHash n exBumps e n' exBumps e' rfl h rfl h' hh'
    rcases ht with rfl | rfl <;> rcases ht' with rfl | rfl <;> exact this
  coaddHash := by
    rintro t t' (rfl | rfl) (rfl | rfl) hk
    · exact ⟨rfl, rfl, rfl⟩
    · exact absurd hk (by decide)
    · exact absurd hk (by decide)
    · exact ⟨rfl, rfl, rfl⟩

/-- `C157_affine_area` with splines that are exact: the areas of the pixels of a tile of 9 by 9 pixels and of one of 12 by 20 pixels. -/
example : MovedFiles 1 2 1 { exProcWorld with spl := exactSpline } { exBumps with shape := (9, 9) }
    { exLargeTile with shape := (12, 20) } where
  rest := rfl
  offset := by norm_num [exLargeTile, exBumps]
  fwd := fun x y => by norm_num [exLargeTile, exBumps]
  inv := fun x y => by norm_num [exLargeTile, exBumps]
  area := C157_affine_area (dx := 1) (dy := 2) (o := 1) { exProcWorld with spl := exactSpline } exactSpline_spec
    { exBumps with shape := (9, 9) } { exLargeTile with shape := (12, 20) } rfl rfl (by norm_num [exBumps])
    (by norm_num [exLargeTile]) (by norm_num [exBumps]) (by norm_num [exLargeTile]) 1 0 0 1 0 0
    (fun x y => by simp [exBumps]) (fun x y => by norm_num [exLargeTile, exBumps])

end Pizza
