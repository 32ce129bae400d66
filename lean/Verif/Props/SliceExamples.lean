import Verif.Props.Slice
import Verif.Props.BuildExamples

/-!
Cases that meet the hypotheses of C93-C95.
-/

namespace Pizza

/-- A source with a noise image. -/
def exNoisy (s : Src) : Src :=
  { s with reads := { s.reads with noises := .ok [⟨8, 8, fun r c => if r = c then 1 else 0⟩] } }

/-- Two used sources. -/
def exNoisySrcs : List Src := [exNoisy (exSrc 0 2 0 false), exNoisy (exSrc 0 6 2 false)]

/-- The rows of a tile of four slices of side 3. -/
def exObjects : List ObjRow :=
  match buildObjectData 1 1 4 3 (fun x y => (x, y)) (fun _ _ => (1, 0, 0, 1)) 0 with
  | .ok l => l
  | .error _ => []

/-- The tile; slices in the second column have no SE images. -/
def exTile : SliceEnv Unit Nat Unit where
  ext := exExt
  seeded := id
  fwd := fun x y => (x, y)
  inv := fun x y => (x, y)
  offset := 0
  cfg := exCfg
  gaiaFile := none
  gaiaCfg := none
  draw := fun _ n _ => ⟨n, n, fun _ _ => 0⟩
  pow10 := id
  f4 := id
  sources := fun ra _ _ _ => if ra = 1 then exNoisySrcs else []
  nExtra := 0
  objects := exObjects

theorem exObjects_eq : buildObjectData 1 1 4 3 (fun x y => (x, y)) (fun _ _ => (1, 0, 0, 1)) 0 =
    .ok exObjects := by
  have h : exObjects.length = 4 := by decide +kernel
  unfold exObjects at h ⊢
  split at h
  · rename_i l hl; rw [hl]
  · cases h

theorem exTile_srcs {a b c d : ℚ} {s : Src} (hs : s ∈ exTile.sources a b c d) :
    ∃ f w m p, s = exNoisy (exSrc f w m p) := by
  simp only [exTile] at hs
  split at hs
  · simp only [exNoisySrcs, List.mem_cons, List.not_mem_nil, or_false] at hs
    rcases hs with rfl | rfl <;> exact ⟨_, _, _, _, rfl⟩
  · cases hs

theorem exTile_sound : SoundEnv exTile 3 3 where
  boxPos := by norm_num
  psfOdd := rfl
  rows := C93_boxes 1 1 4 3 3 _ _ 0 _ (by norm_num) exObjects_eq
  frac := le_refl _
  shape := by
    intro a b c d s hs
    obtain ⟨f, w, m, p, rfl⟩ := exTile_srcs hs
    refine ⟨?_, ?_, ?_, ?_⟩ <;> intro a ha <;> cases ha
    · exact ⟨rfl, rfl⟩
    · exact ⟨rfl, rfl⟩
    · exact ⟨rfl, rfl⟩
    · simp only [List.mem_singleton, forall_eq]
      exact ⟨rfl, rfl⟩
  noises := by
    intro a b c d s hs l hl
    obtain ⟨f, w, m, p, rfl⟩ := exTile_srcs hs
    cases hl
    rfl
  psf := by
    intro a b c d s hs l hl
    obtain ⟨f, w, m, p, rfl⟩ := exTile_srcs hs
    cases hl
    rfl
  keeps := by
    intro ims wts f h i w hw
    cases h
    simp [hw]
  fwhm := by
    intro im w h
    cases h
    norm_num

/-- The number of epochs and of image pixels of a result. -/
def exHas (r : Except Err (SliceRes Flt EpochRow)) : Option (Nat × Option Nat) :=
  match r with
  | .ok r => some (r.weights.length, r.pix.map fun p => p.image.length)
  | .error _ => none

theorem exTile_results : ((List.range 4).map fun i => exHas (coaddSingleSlice exTile i 7)) =
    [some (2, some 9), some (0, none), some (2, some 9), some (0, none)] := by
  decide +kernel

theorem exTile_ok (i : Nat) (hi : i < 4) : ∃ r, coaddSingleSlice exTile i 7 = .ok r := by
  have h := congrArg (fun l => l[i]?.bind id) exTile_results
  simp only [List.getElem?_map, List.getElem?_range hi, Option.map_some, Option.bind_some, id] at h
  cases hr : coaddSingleSlice exTile i 7 with
  | ok r => exact ⟨r, rfl⟩
  | error e =>
    exfalso
    rw [hr] at h
    interval_cases i <;> cases h

/-- C93: a slice with two epochs and one without. -/
example : SoundEnv exTile 3 3 ∧ exHas (coaddSingleSlice exTile 2 7) = some (2, some 9) ∧
    exHas (coaddSingleSlice exTile 1 7) = some (0, none) := by
  have h := exTile_results
  simp only [show List.range 4 = [0, 1, 2, 3] from rfl, List.map_cons, List.map_nil, List.cons.injEq] at h
  exact ⟨exTile_sound, h.2.2.1, h.2.1⟩

/-- C94: a catalog that cannot be read. -/
example : ∃ e, coaddSingleSlice { exTile with gaiaFile := some (.error .ioError), gaiaCfg := some ⟨18, [], ()⟩ }
    2 7 = .error e := by
  have hs : SoundEnv { exTile with gaiaFile := some (.error .ioError), gaiaCfg := some ⟨18, [], ()⟩ } 3 3 :=
    ⟨exTile_sound.boxPos, exTile_sound.psfOdd, exTile_sound.rows, exTile_sound.frac, exTile_sound.shape,
      exTile_sound.noises, exTile_sound.psf, exTile_sound.keeps, exTile_sound.fwhm⟩
  have hn : exObjects.length = 4 := by decide +kernel
  obtain ⟨lay, _, h⟩ := C94_errors _ 3 3 hs (fun _ => ⟨1, rfl⟩) 2 7 exObjects[2] (List.getElem?_eq_getElem _)
  exact ⟨_, (h .ioError).2 (.inl ⟨rfl, rfl⟩)⟩

/-- C94: a slice whose second used epoch has no lookup of positions. -/
def exNoLookup : SliceEnv Unit Nat Unit :=
  { exTile with sources := fun ra _ _ _ => if ra = 1 then
      [exNoisy (exSrc 0 2 0 false), { exNoisy (exSrc 0 6 2 false) with lookups := .error .ioError }] else [] }

example : coaddSingleSlice exNoLookup 0 7 = .error .ioError ∧
    ∃ r, coaddSingleSlice exNoLookup 1 7 = .ok r := by
  have h : (match coaddSingleSlice exNoLookup 0 7 with | .error .ioError => true | _ => false) = true ∧
      (match coaddSingleSlice exNoLookup 1 7 with | .ok _ => true | _ => false) = true := by decide +kernel
  obtain ⟨h1, h2⟩ := h
  constructor
  · revert h1; split <;> simp_all
  · revert h2; split <;> simp_all

/-- Pixels as they are; `v < 0` of a float. -/
def exFltOps : PixelOps Flt := ⟨.fin 0, fun _ v => v, Flt.isNeg⟩

/-- `C95_file`: a complete parallel run of the tile. -/
example : exFltOps.KeepsSign ∧ ∃ fits chunks k s,
    reserveImages exFltOps none (4 * (3 * 3)) (4 * (3 * 3)) 0 (3 * 3) (3 * 3) = .ok fits ∧
    allChunks [2, 0, 1] [7, 7, 7, 7] 2 = .ok chunks ∧ exTile.objects.length = 4 ∧
    Steps (runShapeOf exTile exFltOps none 3 3) (coaddSingleSlice exTile) 3 2 20 k
      (PState.init chunks ⟨fits, List.replicate 4 ⟨0, 0, 0, 0, 0, 0⟩, []⟩) s ∧ s.status = .done := by
  obtain ⟨fits, hf, _⟩ := C63_reserved exFltOps none (4 * (3 * 3)) (4 * (3 * 3)) 0 (3 * 3) (3 * 3)
  obtain ⟨k, s, h1, h2⟩ := C61_completes (runShapeOf exTile exFltOps none 3 3) (coaddSingleSlice exTile) 3 2 20 0
    (PState.init [[(2, 7), (0, 7)], [(1, 7)]] ⟨fits, List.replicate 4 ⟨0, 0, 0, 0, 0, 0⟩, []⟩) _ (.refl _)
  have hk : exFltOps.KeepsSign := fun x hx => hx
  have hn : exTile.objects.length = 4 := by decide +kernel
  refine ⟨hk, fits, _, _, s, hf, rfl, hn, h1, ?_⟩
  refine (C61_outcome _ _ _ (by rw [List.length_replicate]; exact hn.symm) fits (by
      show reserveImages exFltOps none (exTile.objects.length * (3 * 3)) (exTile.objects.length * (3 * 3)) 0
        (3 * 3) (3 * 3) = _
      rw [hn]; exact hf) [2, 0, 1] [7, 7, 7, 7] (by decide)
    (C95_good exTile 3 3 exTile_sound exFltOps hk none _) 2 2 20 _ (by omega) (by omega) _ rfl s h1 h2).1 ?_
  intro i hi
  simp only [List.mem_cons, List.not_mem_nil, or_false] at hi
  rcases hi with rfl | rfl | rfl <;> exact exTile_ok _ (by norm_num)

/-- `C93_slice` and `C93_storable` for slice 2. -/
example : ∃ r, coaddSingleSlice exTile 2 7 = .ok r ∧ r.i = 2 ∧ GoodRes exFltOps exTile.objects.length 9 9 0 r := by
  obtain ⟨r, h⟩ := exTile_ok 2 (by norm_num)
  exact ⟨r, h, (C93_slice exTile 3 3 exTile_sound 2 7 r h).1,
    C93_storable exTile 3 3 exTile_sound exFltOps (fun _ h => h) 2 7 r h⟩

/-- `C94_no_such_slice`. -/
example : coaddSingleSlice exTile 4 7 = .error .indexError :=
  C94_no_such_slice exTile 4 7 (le_of_eq (by decide +kernel))

/-- `C94_even_psf_box`: rows with a PSF box of 4 pixels. -/
example := C94_even_psf_box { exTile with objects := exObjects.map fun r => { r with psfBoxSize := 4 } } 0 7
  { exObjects[0]'(by rw [show exObjects.length = 4 by decide +kernel]; norm_num) with psfBoxSize := 4 }
  (by rw [List.getElem?_map, List.getElem?_eq_getElem]; rfl) rfl

end Pizza
