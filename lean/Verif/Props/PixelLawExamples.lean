import Verif.Props.PixelLaw
import Verif.Props.SliceExamples

/-!
Cases that meet the hypotheses of C119.
-/

namespace Pizza

/-- A source of 24 x 24 pixels with a slope; the CCD pixel `(10, 16)` is flagged if `bad`. -/
def exWideSrc (bad : Bool) : Src :=
  { exSrc 0 1 0 false with
    pos := .ok (11, 11)
    nrow := 24
    ncol := 24
    reads := ⟨.ok ⟨24, 24, fun r c => r + 2 * c⟩, .ok ⟨24, 24, fun r _ => r⟩,
      .ok ⟨24, 24, fun r c => if bad ∧ r = 10 ∧ c = 16 then 2 else 0⟩,
      .ok ⟨24, 24, fun _ _ => 1⟩, .ok [⟨24, 24, fun r c => if r = c then 1 else 0⟩]⟩
    scale := 3
    lookups := .ok ⟨fun x y => some (x + 10, y + 10), fun _ _ => 2, fun _ _ => 1⟩ }

/-- A tile whose slices have one or two such sources, cut out with a wide margin. -/
def exWide (bad : Bool) : SliceEnv Unit Nat Unit :=
  { exTile with
    cfg := { exCfg with fracBuffer := 4 }
    sources := fun ra _ _ _ => if ra = 1 then [exWideSrc false, exWideSrc bad] else [exWideSrc false] }

theorem exWide_srcs {bad : Bool} {a b c d : ℚ} {s : Src} (hs : s ∈ (exWide bad).sources a b c d) :
    ∃ x, s = exWideSrc x := by
  simp only [exWide] at hs
  split at hs
  · simp only [List.mem_cons, List.not_mem_nil, or_false] at hs
    rcases hs with rfl | rfl <;> exact ⟨_, rfl⟩
  · simp only [List.mem_cons, List.not_mem_nil, or_false] at hs
    exact ⟨_, hs⟩

theorem exWide_sound (bad : Bool) : SoundEnv (exWide bad) 3 3 where
  boxPos := by norm_num
  psfOdd := rfl
  rows := exTile_sound.rows
  frac := by show (1 : ℚ) ≤ 4; norm_num
  shape := by
    intro a b c d s hs
    obtain ⟨x, rfl⟩ := exWide_srcs hs
    refine ⟨?_, ?_, ?_, ?_⟩ <;> intro a ha <;> cases ha
    · exact ⟨rfl, rfl⟩
    · exact ⟨rfl, rfl⟩
    · exact ⟨rfl, rfl⟩
    · simp only [List.mem_singleton, forall_eq]
      exact ⟨rfl, rfl⟩
  noises := by
    intro a b c d s hs l hl
    obtain ⟨x, rfl⟩ := exWide_srcs hs
    cases hl
    rfl
  psf := by
    intro a b c d s hs l hl
    obtain ⟨x, rfl⟩ := exWide_srcs hs
    cases hl
    rfl
  keeps := exTile_sound.keeps
  fwhm := exTile_sound.fwhm

/-- All pixels within 3 of the place of the pixel `(0, 0)` of the slice are good. -/
def exGood (cfg : BuildCfg Unit) (e : Epoch) : Bool :=
  match e.obj.xStart, e.obj.yStart, e.obj.weight, e.obj.bmask with
  | some x0, some y0, some w, some b =>
    (List.range 6).all fun i => (List.range 6).all fun j =>
      decide (0 ≤ 8 + i - y0 ∧ 8 + i - y0 < w.nrow ∧ 0 ≤ 8 + j - x0 ∧ 8 + j - x0 < w.ncol) &&
      decide (0 < w.px (8 + i - y0).toNat (8 + j - x0).toNat) &&
      decide (b.px (8 + i - y0).toNat (8 + j - x0).toNat &&& (cfg.splineFlags ||| cfg.noiseFlags) = 0)
  | _, _, _, _ => false

theorem exGood_good {cfg : BuildCfg Unit} {e : Epoch} (h : exGood cfg e = true) {i j : ℤ} (hi : 8 ≤ i)
    (hi' : i ≤ 13) (hj : 8 ≤ j) (hj' : j ≤ 13) : GoodPixel cfg e i j := by
  unfold exGood at h
  split at h
  · rename_i x0 y0 w b h1 h2 h3 h4
    rw [List.all_eq_true] at h
    have := h (i - 8).toNat (List.mem_range.2 (by omega))
    rw [List.all_eq_true] at this
    have := this (j - 8).toNat (List.mem_range.2 (by omega))
    rw [show (8 : ℤ) + ((i - 8).toNat : ℤ) = i by omega, show (8 : ℤ) + ((j - 8).toNat : ℤ) = j by omega,
      Bool.and_eq_true, Bool.and_eq_true, decide_eq_true_iff, decide_eq_true_iff, decide_eq_true_iff] at this
    obtain ⟨⟨⟨a1, a2, a3, a4⟩, a5⟩, a6⟩ := this
    refine ⟨x0, y0, w, b, h1, h2, h3, h4, (i - y0).toNat, (j - x0).toNat, by omega, by omega, by omega, by omega,
      a5, ?_⟩
    rintro ⟨k, _, k1, k2⟩
    have := congrArg (BitVec.getLsbD · k) a6
    simp [k1] at this
    simp [this] at k2
  · cases h

theorem exObjects_len : exObjects.length = 4 := by decide +kernel

/-- The first slice. -/
def exRow0 : ObjRow := exObjects[0]'(by rw [exObjects_len]; norm_num)

/-- Whether the used epochs are good near the first pixel. -/
def exGoods (bad : Bool) : Option (List Bool) :=
  match buildSliceInputs exExt (cfgFor (exWide bad) exRow0 none) [exWideSrc false, exWideSrc bad] 7 with
  | .ok inp => some (inp.slices.map fun e => exGood (cfgFor (exWide bad) exRow0 none) e)
  | .error _ => none

theorem exGoods_eq : exGoods true = some [true, true] := by decide +kernel

/-- The slice is computed without an error. -/
theorem exWide_ok : (match coaddSingleSlice (exWide true) 0 7 with | .ok _ => true | _ => false) = true := by
  decide +kernel

theorem exRow0_start : exRow0.ra = 1 ∧ exRow0.origStartCol = 0 ∧ exRow0.origStartRow = 0 := by decide +kernel

/-- C119: the first pixel of a slice of which one used epoch has a flagged pixel in its window, but not near
that pixel. -/
example : SoundEnv (exWide true) 3 3 ∧ (∀ t : ℚ, sincPade t = .ok (sincVal t)) ∧
    ∃ (r : SliceRes Flt EpochRow) (lay : PsfLayout) (inp : Inputs) (vs : List ℚ),
      coaddSingleSlice (exWide true) 0 7 = .ok r ∧
      buildSliceInputs (exWide true).ext (cfgFor (exWide true) exRow0 none)
        ((exWide true).sources exRow0.ra exRow0.dec lay.raPsf lay.decPsf) ((exWide true).seeded 7) = .ok inp ∧
      inp.slices.length = 2 ∧
      List.Forall₂ (CleanValue sincVal (cfgFor (exWide true) exRow0 none) exRow0 0 0) inp.slices vs := by
  have hok : ∃ r, coaddSingleSlice (exWide true) 0 7 = .ok r := by
    have h := exWide_ok
    split at h
    · exact ⟨_, by assumption⟩
    · cases h
  obtain ⟨r, hr⟩ := hok
  obtain ⟨row, lay, gaia, cfg, inp, h1, h2, h3, h4, h5, _⟩ :=
    C119_clean (exWide true) 3 3 (exWide_sound true) sincVal sincPade_eq 0 7 r hr
  have hrow : row = exRow0 := by
    have : exObjects[0]? = some exRow0 := List.getElem?_eq_getElem _
    exact Option.some.inj (h1.symm.trans this)
  subst hrow
  have hg : gaia = none := by
    cases h3 with
    | none => rfl
    | some _ _ _ _ _ h => cases h
  subst hg
  rw [h4.eq] at h5
  have hx := (exWide_sound true).sane (List.mem_of_getElem? h1) none exRow0.ra exRow0.dec lay.raPsf lay.decPsf
  have hsrc : ∀ e ∈ inp.slices, e.src ∈ (exWide true).sources exRow0.ra exRow0.dec lay.raPsf lay.decPsf :=
    fun e he => (used_epoch _ _ _ _ _ hx h5 e he).1
  have hgood : inp.slices.map (exGood (cfgFor (exWide true) exRow0 none)) = [true, true] := by
    have h := exGoods_eq
    unfold exGoods at h
    have h6 : buildSliceInputs exExt (cfgFor (exWide true) exRow0 none) [exWideSrc false, exWideSrc true] 7 =
        .ok inp := by
      rw [← h5]
      simp only [exWide, exRow0_start.1, if_true]
      rfl
    rw [h6] at h
    exact Option.some.inj h
  refine ⟨exWide_sound true, sincPade_eq, r, lay, inp, inp.slices.map fun e =>
    fluxAt sincVal e.src ⟨fun x y => some (x + 10, y + 10), fun _ _ => 2, fun _ _ => 1⟩ 10 10 0 0
      (calibrated e.src ⟨24, 24, fun r c => r + 2 * c⟩ ⟨24, 24, fun r _ => r⟩), hr, h5, ?_, ?_⟩
  · have := congrArg List.length hgood
    simpa using this
  · rw [List.forall₂_map_right_iff, List.forall₂_same]
    intro e he
    obtain ⟨b, hb⟩ := exWide_srcs (hsrc e he)
    have hge : exGood (cfgFor (exWide true) exRow0 none) e = true := by
      have : exGood (cfgFor (exWide true) exRow0 none) e ∈ [true, true] := by
        rw [← hgood]; exact List.mem_map.2 ⟨e, he, rfl⟩
      simpa using this
    refine ⟨⟨fun x y => some (x + 10, y + 10), fun _ _ => 2, fun _ _ => 1⟩, ⟨24, 24, fun r c => r + 2 * c⟩,
      ⟨24, 24, fun r _ => r⟩, 10, 10, by rw [hb]; rfl, by rw [hb]; rfl, by rw [hb]; rfl, ?_, ?_, ?_⟩
    · rw [exRow0_start.2.1, exRow0_start.2.2]; norm_num
    · intro i j i1 i2 j1 j2
      have i1' : (7 : ℚ) < i := by linarith
      have i2' : (i : ℚ) ≤ 13 := by linarith
      have j1' : (7 : ℚ) < j := by linarith
      have j2' : (j : ℚ) ≤ 13 := by linarith
      norm_cast at i1' i2' j1' j2'
      exact exGood_good hge (by omega) i2' (by omega) j2'
    · rw [exRow0_start.2.1, exRow0_start.2.2]; norm_num

/-- `C119_value` and `C119_file`: the tile of the example, and a run over two of its slices. -/
example (r : SliceRes Flt EpochRow) (h : coaddSingleSlice (exWide true) 0 7 = .ok r) (fits : List (Hdu Flt))
    (hf : reserveImages exFltOps none ((exWide true).objects.length * (3 * 3)) ((exWide true).objects.length * (3 * 3))
      (exWide true).nExtra (3 * 3) (3 * 3) = .ok fits) (rows0 : List RunRow)
    (hrows : rows0.length = (exWide true).objects.length) (k : Nat) (chunks : List (List (Nat × Nat)))
    (hch : allChunks [2, 0] [7, 7, 7, 7] 2 = .ok chunks) (s : PState Flt EpochRow)
    (hrun : Steps (runShapeOf (exWide true) exFltOps none 3 3) (coaddSingleSlice (exWide true)) 2 2 20 k
      (PState.init chunks ⟨fits, rows0, []⟩) s) (hd : s.status = .done) :=
  And.intro (C119_value (exWide true) 3 3 (exWide_sound true) sincVal (fun t => sincPade_eq t) 0 7 r h)
    (C119_file (exWide true) 3 3 (exWide_sound true) sincVal (fun t => sincPade_eq t) exFltOps (fun _ h => h) none
      rows0 hrows fits hf [2, 0] [7, 7, 7, 7] (by decide) 2 2 20 k chunks hch s hrun hd 0 (by simp))

end Pizza
