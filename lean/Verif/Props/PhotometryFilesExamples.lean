import Verif.Props.Photometry
import Verif.Props.OneSkyExamples
import Verif.Props.WcsGridExamples

/-!
Cases that meet the hypotheses of C151 for files and for affine WCSs.
-/

namespace Pizza

/-- `C151_displaced`: a rotated coadd and an SE image whose origins are 9.75 and 10.25 pixels apart. -/
example : ∃ A B L, AffineWCS.mk' 1 (-1) 1 1 20 30 = .ok A ∧ AffineWCS.mk' 1 (-1) 1 1 (45 / 4) (83 / 4) = .ok B ∧
    buildLookups exactFit exactSpline (affineWcs A B 0 1 100 200 300 300 fun _ => 1) 8 100 = .ok L ∧
    ∀ stamp : Img ℚ, stamp.nrow = 5 → stamp.ncol = 5 → Displaced 2 3 12 L stamp 15 16 (39 / 4) (41 / 4) := by
  obtain ⟨A, hA⟩ := (C03_affine_constructible 1 (-1) 1 1 20 30).1.2 (by norm_num)
  obtain ⟨B, hB⟩ := (C03_affine_constructible 1 (-1) 1 1 (45 / 4) (83 / 4)).1.2 (by norm_num)
  obtain ⟨L, hL, h⟩ := C151_displaced exactFit exactSpline exactFit_spec exactSpline_spec
    _ _ _ _ _ _ _ _ A B hA hB 0 1 100 200 300 300 (fun _ => 1) 8 100 (by norm_num) (by norm_num)
    (by norm_num) (by norm_num) (by norm_num) (by norm_num)
  refine ⟨A, B, L, hA, hB, hL, fun stamp h1 h2 => h _ _ 2 3 12 (by norm_num) (by norm_num) (by norm_num) (by norm_num)
    (by norm_num) (by norm_num) stamp 15 16 (by norm_num) ?_ (by norm_num) ?_⟩
  · rw [h2]; norm_num
  · rw [h1]; norm_num

/-- Two SE images with a spot on a background of one. -/
def exSpotWorld : ProcWorld Unit Nat Unit Unit :=
  { exSkyWorld with
    files := fun k =>
      if k.2 = ['m'] then .ok (.bits ⟨24, 24, fun _ _ => 0⟩) else
      if k.2 = ['w'] then .ok (.num ⟨24, 24, fun _ _ => if k.1 = ['a'] then 1 else 2⟩) else
      if k = (['a'], ['s']) then .ok (.num ⟨24, 24, fun r c => if r = 12 ∧ c = 12 then 4 else 1⟩) else
      if k.2 = ['s'] then .ok (.num ⟨24, 24, fun r c => if r = 11 ∧ c = 11 then 4 else 1⟩) else
      .ok (.num ⟨24, 24, fun _ _ => 1⟩) }

/-- One slice of 6 x 6 pixels. -/
def exSpotObjects : List ObjRow :=
  match buildObjectData 4 1 6 3 (fun x y => (x, y)) (fun _ _ => (1, 0, 0, 1)) 0 with
  | .ok l => l
  | .error _ => []

theorem exSpotObjects_eq : buildObjectData 4 1 6 3 (fun x y => (x, y)) (fun _ _ => (1, 0, 0, 1)) 0 =
    .ok exSpotObjects := by
  have h : exSpotObjects.length = 1 := by decide +kernel
  unfold exSpotObjects at h ⊢
  split at h
  · rename_i l hl; rw [hl]
  · cases h

/-- A tile with this slice. -/
def exSpotTile : Tile Unit Unit Unit :=
  { exSkyTile with objects := exSpotObjects, shape := (6, 6), cfg := { exCfg with fracBuffer := 2 } }

theorem exSpot_sound : SoundEnv (freshEnv exSpotWorld exSpotTile) 6 3 := by
  refine C113_sound exSpotWorld exSpotTile 6 3 (by norm_num) rfl (C93_boxes 4 1 6 6 3 _ _ 0 _ (by norm_num) exSpotObjects_eq)
    (by show (1 : ℚ) ≤ 2; norm_num) ?_ (fun _ _ => ⟨rfl, rfl⟩) ?_ ?_ ?_
  · intro e he con hc
    have : con.shape = (24, 24) := by
      rcases exBumps_entries he with rfl | rfl <;> (cases hc; rfl)
    rw [this]
    rcases exBumps_entries he with rfl | rfl <;> refine ⟨?_, ?_, ?_⟩ <;> intro a ha <;> cases ha <;> rfl
  · intro e he
    rcases exBumps_entries he with rfl | rfl <;> rfl
  · exact exTile_sound.keeps
  · exact exTile_sound.fwhm

/-- The windows of the used images. -/
def exSpotWindows (r : Except Err (SliceRes Flt EpochRow)) : Option (List (ℤ × ℤ × ℤ × ℤ)) :=
  match r with
  | .ok r => some ((usedRows r).map fun er => (er.imageId, er.rowStart, er.colStart, er.boxSize))
  | .error _ => none

theorem exSpot_windows : exSpotWindows (coaddSingleSlice (freshEnv exSpotWorld exSpotTile) 0 8) =
    some [(0, 7, 7, 12), (1, 6, 6, 12)] := by decide +kernel

/-- The SE images have the pixels of the coadd, displaced by ten and nine pixels. -/
def exSpotPlaces (e : Entry Unit) (d : ℚ) : Bool :=
  match (seInit exSpotWorld.disk e.src e.offset exSpotTile.wcs exSpotTile.psf).out with
  | .error _ => false
  | .ok con =>
    match buildLookups exSpotWorld.fit exSpotWorld.spl ⟨⟨con.wcs.fwd, con.wcs.inv, e.offset⟩, con.wcs.isCelestial,
        con.shape.1, con.shape.2, exSpotTile.fwd, exSpotTile.inv, exSpotTile.celestial, exSpotTile.offset, exSpotTile.shape.1,
        exSpotTile.shape.2, exSpotWorld.cosd⟩ exSpotTile.seDelta exSpotTile.coaddDelta with
    | .error _ => false
    | .ok lk => decide (con.shape = (24, 24)) && (List.range 6).all fun r => (List.range 6).all fun c =>
        decide (lk.toSe (c + 0) (r + 0) = some (c + 0 + d, r + 0 + d))

theorem exSpot_places : exSpotPlaces (exProcEntry ['a'] 0 (.file (['a'], ['m']))) 10 = true ∧
    exSpotPlaces (exProcEntry ['b'] 1 (.mem 0)) 9 = true := by
  constructor <;> decide +kernel

theorem exSpotPlaces_ok {e : Entry Unit} {d : ℚ} (h : exSpotPlaces e d = true) :
    ∃ lk, MapsTo exSpotWorld exSpotTile e lk 24 24 ∧ (∀ r : Nat, r < 6 → ∀ c : Nat, c < 6 → lk.toSe (c + 0) (r + 0) = some (c + 0 + d, r + 0 + d)) ∧
      (∀ x y, lk.areaSe x y = 1) ∧ ∀ x y, lk.areaCoadd x y = 1 := by
  unfold exSpotPlaces at h
  split at h
  · cases h
  · rename_i con hc
    split at h
    · cases h
    · rename_i lk hlk
      simp only [Bool.and_eq_true, decide_eq_true_eq, List.all_eq_true, List.mem_range] at h
      refine ⟨lk, ⟨con, hc, by rw [h.1], by rw [h.1], hlk⟩, h.2, ?_⟩
      unfold buildLookups at hlk
      simp only [bind_eq_ok, pure_eq_ok] at hlk
      obtain ⟨_, -, aSe, haSe, aCo, haCo, rfl⟩ := hlk
      unfold getWcsAreaInterp at haSe haCo
      simp only [bind_eq_ok] at haSe haCo
      obtain ⟨_, -, _, -, h3⟩ := haSe
      obtain ⟨_, -, _, -, h4⟩ := haCo
      exact ⟨fun x y => by rw [← Except.ok.inj h3], fun x y => by rw [← Except.ok.inj h4]⟩

/-- Every SE image with its displacement. -/
theorem exSpot_entries {e : Entry Unit} (he : e ∈ exSpotTile.entries) :
    ∃ n : Nat, n ≤ 10 ∧ 9 ≤ n ∧ e.imageId = 10 - n ∧ exSpotPlaces e n = true ∧ exSpotWorld.zpScale e.magzp = 2 ∧
      (∃ im bkg, exSpotWorld.original e.image = .ok im ∧ exSpotWorld.original e.bkg = .ok bkg ∧
        ∀ r c, im.asNum.px r c - bkg.asNum.px r c = if r = n + 2 ∧ c = n + 2 then 3 else 0) ∧
      ∃ wt bm, exSpotWorld.original e.weight = .ok wt ∧ freshMask exSpotWorld exSpotTile e = .ok bm ∧
        ∀ r c, 0 < wt.asNum.px r c ∧ bm.px r c = 0 := by
  rcases exBumps_entries he with rfl | rfl
  · refine ⟨10, by norm_num, by norm_num, rfl, exSpot_places.1, rfl, ⟨_, _, rfl, rfl, fun r c => ?_⟩, ⟨_, _, rfl, rfl, fun r c => ?_⟩⟩
    · show (if r = 12 ∧ c = 12 then (4 : ℚ) else 1) - 1 = if r = 12 ∧ c = 12 then 3 else 0
      split_ifs <;> norm_num
    · exact ⟨show (0 : ℚ) < 1 by norm_num, rfl⟩
  · refine ⟨9, by norm_num, by norm_num, rfl, exSpot_places.2, rfl, ⟨_, _, rfl, rfl, fun r c => ?_⟩, ⟨_, _, rfl, rfl, fun r c => ?_⟩⟩
    · show (if r = 11 ∧ c = 11 then (4 : ℚ) else 1) - 1 = if r = 11 ∧ c = 11 then 3 else 0
      split_ifs <;> norm_num
    · exact ⟨show (0 : ℚ) < 2 by norm_num, rfl⟩

/-- The pixel of the spot. -/
def exSpot : Img ℚ := ⟨1, 1, fun _ _ => 6⟩

theorem exSpot_along {row : ObjRow} (h1 : row.origStartCol = 0) (h2 : row.origStartRow = 0) {e : Entry Unit}
    (he : e ∈ exSpotTile.entries) : SourceAlong (FileSource exSpotWorld exSpotTile row 6 e) 1 0 2 6 0 := by
  obtain ⟨n, n1, n2, -, hpl, hz, ⟨im, bkg, i1, i2, i3⟩, -⟩ := exSpot_entries he
  obtain ⟨lk, k1, k2, k3, k4⟩ := exSpotPlaces_ok hpl
  have n1' : (n : ℚ) ≤ 10 := by exact_mod_cast n1
  have n2' : (9 : ℚ) ≤ n := by exact_mod_cast n2
  refine ⟨exSpot, n + 2, n + 2, n, n, ⟨lk, 24, 24, im, bkg, k1, i1, i2, ?_, ?_⟩, ?_, ?_, ?_, ?_⟩
  · rw [h1, h2]
    refine ⟨k2, ⟨1, by norm_num, fun _ _ _ _ => k3 _ _, fun _ _ _ _ => k4 _ _⟩, ?_, ?_, ?_, ?_⟩ <;>
      (try simp only [exSpot]) <;> push_cast <;> linarith
  · intro i j a1 a2 a3 a4
    rw [h2] at a1 a2
    rw [h1] at a3 a4
    have a1' : ((n : ℤ) - 3 : ℤ) < i := by
      have : ((n : ℚ) - 3) < i := by linarith
      exact_mod_cast this
    have a2' : i < ((n : ℤ) + 9 : ℤ) := by
      have : (i : ℚ) < (n : ℚ) + 9 := by push_cast at a2; linarith
      exact_mod_cast this
    have a3' : ((n : ℤ) - 3 : ℤ) < j := by
      have : ((n : ℚ) - 3) < j := by linarith
      exact_mod_cast this
    have a4' : j < ((n : ℤ) + 9 : ℤ) := by
      have : (j : ℚ) < (n : ℚ) + 9 := by push_cast at a4; linarith
      exact_mod_cast this
    refine ⟨⟨by omega, by omega⟩, ⟨by omega, by omega⟩, ?_⟩
    rw [i3, hz]
    unfold stampValue exSpot
    by_cases hc : i.toNat = n + 2 ∧ j.toNat = n + 2
    · rw [if_pos hc, if_pos (by constructor <;> constructor <;> push_cast <;> omega)]
      norm_num
    · rw [if_neg hc, if_neg (by push_cast; omega), zero_mul]
  · intro _ _ _ _
    show (0 : ℚ) ≤ 6
    norm_num
  · simp [exSpot]
  · simp [exSpot]
  · simp [exSpot]

/-- `C151_files`: the flux and the position of the spot on the slice. -/
example : ∃ r p, ∃ f : Nat → Nat → ℚ, coaddSingleSlice (freshEnv exSpotWorld exSpotTile) 0 8 = .ok r ∧ r.pix = some p ∧
    (∀ y < 6, ∀ x < 6, p.image[y * 6 + x]? = some (.fin (f y x))) ∧
    |(∑ y ∈ Finset.range 6, ∑ x ∈ Finset.range 6, f y x) - 6| ≤ (0.07 : ℚ) ∧
    |∑ y ∈ Finset.range 6, ∑ x ∈ Finset.range 6, f y x * ((x : ℚ) - 2)| ≤ 6 * (0.022 : ℚ) := by
  have hw := exSpot_windows
  unfold exSpotWindows at hw
  split at hw
  · rename_i r hr
    replace hw := Option.some.inj hw
    obtain ⟨row, es, h1, h2, h3, h4⟩ := C151_files exSpotWorld exSpotTile 6 3 exSpot_sound rfl rfl
      (fun e he => by
        obtain ⟨n, -, -, -, -, hz, -⟩ := exSpot_entries he
        rw [hz]
        norm_num) 0 8 r hr
    have hne : es ≠ [] := by
      rintro rfl
      have h := h3.length_eq
      rw [← List.length_map (f := fun er : EpochRow => (er.imageId, er.rowStart, er.colStart, er.boxSize)), hw] at h
      cases h
    obtain ⟨-, p, hp, h5⟩ := h4 hne
    have hrow : (exSpotTile.objects[0]?).map (fun o => (o.origStartCol, o.origStartRow)) = some (0, 0) := by decide +kernel
    rw [h1] at hrow
    obtain ⟨s1, s2⟩ := Prod.mk.inj (Option.some.inj hrow)
    obtain ⟨f, f1, -, f2⟩ := h5 (by
      intro y hy x hx
      rw [s1, s2, List.forall₂_iff_get]
      refine ⟨h3.length_eq, fun k a b => ?_⟩
      have hid := (List.forall₂_iff_get.1 h3).2 k a b
      simp only [List.get_eq_getElem] at hid ⊢
      obtain ⟨n, n1, n2, n3, hpl, -, -, wt, bm, w1, w2, w3⟩ := exSpot_entries (h2.subset (List.getElem_mem a))
      obtain ⟨lk, k1, k2, -, -⟩ := exSpotPlaces_ok hpl
      refine ⟨lk, 24, 24, wt, bm, _, _, k1, w1, w2, k2 y hy x hx, fun i j i1 i2 j1 j2 => ?_⟩
      have hwin : (usedRows r)[k].rowStart = (n : ℤ) - 3 ∧ (usedRows r)[k].colStart = (n : ℤ) - 3 ∧
          (usedRows r)[k].boxSize = 12 := by
        have hm : ((usedRows r)[k].imageId, (usedRows r)[k].rowStart, (usedRows r)[k].colStart, (usedRows r)[k].boxSize) ∈
            [((0 : ℤ), (7 : ℤ), (7 : ℤ), (12 : ℤ)), (1, 6, 6, 12)] := by
          rw [← hw]
          exact List.mem_map.2 ⟨_, List.getElem_mem b, rfl⟩
        simp only [List.mem_cons, Prod.mk.injEq, List.not_mem_nil, or_false] at hm
        omega
      obtain ⟨q1, q2, q3⟩ := hwin
      have i1' : ((y : ℤ) + n - 3 : ℤ) < i := by
        have : ((y : ℚ) + n - 3) < i := by linarith
        exact_mod_cast this
      have i2' : i ≤ ((y : ℤ) + n + 3 : ℤ) := by
        have : (i : ℚ) ≤ (y : ℚ) + n + 3 := by linarith
        exact_mod_cast this
      have j1' : ((x : ℤ) + n - 3 : ℤ) < j := by
        have : ((x : ℚ) + n - 3) < j := by linarith
        exact_mod_cast this
      have j2' : j ≤ ((x : ℤ) + n + 3 : ℤ) := by
        have : (j : ℚ) ≤ (x : ℚ) + n + 3 := by linarith
        exact_mod_cast this
      refine ⟨i.toNat, j.toNat, by omega, by omega, by omega, by omega, by omega, by omega, (w3 _ _).1, ?_⟩
      rw [(w3 _ _).2]
      rintro ⟨q, _, q1, q2⟩
      simp at q1)
    have key := f2 1 0 2 6 0 fun e he => exSpot_along s1 s2 (h2.subset he)
    refine ⟨r, p, f, hr, hp, f1, key.1.trans (by norm_num), ?_⟩
    have := key.2
    rw [s1, s2] at this
    simp only [one_mul, zero_mul, add_zero, abs_one, abs_zero] at this
    exact this.trans (by norm_num)
  · cases hw

end Pizza
