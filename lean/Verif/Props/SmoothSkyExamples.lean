import Verif.Props.SmoothSky
import Verif.Props.UniformSkyExamples

/-!
Cases that meet the hypotheses of C148.
-/

namespace Pizza

/-- `C148_quadratic`: an image that is a product of rows and columns, between pixels. -/
example (v : ℝ) (e : Bool) (h : Resampled (⟨9, 9, fun r c => (r : ℝ) * c⟩ : Img ℝ) 3 4.25 3.5 v e) :
    |v - 4.25 * 3.5| ≤ 0.0115 * |4.25 * 3.5| + 0.022 * (|(3.5 : ℝ)| + |(4.25 : ℝ)|) + 0.0001 * (|(0 : ℝ)| + |(0 : ℝ)|) +
      0.0005 * |(1 : ℝ)| + 2.41 * 0 := by
  refine C148_quadratic _ (4.25 * 3.5) 3.5 4.25 0 1 0 0 _ _ v e (by norm_num) (by norm_num) (by norm_num) (by norm_num) ?_ h
  intro r k _ _
  dsimp only
  refine le_of_eq (abs_eq_zero.2 ?_)
  ring

/-- Two SE images of the same sky, which is not flat. -/
def exSlopeWorld : ProcWorld Unit Nat Unit Unit :=
  { exSkyWorld with
    files := fun k => if k = (['b'], ['s']) then .ok (.num ⟨24, 24, fun r c => (r + 1) * (c + 1)⟩) else exSkyWorld.files k }

theorem exSlope_sound : SoundEnv (freshEnv exSlopeWorld exSkyTile) 3 3 := by
  refine C113_sound exSlopeWorld exSkyTile 3 3 (by norm_num) rfl (C93_boxes 1 1 4 3 3 _ _ 0 _ (by norm_num) exObjects_eq)
    (by show (1 : ℚ) ≤ 4; norm_num) ?_ (fun _ _ => ⟨rfl, rfl⟩) ?_ ?_ ?_
  · intro e he con hc
    have : con.shape = (24, 24) := by
      rcases exBumps_entries he with rfl | rfl <;> (cases hc; rfl)
    rw [this]
    rcases exBumps_entries he with rfl | rfl <;> refine ⟨?_, ?_, ?_⟩ <;> intro a ha <;> cases ha <;> rfl
  · intro e he
    rcases exBumps_entries he with rfl | rfl <;> rfl
  · exact exTile_sound.keeps
  · exact exTile_sound.fwhm

/-- What the check of C122 says for the used rows of the slice. -/
def exSlopeCheck (r : Except Err (SliceRes Flt EpochRow)) : Bool :=
  match r with
  | .ok r => decide ((usedRows r).map EpochRow.imageId = [0, 1]) &&
      exSkyTile.entries.all fun e => (usedRows r).all fun er => decide (er.imageId ≠ e.imageId) ||
        exUndefected exSlopeWorld exSkyTile (exSkyTile.cfg.splineFlags ||| exSkyTile.cfg.noiseFlags) 1 1 e er
  | .error _ => false

theorem exSlope_check : exSlopeCheck (coaddSingleSlice (freshEnv exSlopeWorld exSkyTile) 3 8) = true := by decide +kernel

/-- The place of the coadd position on the SE images. -/
def exSlopePlace (e : Entry Unit) : Option (ℚ × ℚ) :=
  match (seInit exSlopeWorld.disk e.src e.offset exSkyTile.wcs exSkyTile.psf).out with
  | .error _ => none
  | .ok con =>
    match buildLookups exSlopeWorld.fit exSlopeWorld.spl ⟨⟨con.wcs.fwd, con.wcs.inv, e.offset⟩, con.wcs.isCelestial,
        con.shape.1, con.shape.2, exSkyTile.fwd, exSkyTile.inv, exSkyTile.celestial, exSkyTile.offset, exSkyTile.shape.1,
        exSkyTile.shape.2, exSlopeWorld.cosd⟩ exSkyTile.seDelta exSkyTile.coaddDelta with
    | .error _ => none
    | .ok lk => if con.shape = (24, 24) then lk.toSe 1 1 else none

theorem exSlope_places : exSkyTile.entries.map exSlopePlace = [some (11, 11), some (10, 10)] := by decide +kernel

theorem exSlope_smooth (e : Entry Unit) (he : e ∈ exSkyTile.entries) : SmoothNear exSlopeWorld exSkyTile 240 44 2 0 1 1 e := by
  have hp := exSlope_places
  obtain ⟨p, hp1, hp2⟩ : ∃ p : ℚ, exSlopePlace e = some (p, p) ∧
      ((e = exProcEntry ['a'] 0 (.file (['a'], ['m'])) ∧ p = 11) ∨ (e = exProcEntry ['b'] 1 (.mem 0) ∧ p = 10)) := by
    change [exSlopePlace (exProcEntry ['a'] 0 (.file (['a'], ['m']))), exSlopePlace (exProcEntry ['b'] 1 (.mem 0))] = _ at hp
    simp only [List.cons.injEq, and_true] at hp
    rcases exBumps_entries he with rfl | rfl
    · exact ⟨_, hp.1, .inl ⟨rfl, rfl⟩⟩
    · exact ⟨_, hp.2, .inr ⟨rfl, rfl⟩⟩
  unfold exSlopePlace at hp1
  split at hp1
  · cases hp1
  · rename_i con hc
    split at hp1
    · cases hp1
    · rename_i lk hlk
      split at hp1
      · rename_i hsh
        have ar : lk.areaSe = fun _ _ => 1 := by
          unfold buildLookups at hlk
          simp only [bind_eq_ok, pure_eq_ok] at hlk
          obtain ⟨_, -, aSe, haSe, _, -, rfl⟩ := hlk
          unfold getWcsAreaInterp at haSe
          simp only [bind_eq_ok] at haSe
          obtain ⟨_, -, _, -, h3⟩ := haSe
          exact (Except.ok.inj h3).symm
        have hz : exSlopeWorld.zpScale e.magzp = 2 := by
          rcases exBumps_entries he with rfl | rfl <;> rfl
        obtain ⟨im, bk, him, hbk, hpx⟩ : ∃ im bk, exSlopeWorld.original e.image = .ok im ∧ exSlopeWorld.original e.bkg = .ok bk ∧
            ∀ r c, im.asNum.px r c - bk.asNum.px r c = (r + (11 - p)) * (c + (11 - p)) - 1 := by
          rcases hp2 with ⟨rfl, rfl⟩ | ⟨rfl, rfl⟩
          · refine ⟨_, _, rfl, rfl, fun r c => ?_⟩
            show (r : ℚ) * c - 1 = _
            ring
          · refine ⟨_, _, rfl, rfl, fun r c => ?_⟩
            show ((r : ℚ) + 1) * (c + 1) - 1 = _
            ring
        have hp3 : p = 11 ∨ p = 10 := hp2.imp And.right And.right
        refine ⟨lk, con.shape.1, con.shape.2, im, bk, p, p, 22, 22, 0, 2, 0, ⟨con, hc, rfl, rfl, hlk⟩, him, hbk, hp1, ?_, ?_, ?_, ?_,
          by norm_num, by norm_num, ?_⟩
        · rcases hp3 with rfl | rfl <;> norm_num
        · rw [hsh]; rcases hp3 with rfl | rfl <;> norm_num
        · rcases hp3 with rfl | rfl <;> norm_num
        · rw [hsh]; rcases hp3 with rfl | rfl <;> norm_num
        · intro r c _ _ _ _
          rw [ar, hpx, hz]
          refine le_of_eq (abs_eq_zero.2 ?_)
          rcases hp3 with rfl | rfl <;> ring
      · cases hp1

/-- `C148_coadd`: the pixel `(0, 0)` of the fourth slice, with two used images of a sky with a gradient. -/
example : ∃ r p z, coaddSingleSlice (freshEnv exSlopeWorld exSkyTile) 3 8 = .ok r ∧ r.pix = some p ∧
    p.image[0 * 3 + 0]? = some (.fin z) ∧
    |z - 240 * 1| ≤ ((0.0115 : ℚ) * |(240 : ℚ)| + 0.022 * 44 + 0.0005 * 2 + 2.41 * 0) * |(1 : ℚ)| := by
  have hch := exSlope_check
  unfold exSlopeCheck at hch
  split at hch
  · rename_i r hr
    simp only [Bool.and_eq_true, decide_eq_true_eq] at hch
    obtain ⟨hids, hund⟩ := hch
    obtain ⟨row, es, h1, h2, h3, h4⟩ := C148_coadd exSlopeWorld exSkyTile 3 3 exSlope_sound rfl rfl
      (by
        intro e he
        rcases exBumps_entries he with rfl | rfl <;> (show (2 : ℚ) ≠ 0; norm_num))
      3 8 r hr (fun _ _ => 1) rfl 240 44 2 0
    have hne : es ≠ [] := by
      rintro rfl
      have h := h3.length_eq
      rw [← List.length_map (f := EpochRow.imageId), hids] at h
      cases h
    obtain ⟨p, hp, hpix⟩ := h4 hne
    obtain ⟨row', r1, r2⟩ := Option.map_eq_some_iff.1 exSky_rows.1
    cases h1.symm.trans r1
    obtain ⟨p1, p2⟩ := Prod.mk.inj r2
    obtain ⟨z, hz1, hz2⟩ := hpix 0 (by norm_num) 0 (by norm_num) 1 1 (by simp [p2]) (by simp [p1])
      (by
        rw [List.forall₂_iff_get]
        refine ⟨h3.length_eq, fun n a b => ?_⟩
        have hid := (List.forall₂_iff_get.1 h3).2 n a b
        have := List.all_eq_true.1 (List.all_eq_true.1 hund _ (h2.subset (List.getElem_mem a))) _ (List.getElem_mem b)
        simp only [List.get_eq_getElem] at hid ⊢
        rw [hid] at this
        simp only [ne_eq, not_true_eq_false, decide_false, Bool.false_or] at this
        exact exUndefected_sound this)
      (fun e he => exSlope_smooth e (h2.subset he))
    exact ⟨r, p, z, hr, hp, hz1, hz2⟩
  · cases hch

end Pizza
