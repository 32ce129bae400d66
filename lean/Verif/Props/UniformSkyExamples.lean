import Verif.Props.UniformSky
import Verif.Props.OneSkyExamples

/-!
A case that meets the hypotheses of C146.
-/

namespace Pizza

/-- The two SE images with a background that leaves a uniform sky. -/
def exFlatWorld : ProcWorld Unit Nat Unit Unit :=
  { exSkyWorld with
    files := fun k => if k.2 = ['b'] then .ok (.num ⟨24, 24, fun r c => r * c - 5⟩) else exSkyWorld.files k }

theorem exFlat_sound : SoundEnv (freshEnv exFlatWorld exSkyTile) 3 3 := by
  refine C113_sound exFlatWorld exSkyTile 3 3 (by norm_num) rfl (C93_boxes 1 1 4 3 3 _ _ 0 _ (by norm_num) exObjects_eq)
    (by show (1 : ℚ) ≤ 4; norm_num) ?_ (fun _ _ => ⟨rfl, rfl⟩) ?_ ?_ ?_
  · intro e he con hc
    have : con.shape = (24, 24) := by
      rcases exBumps_entries he with rfl | rfl <;> (cases hc; rfl)
    rw [this]
    rcases exBumps_entries he with rfl | rfl <;> refine ⟨?_, ?_, ?_⟩ <;> intro a ha <;> cases ha <;> rfl
  · intro e he
    rcases exBumps_entries he with rfl | rfl <;> rfl
  · exact exTile_sound.keeps
  · exact exTile_sound.fwhm

/-- What the check of C122 says for the used rows of the slice. -/
def exFlatCheck (r : Except Err (SliceRes Flt EpochRow)) : Bool :=
  match r with
  | .ok r => decide ((usedRows r).map EpochRow.imageId = [0, 1]) &&
      exSkyTile.entries.all fun e => (usedRows r).all fun er => decide (er.imageId ≠ e.imageId) ||
        exUndefected exFlatWorld exSkyTile (exSkyTile.cfg.splineFlags ||| exSkyTile.cfg.noiseFlags) 1 1 e er
  | .error _ => false

theorem exFlat_check : exFlatCheck (coaddSingleSlice (freshEnv exFlatWorld exSkyTile) 3 8) = true := by decide +kernel

/-- The place of the coadd position on the SE images. -/
def exFlatPlace (e : Entry Unit) : Option (ℚ × ℚ) :=
  match (seInit exFlatWorld.disk e.src e.offset exSkyTile.wcs exSkyTile.psf).out with
  | .error _ => none
  | .ok con =>
    match buildLookups exFlatWorld.fit exFlatWorld.spl ⟨⟨con.wcs.fwd, con.wcs.inv, e.offset⟩, con.wcs.isCelestial, con.shape.1,
        con.shape.2, exSkyTile.fwd, exSkyTile.inv, exSkyTile.celestial, exSkyTile.offset, exSkyTile.shape.1,
        exSkyTile.shape.2, exFlatWorld.cosd⟩ exSkyTile.seDelta exSkyTile.coaddDelta with
    | .error _ => none
    | .ok lk => if con.shape = (24, 24) then lk.toSe 1 1 else none

theorem exFlat_places : exSkyTile.entries.map exFlatPlace = [some (11, 11), some (10, 10)] := by decide +kernel

theorem exFlat_uniform (e : Entry Unit) (he : e ∈ exSkyTile.entries) : UniformNear exFlatWorld exSkyTile 10 1 1 e := by
  obtain ⟨p, hp1, hp2⟩ : ∃ p : ℚ × ℚ, exFlatPlace e = some p ∧ (p = (11, 11) ∨ p = (10, 10)) := by
    have h := List.mem_map_of_mem (f := exFlatPlace) he
    rw [exFlat_places] at h
    simp only [List.mem_cons, List.not_mem_nil, or_false] at h
    rcases h with h | h
    · exact ⟨_, h, .inl rfl⟩
    · exact ⟨_, h, .inr rfl⟩
  unfold exFlatPlace at hp1
  split at hp1
  · cases hp1
  · rename_i con hc
    split at hp1
    · cases hp1
    · rename_i lk hlk
      split at hp1
      · rename_i hsh
        have ar : lk.areaSe = fun _ _ => 1 := by
          unfold buildLookups at hlk
          simp only [bind_eq_ok, pure_eq_ok] at hlk
          obtain ⟨_, -, aSe, haSe, _, -, rfl⟩ := hlk
          unfold getWcsAreaInterp at haSe
          simp only [bind_eq_ok] at haSe
          obtain ⟨_, -, _, -, h3⟩ := haSe
          exact (Except.ok.inj h3).symm
        obtain ⟨im, him, hpx⟩ : ∃ im, exFlatWorld.original e.image = .ok im ∧ ∀ r c, im.asNum.px r c = r * c := by
          rcases exBumps_entries he with rfl | rfl <;> exact ⟨_, rfl, fun _ _ => rfl⟩
        obtain ⟨bk, hbk, hpb⟩ : ∃ bk, exFlatWorld.original e.bkg = .ok bk ∧ ∀ r c, bk.asNum.px r c = r * c - 5 := by
          rcases exBumps_entries he with rfl | rfl <;> exact ⟨_, rfl, fun _ _ => rfl⟩
        have hz : exFlatWorld.zpScale e.magzp = 2 := by
          rcases exBumps_entries he with rfl | rfl <;> rfl
        refine ⟨lk, con.shape.1, con.shape.2, im, bk, p.1, p.2, ⟨con, hc, rfl, rfl, hlk⟩, him, hbk, hp1, ?_, ?_, ?_, ?_, ?_⟩
        · rcases hp2 with rfl | rfl <;> norm_num
        · rw [hsh]; rcases hp2 with rfl | rfl <;> norm_num
        · rcases hp2 with rfl | rfl <;> norm_num
        · rw [hsh]; rcases hp2 with rfl | rfl <;> norm_num
        · intro r c _ _ _ _
          rw [ar, hpx, hpb, hz]
          norm_num
      · cases hp1

/-- `C146_uniform`: the pixel `(0, 0)` of the fourth slice, with two used images. -/
example : ∃ r p z, coaddSingleSlice (freshEnv exFlatWorld exSkyTile) 3 8 = .ok r ∧ r.pix = some p ∧
    p.image[0 * 3 + 0]? = some (.fin z) ∧ |z - 10 * 1| ≤ (0.0115 : ℚ) * |(10 : ℚ) * 1| := by
  have hch := exFlat_check
  unfold exFlatCheck at hch
  split at hch
  · rename_i r hr
    simp only [Bool.and_eq_true, decide_eq_true_eq] at hch
    obtain ⟨hids, hund⟩ := hch
    obtain ⟨row, es, h1, h2, h3, h4⟩ := C146_uniform exFlatWorld exSkyTile 3 3 exFlat_sound rfl rfl
      (by
        intro e he
        rcases exBumps_entries he with rfl | rfl <;> (show (2 : ℚ) ≠ 0; norm_num))
      3 8 r hr (fun _ _ => 1) rfl 10
    have hne : es ≠ [] := by
      rintro rfl
      have h := h3.length_eq
      rw [← List.length_map (f := EpochRow.imageId), hids] at h
      cases h
    obtain ⟨p, hp, hpix⟩ := h4 hne
    obtain ⟨row', r1, r2⟩ := Option.map_eq_some_iff.1 exSky_rows.1
    cases h1.symm.trans r1
    obtain ⟨p1, p2⟩ := Prod.mk.inj r2
    obtain ⟨z, hz1, hz2⟩ := hpix 0 (by norm_num) 0 (by norm_num) 1 1 (by simp [p2]) (by simp [p1])
      (by
        rw [List.forall₂_iff_get]
        refine ⟨h3.length_eq, fun n a b => ?_⟩
        have hid := (List.forall₂_iff_get.1 h3).2 n a b
        have := List.all_eq_true.1 (List.all_eq_true.1 hund _ (h2.subset (List.getElem_mem a))) _ (List.getElem_mem b)
        simp only [List.get_eq_getElem] at hid ⊢
        rw [hid] at this
        simp only [ne_eq, not_true_eq_false, decide_false, Bool.false_or] at this
        exact exUndefected_sound this)
      (fun e he => exFlat_uniform e (h2.subset he))
    exact ⟨r, p, z, hr, hp, hz1, hz2⟩
  · cases hch

end Pizza
