import Verif.Spec.Fits
import Verif.Lemmas.SEObject
import Verif.Props.SliceRange

/-!
Reserving and writing extensions.
-/

namespace Pizza

/-! ### names -/

theorem decimal_injective {a b : Nat} (h : decimal a = decimal b) : a = b := by
  have h1 := (decimal_spec a).2.2 true
  rw [h, (decimal_spec b).2.2 true] at h1
  exact (Option.some.inj h1).symm

theorem noiseExt_toList (n : Nat) :
    (noiseExt n).toList = "noise".toList ++ decimal n ++ "_cutouts".toList := String.toList_ofList

theorem noiseExt_injective {a b : Nat} (h : noiseExt a = noiseExt b) : a = b := by
  have h1 := congrArg String.toList h
  rw [noiseExt_toList, noiseExt_toList, List.append_cancel_right_eq, List.append_cancel_left_eq] at h1
  exact decimal_injective h1

/-- A numeral starts with a digit, so an extra noise name is none of the fixed names. -/
theorem noiseExt_ne (n : Nat) : ∀ s ∈ PSF_EXT :: baseNames, noiseExt n ≠ s := by
  intro s hs h
  have h1 : s.toList = "noise".toList ++ decimal n ++ "_cutouts".toList := by
    rw [← h, noiseExt_toList]
  obtain ⟨hne, hd, _⟩ := decimal_spec n
  cases hdec : decimal n with
  | nil => exact hne hdec
  | cons c l =>
    obtain ⟨d, hd', rfl⟩ := hd c (by rw [hdec]; simp)
    rw [hdec] at h1
    have h2 : s.toList.take 5 = "noise".toList ∧ s.toList[5]? = some (Char.ofNat (48 + d)) := by
      rw [h1]; exact ⟨rfl, rfl⟩
    have h3 : ∀ s ∈ PSF_EXT :: baseNames, s.toList.take 5 = "noise".toList →
        s.toList[5]? = some '_' := by decide
    have h4 := h3 s hs h2.1
    rw [h2.2] at h4
    have h5 := Option.some.inj h4
    interval_cases d <;> revert h5 <;> decide

theorem noiseExt_notin {n : Nat} {s : String} (hs : s ∈ PSF_EXT :: baseNames) : s ≠ noiseExt n :=
  fun h => noiseExt_ne n s hs h.symm

theorem extraNoiseNames_mem {nExtra : Nat} {s : String} :
    s ∈ extraNoiseNames nExtra ↔ ∃ k, 1 ≤ k ∧ k ≤ nExtra ∧ s = noiseExt k := by
  unfold extraNoiseNames
  simp only [List.mem_map, List.mem_range]
  constructor
  · rintro ⟨i, hi, rfl⟩; exact ⟨i + 1, by omega, by omega, rfl⟩
  · rintro ⟨k, h1, h2, rfl⟩; exact ⟨k - 1, by omega, by congr 1; omega⟩

theorem extraNoiseNames_nodup (nExtra : Nat) : (extraNoiseNames nExtra).Nodup := by
  unfold extraNoiseNames
  exact List.nodup_range.map fun a b h => by have := noiseExt_injective h; omega

/-- The names reserved. -/
def allNames (nExtra : Nat) : List String := baseNames ++ extraNoiseNames nExtra ++ [PSF_EXT]

theorem allNames_nodup (nExtra : Nat) : (allNames nExtra).Nodup := by
  unfold allNames
  rw [List.nodup_append, List.nodup_append]
  refine ⟨⟨by decide, extraNoiseNames_nodup nExtra, ?_⟩, by simp, ?_⟩
  · intro a ha b hb
    obtain ⟨k, _, _, rfl⟩ := extraNoiseNames_mem.1 hb
    exact noiseExt_notin (List.mem_cons_of_mem _ ha)
  · intro a ha b hb
    rw [List.mem_singleton] at hb
    subst hb
    rcases List.mem_append.1 ha with ha | ha
    · have : ∀ a ∈ baseNames, a ≠ PSF_EXT := by decide
      exact this a ha
    · obtain ⟨k, _, _, rfl⟩ := extraNoiseNames_mem.1 ha
      exact noiseExt_ne k _ (by simp)

/-! ### reserving -/

/-- The type of an extension by name. -/
def extDtype (name : String) : DType :=
  if name = SEG_EXT ∨ name = BMASK_EXT ∨ name = ORMASK_EXT then .i4 else .f4

/-- The extension made for a name. -/
def mkHdu {V : Type} (ops : PixelOps V) (pars : Option (List (String × String)))
    (x : String × Nat × Nat) : Hdu V :=
  ⟨x.1, extDtype x.1, x.2.1, fpackHeader pars x.2.2, fun _ => ops.zero⟩

theorem dtype_ok {nExtra : Nat} {s : String} (hs : s ∈ allNames nExtra) :
    cutoutDtype (if s ∈ extraNoiseNames nExtra then NOISE_EXT else s) = .ok (extDtype s) := by
  by_cases h : s ∈ extraNoiseNames nExtra
  · rw [if_pos h]
    obtain ⟨k, _, _, rfl⟩ := extraNoiseNames_mem.1 h
    unfold extDtype
    rw [if_neg]
    · rfl
    · rintro (h | h | h) <;> exact noiseExt_ne k _ (by decide) h
  · rw [if_neg h]
    have : s ∈ baseNames ++ [PSF_EXT] := by
      unfold allNames at hs
      simp only [List.mem_append] at hs ⊢
      tauto
    have key : ∀ s ∈ baseNames ++ [PSF_EXT], cutoutDtype s = .ok (extDtype s) := by decide
    exact key s this

theorem reserveLoop_ok {V : Type} (ops : PixelOps V) (nExtra : Nat) (pars : Option (List (String × String)))
    (l : List (String × Nat × Nat)) (hl : ∀ x ∈ l, x.1 ∈ allNames nExtra) (fits : List (Hdu V)) :
    reserveLoop ops (extraNoiseNames nExtra) pars fits l = .ok (fits ++ l.map (mkHdu ops pars)) := by
  induction l generalizing fits with
  | nil => simp [reserveLoop]
  | cons x l ih =>
    obtain ⟨ext, dims, per⟩ := x
    unfold reserveLoop reserveOne
    have := dtype_ok (hl (ext, dims, per) (by simp))
    simp only at this ⊢
    rw [this, ok_bind]
    simp only [pure_bind]
    rw [ih fun x hx => hl x (by simp [hx])]
    simp [mkHdu]

/-- The extensions reserved. -/
def reservedHdus {V : Type} (ops : PixelOps V) (pars : Option (List (String × String)))
    (nPix nPixPsf nExtra per perPsf : Nat) : List (Hdu V) :=
  ((baseNames ++ extraNoiseNames nExtra).map (fun n => (n, nPix, per)) ++ [(PSF_EXT, nPixPsf, perPsf)]).map
    (mkHdu ops pars)

theorem reserveImages_ok {V : Type} (ops : PixelOps V) (pars : Option (List (String × String)))
    (nPix nPixPsf nExtra per perPsf : Nat) :
    reserveImages ops pars nPix nPixPsf nExtra per perPsf =
      .ok (reservedHdus ops pars nPix nPixPsf nExtra per perPsf) := by
  unfold reserveImages
  simp only
  rw [reserveLoop_ok]
  · rfl
  · intro x hx
    unfold allNames
    simp only [List.mem_append, List.mem_map, List.mem_singleton] at hx ⊢
    rcases hx with ⟨n, h, rfl⟩ | rfl
    · exact .inl h
    · exact .inr rfl

theorem reserved_names {V : Type} (ops : PixelOps V) (pars : Option (List (String × String)))
    (nPix nPixPsf nExtra per perPsf : Nat) :
    (reservedHdus ops pars nPix nPixPsf nExtra per perPsf).map Hdu.name = allNames nExtra := by
  unfold reservedHdus allNames mkHdu
  simp [Function.comp_def]

/-! ### writing -/

/-- The effect of one write on an extension. -/
def applyWrite {V : Type} (ops : PixelOps V) (w : Write V) (h : Hdu V) : Hdu V :=
  if h.name = w.ext then
    { h with px := fun k => if w.start ≤ k then ((w.data.map (ops.cast h.dtype))[k - w.start]?).getD (h.px k)
      else h.px k }
  else h

theorem applyWrite_fields {V : Type} (ops : PixelOps V) (w : Write V) (h : Hdu V) :
    (applyWrite ops w h).name = h.name ∧ (applyWrite ops w h).dtype = h.dtype ∧
    (applyWrite ops w h).dims = h.dims ∧ (applyWrite ops w h).header = h.header := by
  unfold applyWrite; split <;> simp

theorem writeExt_ok {V : Type} (ops : PixelOps V) (w : Write V) (dt : DType) (fits : List (Hdu V))
    (hn : (fits.map Hdu.name).Nodup)
    (hex : ∃ h ∈ fits, h.name = w.ext ∧ h.dtype = dt ∧ w.start + w.data.length ≤ h.dims) :
    writeExt w.ext (w.data.map (ops.cast dt)) w.start fits = .ok (fits.map (applyWrite ops w)) := by
  induction fits with
  | nil => obtain ⟨h, hh, _⟩ := hex; simp at hh
  | cons a l ih =>
    rw [List.map_cons, List.nodup_cons] at hn
    obtain ⟨h, hh, h1, h2, h3⟩ := hex
    unfold writeExt
    by_cases ha : a.name = w.ext
    · have hah : h = a := by
        rcases List.mem_cons.1 hh with rfl | hh
        · rfl
        · exact absurd (List.mem_map.2 ⟨h, hh, h1.trans ha.symm⟩) hn.1
      subst hah
      rw [if_pos ha, if_pos (by simpa using h3), List.map_cons]
      have : l.map (applyWrite ops w) = l := by
        conv_rhs => rw [← List.map_id l]
        apply List.map_congr_left
        intro b hb
        unfold applyWrite
        rw [if_neg]
        · rfl
        · intro hb'
          exact hn.1 (List.mem_map.2 ⟨b, hb, hb'.trans ha.symm⟩)
      rw [this]
      simp only [applyWrite, if_pos ha, h2]
    · rw [if_neg ha, ih hn.2]
      · rw [ok_bind, List.map_cons]
        simp only [applyWrite, if_neg ha]
        rfl
      · rcases List.mem_cons.1 hh with rfl | hh
        · exact absurd h1 ha
        · exact ⟨h, hh, h1, h2, h3⟩

/-- A write that succeeds on these extensions. -/
def Fitting {V : Type} (ops : PixelOps V) (fits : List (Hdu V)) (w : Write V) : Prop :=
  ∃ h ∈ fits, h.name = w.ext ∧ cutoutDtype w.info = .ok h.dtype ∧ w.start + w.data.length ≤ h.dims ∧
    ((w.ext = MFRAC_EXT ∨ w.ext = WEIGHT_EXT) → ∀ v ∈ w.data, ops.isNeg (ops.cast h.dtype v) = false)

theorem fitting_map {V : Type} {ops : PixelOps V} {fits : List (Hdu V)} {w : Write V} (w' : Write V)
    (h : Fitting ops fits w) : Fitting ops (fits.map (applyWrite ops w')) w := by
  obtain ⟨h, hh, h1, h2, h3, h4⟩ := h
  obtain ⟨f1, f2, f3, _⟩ := applyWrite_fields ops w' h
  exact ⟨_, List.mem_map.2 ⟨h, hh, rfl⟩, by rw [f1, h1], by rw [f2, h2], by rw [f3]; exact h3,
    by rw [f2]; exact h4⟩

theorem writeAll_ok {V : Type} (ops : PixelOps V) (ws : List (Write V)) (fits : List (Hdu V))
    (hn : (fits.map Hdu.name).Nodup) (hw : ∀ w ∈ ws, Fitting ops fits w) :
    writeAll ops fits ws = .ok (fits.map fun h => ws.foldl (fun h w => applyWrite ops w h) h) := by
  induction ws generalizing fits with
  | nil => simp [writeAll]
  | cons w ws ih =>
    obtain ⟨h, hh, h1, h2, h3, h4⟩ := hw w (by simp)
    have hs : writeSingleImage ops fits w.data w.ext w.start w.info = .ok (fits.map (applyWrite ops w)) := by
      unfold writeSingleImage
      rw [h2, ok_bind]
      simp only
      rw [if_neg, writeExt_ok ops w h.dtype fits hn ⟨h, hh, h1, rfl, h3⟩]
      rintro ⟨he, ha⟩
      obtain ⟨v, hv, hneg⟩ := List.any_eq_true.1 ha
      obtain ⟨v', hv', rfl⟩ := List.mem_map.1 hv
      rw [h4 he v' hv'] at hneg
      cases hneg
    unfold writeAll
    rw [hs, ok_bind, ih]
    · rw [List.map_map]; rfl
    · rw [List.map_map]
      have : (Hdu.name ∘ applyWrite ops w) = Hdu.name := by
        funext x; exact (applyWrite_fields ops w x).1
      rwa [this]
    · intro w' hw'
      exact fitting_map w (hw w' (by simp [hw']))

theorem foldl_fields {V : Type} (ops : PixelOps V) (ws : List (Write V)) (h : Hdu V) :
    (ws.foldl (fun h w => applyWrite ops w h) h).name = h.name ∧
    (ws.foldl (fun h w => applyWrite ops w h) h).dtype = h.dtype ∧
    (ws.foldl (fun h w => applyWrite ops w h) h).dims = h.dims ∧
    (ws.foldl (fun h w => applyWrite ops w h) h).header = h.header := by
  induction ws generalizing h with
  | nil => simp
  | cons w ws ih =>
    obtain ⟨i1, i2, i3, i4⟩ := ih (applyWrite ops w h)
    obtain ⟨f1, f2, f3, f4⟩ := applyWrite_fields ops w h
    simp only [List.foldl_cons]
    exact ⟨i1.trans f1, i2.trans f2, i3.trans f3, i4.trans f4⟩

theorem foldl_other {V : Type} (ops : PixelOps V) (ws : List (Write V)) (h : Hdu V)
    (hw : ∀ w ∈ ws, w.ext ≠ h.name) : ws.foldl (fun h w => applyWrite ops w h) h = h := by
  induction ws generalizing h with
  | nil => rfl
  | cons w ws ih =>
    have : applyWrite ops w h = h := by
      unfold applyWrite; rw [if_neg fun e => hw w (by simp) e.symm]
    rw [List.foldl_cons, this]
    exact ih h fun w' hw' => hw w' (by simp [hw'])

/-- If the names are distinct, only the write of that name matters. -/
theorem foldl_one {V : Type} (ops : PixelOps V) (ws : List (Write V)) (h : Hdu V)
    (hn : (ws.map Write.ext).Nodup) (w : Write V) (hw : w ∈ ws) (he : w.ext = h.name) :
    ws.foldl (fun h w => applyWrite ops w h) h = applyWrite ops w h := by
  induction ws with
  | nil => simp at hw
  | cons w' ws ih =>
    rw [List.map_cons, List.nodup_cons] at hn
    rw [List.foldl_cons]
    rcases List.mem_cons.1 hw with rfl | hw
    · apply foldl_other
      intro w' hw' heq
      rw [(applyWrite_fields ops w h).1, ← he] at heq
      exact hn.1 (List.mem_map.2 ⟨w', hw', heq⟩)
    · have : applyWrite ops w' h = h := by
        unfold applyWrite
        rw [if_neg]
        intro e
        exact hn.1 (List.mem_map.2 ⟨w, hw, he.trans e⟩)
      rw [this]
      exact ih hn.2 hw

theorem applyWrite_px {V : Type} (ops : PixelOps V) (w : Write V) (h : Hdu V) (he : w.ext = h.name) :
    (∀ k (hk : k < w.data.length), (applyWrite ops w h).px (w.start + k) = ops.cast h.dtype w.data[k]) ∧
    ∀ k, (k < w.start ∨ w.start + w.data.length ≤ k) → (applyWrite ops w h).px k = h.px k := by
  unfold applyWrite
  rw [if_pos he.symm]
  constructor
  · intro k hk
    simp [hk]
  · rintro k (hk | hk)
    · simp only; rw [if_neg (by omega)]
    · simp only
      rw [if_pos (by omega), List.getElem?_eq_none (by rw [List.length_map]; omega)]; rfl

end Pizza
