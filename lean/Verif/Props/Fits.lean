import Verif.Lemmas.Fits

/-!
C62 (layout), C63 (reserved extensions), C66 (effective number of epochs).
-/

namespace Pizza

variable {V E : Type}

/-! ### C63 -/

theorem provides_iff {p : SlicePix V} {n : String} {d : List V} : Provides p n d ↔
    ((n = IMAGE_EXT ∧ d = p.image) ∨ (n = WEIGHT_EXT ∧ d = p.weight) ∨ (n = BMASK_EXT ∧ d = p.bmask) ∨
      (n = ORMASK_EXT ∧ d = p.ormask) ∨ (n = MFRAC_EXT ∧ d = p.mfrac) ∨ (n = PSF_EXT ∧ d = p.psf) ∨
      (n = NOISE_EXT ∧ p.noises[0]? = some d)) ∨
    ∃ k, 1 ≤ k ∧ n = noiseExt k ∧ p.noises[k]? = some d := by
  constructor
  · rintro (_ | _ | _ | _ | _ | _ | ⟨_, h⟩ | ⟨k, _, _, hk, h, hn⟩)
    · exact .inl (.inl ⟨rfl, rfl⟩)
    · exact .inl (.inr (.inl ⟨rfl, rfl⟩))
    · exact .inl (.inr (.inr (.inl ⟨rfl, rfl⟩)))
    · exact .inl (.inr (.inr (.inr (.inl ⟨rfl, rfl⟩))))
    · exact .inl (.inr (.inr (.inr (.inr (.inl ⟨rfl, rfl⟩)))))
    · exact .inl (.inr (.inr (.inr (.inr (.inr (.inl ⟨rfl, rfl⟩))))))
    · exact .inl (.inr (.inr (.inr (.inr (.inr (.inr ⟨rfl, h⟩))))))
    · refine .inr ⟨k, hk, ?_, h⟩
      rw [← String.toList_inj, noiseExt_toList, hn]
  · rintro ((⟨rfl, rfl⟩ | ⟨rfl, rfl⟩ | ⟨rfl, rfl⟩ | ⟨rfl, rfl⟩ | ⟨rfl, rfl⟩ | ⟨rfl, rfl⟩ | ⟨rfl, h⟩) | ⟨k, hk, rfl, h⟩)
    · exact .image
    · exact .weight
    · exact .bmask
    · exact .ormask
    · exact .mfrac
    · exact .psf
    · exact .noise d h
    · exact .extra k d _ hk h (noiseExt_toList k)

theorem provides_unique {p : SlicePix V} {n : String} {d d' : List V} (h : Provides p n d)
    (h' : Provides p n d') : d = d' := by
  rw [provides_iff] at h h'
  rcases h with h | ⟨k, hk, rfl, h⟩
  · rcases h' with h' | ⟨k, hk, rfl, h'⟩
    · have key : IMAGE_EXT ≠ WEIGHT_EXT ∧ IMAGE_EXT ≠ BMASK_EXT ∧ IMAGE_EXT ≠ ORMASK_EXT ∧
        IMAGE_EXT ≠ MFRAC_EXT ∧ IMAGE_EXT ≠ PSF_EXT ∧ IMAGE_EXT ≠ NOISE_EXT ∧
        WEIGHT_EXT ≠ BMASK_EXT ∧ WEIGHT_EXT ≠ ORMASK_EXT ∧ WEIGHT_EXT ≠ MFRAC_EXT ∧ WEIGHT_EXT ≠ PSF_EXT ∧
        WEIGHT_EXT ≠ NOISE_EXT ∧ BMASK_EXT ≠ ORMASK_EXT ∧ BMASK_EXT ≠ MFRAC_EXT ∧ BMASK_EXT ≠ PSF_EXT ∧
        BMASK_EXT ≠ NOISE_EXT ∧ ORMASK_EXT ≠ MFRAC_EXT ∧ ORMASK_EXT ≠ PSF_EXT ∧ ORMASK_EXT ≠ NOISE_EXT ∧
        MFRAC_EXT ≠ PSF_EXT ∧ MFRAC_EXT ≠ NOISE_EXT ∧ PSF_EXT ≠ NOISE_EXT := by decide
      rcases h with ⟨rfl, rfl⟩ | ⟨rfl, rfl⟩ | ⟨rfl, rfl⟩ | ⟨rfl, rfl⟩ | ⟨rfl, rfl⟩ | ⟨rfl, rfl⟩ | ⟨rfl, h⟩ <;>
      rcases h' with ⟨e, h'⟩ | ⟨e, h'⟩ | ⟨e, h'⟩ | ⟨e, h'⟩ | ⟨e, h'⟩ | ⟨e, h'⟩ | ⟨e, h'⟩ <;>
      first | exact h'.symm | (rw [h] at h'; exact Option.some.inj h') |
        (exfalso; revert e; decide)
    · exfalso
      rcases h with ⟨e, _⟩ | ⟨e, _⟩ | ⟨e, _⟩ | ⟨e, _⟩ | ⟨e, _⟩ | ⟨e, _⟩ | ⟨e, _⟩ <;>
      exact noiseExt_ne k _ (by decide) e
  · rcases h' with h' | ⟨k', hk', e, h'⟩
    · exfalso
      rcases h' with ⟨e, _⟩ | ⟨e, _⟩ | ⟨e, _⟩ | ⟨e, _⟩ | ⟨e, _⟩ | ⟨e, _⟩ | ⟨e, _⟩ <;>
      exact noiseExt_ne k _ (by decide) e
    · rw [noiseExt_injective e, h'] at h
      exact (Option.some.inj h).symm

theorem seg_not_provided {p : SlicePix V} {d : List V} : ¬ Provides p SEG_EXT d := by
  rw [provides_iff]
  rintro ((⟨h, _⟩ | ⟨h, _⟩ | ⟨h, _⟩ | ⟨h, _⟩ | ⟨h, _⟩ | ⟨h, _⟩ | ⟨h, _⟩) | ⟨k, _, h, _⟩)
  any_goals (revert h; decide)
  exact noiseExt_ne k _ (by decide) h.symm

/-- The writes of a slice. -/
theorem writesOf_facts {ops : PixelOps V} {npix npixPsf nExtra : Nat} {p : SlicePix V}
    (hp : GoodPix ops npix npixPsf nExtra p) (s ps : Nat) :
    ∃ ws, writesOf p s ps = .ok ws ∧ (ws.map Write.ext).Nodup ∧
      (∀ w ∈ ws, Provides p w.ext w.data ∧ w.start = (if w.ext = PSF_EXT then ps else s) ∧
        w.ext ∈ allNames nExtra ∧ cutoutDtype w.info = .ok (extDtype w.ext)) ∧
      ∀ name ∈ allNames nExtra, name ≠ SEG_EXT → ∃ w ∈ ws, w.ext = name := by
  have hn := hp.noises
  cases hns : p.noises with
  | nil => rw [hns] at hn; simp at hn
  | cons n0 ns =>
    rw [hns, List.length_cons] at hn
    have hlen : ns.length = nExtra := by omega
    have h0 : p.noises[0]? = some n0 := by rw [hns]; rfl
    have hmid : ns.mapIdx (fun k d => (⟨d, noiseExt (k + 1), s, NOISE_EXT⟩ : Write V)) =
        (List.range nExtra).attach.map fun k => ⟨ns[k.1]'(by
          have := List.mem_range.1 k.2; omega), noiseExt (k.1 + 1), s, NOISE_EXT⟩ := by
      apply List.ext_getElem <;> simp [hlen]
    have hext : (ns.mapIdx (fun k d => (⟨d, noiseExt (k + 1), s, NOISE_EXT⟩ : Write V))).map Write.ext =
        extraNoiseNames nExtra := by
      unfold extraNoiseNames
      apply List.ext_getElem <;> simp [hlen]
    refine ⟨_, by unfold writesOf; rw [hns], ?_, ?_, ?_⟩
    · rw [List.map_append, List.map_append, hext]
      have hperm : (([⟨p.image, IMAGE_EXT, s, IMAGE_EXT⟩, ⟨p.bmask, BMASK_EXT, s, BMASK_EXT⟩,
          ⟨p.ormask, ORMASK_EXT, s, ORMASK_EXT⟩, ⟨n0, NOISE_EXT, s, NOISE_EXT⟩] : List (Write V)).map Write.ext ++
          extraNoiseNames nExtra ++
          ([⟨p.weight, WEIGHT_EXT, s, WEIGHT_EXT⟩, ⟨p.mfrac, MFRAC_EXT, s, MFRAC_EXT⟩,
            ⟨p.psf, PSF_EXT, ps, PSF_EXT⟩] : List (Write V)).map Write.ext).Perm
          ([IMAGE_EXT, BMASK_EXT, ORMASK_EXT, NOISE_EXT, WEIGHT_EXT, MFRAC_EXT, PSF_EXT] ++
            extraNoiseNames nExtra) := by
        simp only [List.map_cons, List.map_nil]
        rw [List.append_assoc]
        exact List.Perm.append_left [IMAGE_EXT, BMASK_EXT, ORMASK_EXT, NOISE_EXT]
          (List.perm_append_comm (l₂ := [WEIGHT_EXT, MFRAC_EXT, PSF_EXT]))
      rw [hperm.nodup_iff, List.nodup_append]
      refine ⟨by decide, extraNoiseNames_nodup nExtra, ?_⟩
      intro a ha b hb
      obtain ⟨k, _, _, rfl⟩ := extraNoiseNames_mem.1 hb
      have key : ∀ a ∈ [IMAGE_EXT, BMASK_EXT, ORMASK_EXT, NOISE_EXT, WEIGHT_EXT, MFRAC_EXT, PSF_EXT],
        a ∈ PSF_EXT :: baseNames := by decide
      exact noiseExt_notin (key a ha)
    · intro w hw
      have hbase : ∀ n ∈ baseNames, n ∈ allNames nExtra := by
        intro n hn; unfold allNames; simp [hn]
      have hpsf : PSF_EXT ∈ allNames nExtra := by unfold allNames; simp
      have dec : ∀ n ∈ [IMAGE_EXT, BMASK_EXT, ORMASK_EXT, NOISE_EXT, WEIGHT_EXT, MFRAC_EXT],
          ¬ n = PSF_EXT ∧ n ∈ baseNames ∧ cutoutDtype n = .ok (extDtype n) := by decide
      have decPsf : cutoutDtype PSF_EXT = .ok (extDtype PSF_EXT) := by decide
      rcases List.mem_append.1 hw with hw | hw
      · rcases List.mem_append.1 hw with hw | hw
        · simp only [List.mem_cons, List.not_mem_nil, or_false] at hw
          rcases hw with rfl | rfl | rfl | rfl
          · obtain ⟨d1, d2, d3⟩ := dec IMAGE_EXT (by decide)
            exact ⟨.image, (if_neg d1).symm, hbase _ d2, d3⟩
          · obtain ⟨d1, d2, d3⟩ := dec BMASK_EXT (by decide)
            exact ⟨.bmask, (if_neg d1).symm, hbase _ d2, d3⟩
          · obtain ⟨d1, d2, d3⟩ := dec ORMASK_EXT (by decide)
            exact ⟨.ormask, (if_neg d1).symm, hbase _ d2, d3⟩
          · obtain ⟨d1, d2, d3⟩ := dec NOISE_EXT (by decide)
            exact ⟨.noise _ h0, (if_neg d1).symm, hbase _ d2, d3⟩
        · obtain ⟨k, hk, rfl⟩ := List.mem_mapIdx.1 hw
          refine ⟨.extra (k + 1) _ _ (by omega) (by rw [hns]; simp [hk]) (noiseExt_toList _),
            (if_neg (noiseExt_ne _ _ (by simp))).symm, ?_, ?_⟩
          · unfold allNames
            simp only [List.mem_append]
            exact .inl (.inr (extraNoiseNames_mem.2 ⟨k + 1, by omega, by omega, rfl⟩))
          · simp only
            unfold extDtype
            rw [if_neg]
            · rfl
            · rintro (h | h | h) <;> exact noiseExt_ne _ _ (by decide) h
      · simp only [List.mem_cons, List.not_mem_nil, or_false] at hw
        rcases hw with rfl | rfl | rfl
        · obtain ⟨d1, d2, d3⟩ := dec WEIGHT_EXT (by decide)
          exact ⟨.weight, (if_neg d1).symm, hbase _ d2, d3⟩
        · obtain ⟨d1, d2, d3⟩ := dec MFRAC_EXT (by decide)
          exact ⟨.mfrac, (if_neg d1).symm, hbase _ d2, d3⟩
        · exact ⟨.psf, (if_pos rfl).symm, hpsf, decPsf⟩
    · intro name hname hseg
      unfold allNames at hname
      rcases List.mem_append.1 hname with hname | hname
      · rcases List.mem_append.1 hname with hname | hname
        · unfold baseNames at hname
          simp only [List.mem_cons, List.not_mem_nil, or_false] at hname
          simp only [List.mem_append]
          rcases hname with rfl | rfl | rfl | rfl | rfl | rfl | rfl
          · exact ⟨⟨p.image, IMAGE_EXT, s, IMAGE_EXT⟩, .inl (.inl (by simp)), rfl⟩
          · exact ⟨⟨p.weight, WEIGHT_EXT, s, WEIGHT_EXT⟩, .inr (by simp), rfl⟩
          · exact absurd rfl hseg
          · exact ⟨⟨p.bmask, BMASK_EXT, s, BMASK_EXT⟩, .inl (.inl (by simp)), rfl⟩
          · exact ⟨⟨p.ormask, ORMASK_EXT, s, ORMASK_EXT⟩, .inl (.inl (by simp)), rfl⟩
          · exact ⟨⟨n0, NOISE_EXT, s, NOISE_EXT⟩, .inl (.inl (by simp)), rfl⟩
          · exact ⟨⟨p.mfrac, MFRAC_EXT, s, MFRAC_EXT⟩, .inr (by simp), rfl⟩
        · rw [← hext] at hname
          obtain ⟨w, hw, rfl⟩ := List.mem_map.1 hname
          exact ⟨w, List.mem_append.2 (.inl (List.mem_append.2 (.inr hw))), rfl⟩
      · rw [List.mem_singleton] at hname
        subst hname
        exact ⟨⟨p.psf, PSF_EXT, ps, PSF_EXT⟩, by simp, rfl⟩

/-- C63: the extensions reserved for any number of extra noise images: their names, distinct, with the
right size and data type, empty. -/
theorem C63_reserved (ops : PixelOps V) (pars : Option (List (String × String)))
    (nPix nPixPsf nExtra per perPsf : Nat) :
    ∃ fits, reserveImages ops pars nPix nPixPsf nExtra per perPsf = .ok fits ∧
      (fits.map Hdu.name).Nodup ∧
      (∀ s, s ∈ fits.map Hdu.name ↔
        s ∈ ["image_cutouts", "weight_cutouts", "seg_cutouts", "bmask_cutouts", "ormask_cutouts",
          "noise_cutouts", "mfrac_cutouts", "psf"] ∨
        ∃ k, 1 ≤ k ∧ k ≤ nExtra ∧ s.toList = "noise".toList ++ decimal k ++ "_cutouts".toList) ∧
      ∀ h ∈ fits, h.dims = perSlice nPix nPixPsf h.name ∧
        (h.dtype = .i4 ↔ h.name ∈ ["seg_cutouts", "bmask_cutouts", "ormask_cutouts"]) ∧
        (∀ k, h.px k = ops.zero) ∧
        (pars = none → h.header = none) ∧
        (∀ l, pars = some l → ∃ l', h.header = some l' ∧ (∀ x ∈ l, x ∈ l') ∧
          ("FZTILE" ∈ l'.map Prod.fst) ∧
          ("FZTILE" ∉ l.map Prod.fst → ("FZTILE", String.ofList ("(".toList ++
            decimal (perSlice per perPsf h.name) ++ ",1)".toList)) ∈ l')) := by
  refine ⟨_, reserveImages_ok .., by rw [reserved_names]; exact allNames_nodup _, ?_, ?_⟩
  · intro s
    rw [reserved_names]
    unfold allNames
    rw [List.mem_append, List.mem_append, extraNoiseNames_mem]
    constructor
    · rintro ((h | ⟨k, h1, h2, rfl⟩) | h)
      · left
        have key : ∀ s ∈ baseNames, s ∈ ["image_cutouts", "weight_cutouts", "seg_cutouts", "bmask_cutouts",
          "ormask_cutouts", "noise_cutouts", "mfrac_cutouts", "psf"] := by decide
        exact key s h
      · exact .inr ⟨k, h1, h2, noiseExt_toList k⟩
      · left; rw [List.mem_singleton] at h; subst h; decide
    · rintro (h | ⟨k, h1, h2, h⟩)
      · have key : ∀ s ∈ ["image_cutouts", "weight_cutouts", "seg_cutouts", "bmask_cutouts",
          "ormask_cutouts", "noise_cutouts", "mfrac_cutouts", "psf"], s ∈ baseNames ∨ s ∈ [PSF_EXT] := by decide
        rcases key s h with h | h
        · exact .inl (.inl h)
        · exact .inr h
      · exact .inl (.inr ⟨k, h1, h2, by rw [← String.toList_inj, noiseExt_toList, h]⟩)
  · intro h hh
    unfold reservedHdus at hh
    obtain ⟨x, hx, rfl⟩ := List.mem_map.1 hh
    have hx' : x.2.1 = perSlice nPix nPixPsf x.1 ∧ x.2.2 = perSlice per perPsf x.1 := by
      unfold perSlice
      rcases List.mem_append.1 hx with hx | hx
      · obtain ⟨s, hs, rfl⟩ := List.mem_map.1 hx
        have : s ≠ "psf" := by
          rcases List.mem_append.1 hs with hs | hs
          · have key : ∀ s ∈ baseNames, s ≠ "psf" := by decide
            exact key s hs
          · obtain ⟨k, _, _, rfl⟩ := extraNoiseNames_mem.1 hs
            exact noiseExt_ne k _ (by decide)
        simp [this]
      · rw [List.mem_singleton] at hx; subst hx; simp [PSF_EXT]
    refine ⟨hx'.1, ?_, fun _ => rfl, ?_, ?_⟩
    · simp only [mkHdu, extDtype, SEG_EXT, BMASK_EXT, ORMASK_EXT]
      simp only [List.mem_cons, List.not_mem_nil, or_false]
      by_cases hc : x.1 = "seg_cutouts" ∨ x.1 = "bmask_cutouts" ∨ x.1 = "ormask_cutouts"
      · simp [hc]
      · simp [hc]
    · rintro rfl; rfl
    · rintro l rfl
      simp only [mkHdu, fpackHeader, Option.map_some]
      by_cases hc : "FZTILE" ∈ l.map Prod.fst
      · refine ⟨l, ?_, fun _ h => h, hc, fun h => absurd hc h⟩
        rw [if_pos (List.contains_iff_mem.2 hc)]
      · refine ⟨_, by rw [if_neg (by simpa using hc)], fun x hx => by simp [hx], by simp, fun _ => ?_⟩
        rw [← hx'.2]
        apply List.mem_append.2
        right
        rw [List.mem_singleton]
        rfl

/-- C63: every write of a slice goes to a reserved extension of the same type, with the data of the size
of one cutout, no extension is written twice, and every extension but the segmentation map (so every
noise extension) is written. -/
theorem C63_written (ops : PixelOps V) (pars : Option (List (String × String)))
    (n npix npixPsf nExtra i : Nat) (p : SlicePix V) (hp : GoodPix ops npix npixPsf nExtra p) (hi : i < n)
    (fits : List (Hdu V))
    (hf : reserveImages ops pars (n * npix) (n * npixPsf) nExtra npix npixPsf = .ok fits) :
    ∃ ws, writesOf p (i * npix) (i * npixPsf) = .ok ws ∧ (ws.map Write.ext).Nodup ∧
      (∀ w ∈ ws, ∃ h ∈ fits, h.name = w.ext ∧ cutoutDtype w.info = .ok h.dtype ∧
        w.data.length = perSlice npix npixPsf h.name ∧ w.start + w.data.length ≤ h.dims ∧
        Provides p h.name w.data) ∧
      ∀ h ∈ fits, h.name ≠ "seg_cutouts" → ∃ w ∈ ws, w.ext = h.name := by
  rw [reserveImages_ok] at hf
  have hf := Except.ok.inj hf
  subst hf
  obtain ⟨ws, w1, w2, w3, w4⟩ := writesOf_facts hp (i * npix) (i * npixPsf)
  obtain ⟨fits, hr, _, _, hd⟩ := C63_reserved ops pars (n * npix) (n * npixPsf) nExtra npix npixPsf
  rw [reserveImages_ok] at hr
  have hr := Except.ok.inj hr
  subst hr
  have hnames := reserved_names ops pars (n * npix) (n * npixPsf) nExtra npix npixPsf
  refine ⟨ws, w1, w2, ?_, ?_⟩
  · intro w hw
    obtain ⟨a1, a2, a3, a4⟩ := w3 w hw
    rw [← hnames] at a3
    obtain ⟨h, hh, he⟩ := List.mem_map.1 a3
    have hdt : h.dtype = extDtype h.name := by
      obtain ⟨x, _, rfl⟩ := List.mem_map.1 hh; rfl
    have hlen : w.data.length = perSlice npix npixPsf h.name := by rw [he]; exact hp.size _ _ a1
    refine ⟨h, hh, he, by rw [a4, hdt, he], hlen, ?_, by rw [he]; exact a1⟩
    rw [hlen, (hd h hh).1, a2, ← he]
    unfold perSlice
    have hm : ∀ m, i * m + m ≤ n * m := by
      intro m
      calc i * m + m = (i + 1) * m := by ring
        _ ≤ n * m := Nat.mul_le_mul_right m hi
    by_cases hps : h.name = PSF_EXT
    · rw [if_pos hps, if_pos (show h.name = "psf" from hps), if_pos (show h.name = "psf" from hps)]
      exact hm _
    · rw [if_neg hps, if_neg (show ¬ h.name = "psf" from hps), if_neg (show ¬ h.name = "psf" from hps)]
      exact hm _
  · intro h hh hs
    apply w4 _ _ hs
    rw [← hnames]
    exact List.mem_map_of_mem hh

end Pizza
