import Verif.Props.Run

/-!
Cases that meet the hypotheses of C60-C63, C66, C88.
-/

namespace Pizza

/-- Integer pixels, three slices of four pixels with a PSF of one pixel and one extra noise image. -/
def exRunShape : RunShape ℤ :=
  ⟨⟨0, fun _ v => v, fun v => decide (v < 0)⟩, some [("FZALGOR", "RICE_1")], 3, 4, 1, 1⟩

/-- The pixels of a slice. -/
def exPix (i seed : Nat) : SlicePix ℤ :=
  ⟨[i, 1, 2, 3], [0, 1, 0, 0], [0, 0, 4, 0], [[seed, 0, 0, 1], [5, 6, 7, 8]], [9], [1, 1, 1, 2], [0, 0, 1, 0], 2⟩

/-- Slice 1 has no epochs. -/
def exCompute (i seed : Nat) : Except Err (SliceRes ℤ Nat) :=
  if i = 1 then .ok ⟨1, [7], [], none⟩ else .ok ⟨i, [1, 2], [1 / 4, 3 / 4], some (exPix i seed)⟩

/-- The rows before the run. -/
def exRows : List RunRow := List.replicate 3 ⟨0, 0, 0, 0, 0, 0⟩

theorem exPix_good (i seed : Nat) : GoodPix exRunShape.ops 4 1 1 (exPix i seed) := by
  refine ⟨?_, rfl, ?_, ?_⟩
  · intro name d h
    cases h with
    | image => rfl
    | weight => rfl
    | bmask => rfl
    | ormask => rfl
    | mfrac => rfl
    | psf => rfl
    | noise d h =>
      simp only [exPix, List.getElem?_cons_zero, Option.some.injEq] at h
      subst h; rfl
    | extra k d n hk h hn =>
      have hne : name ≠ "psf" := by
        rintro rfl
        have := congrArg List.length hn
        simp at this
      have : k = 1 := by
        by_contra hk1
        have : (exPix i seed).noises[k]? = none := by
          apply List.getElem?_eq_none
          show 2 ≤ k
          omega
        rw [this] at h; cases h
      subst this
      simp only [exPix, List.getElem?_cons_succ, List.getElem?_cons_zero, Option.some.injEq] at h
      subst h
      simp [perSlice, hne]
  · intro v hv
    simp only [exPix, List.mem_cons, List.not_mem_nil, or_false] at hv
    rcases hv with rfl | rfl | rfl | rfl <;> rfl
  · intro v hv
    simp only [exPix, List.mem_cons, List.not_mem_nil, or_false] at hv
    rcases hv with rfl | rfl | rfl | rfl <;> rfl

theorem exCompute_good (slices : List Nat) (hs : ∀ i ∈ slices, i < 3) (seeds : List Nat) :
    GoodCompute exRunShape exCompute (jobsOf seeds slices) := by
  intro j hj r hr
  obtain ⟨i, hi, rfl⟩ := List.mem_map.1 hj
  have hlt := hs i hi
  unfold exCompute at hr
  simp only at hr
  split at hr
  · rename_i h1
    have hr := Except.ok.inj hr
    subst hr
    exact ⟨h1.symm, ⟨by show 1 < 3; omega, fun h => absurd rfl h⟩⟩
  · have hr := Except.ok.inj hr
    subst hr
    exact ⟨rfl, ⟨hlt, fun _ => ⟨_, rfl, exPix_good i _⟩⟩⟩

/-- The hypotheses of C60 and C61 hold for a run with two workers and two chunks, and complete runs
exist. -/
example : ∃ fits chunks k s,
    reserveImages exRunShape.ops exRunShape.pars (3 * 4) (3 * 1) 1 4 1 = .ok fits ∧
    allChunks [2, 0, 1] [11, 12, 13] 2 = .ok chunks ∧
    chunks = [[(2, 13), (0, 11)], [(1, 12)]] ∧
    Steps exRunShape exCompute 3 2 20 k (PState.init chunks ⟨fits, exRows, []⟩) s ∧ s.status = .done := by
  obtain ⟨fits, hf, _⟩ := C63_reserved exRunShape.ops exRunShape.pars (3 * 4) (3 * 1) 1 4 1
  obtain ⟨k, s, h1, h2⟩ := C61_completes exRunShape exCompute 3 2 20 0
    (PState.init [[(2, 13), (0, 11)], [(1, 12)]] ⟨fits, exRows, []⟩) _ (.refl _)
  refine ⟨fits, _, _, s, hf, rfl, rfl, h1, ?_⟩
  refine (C61_outcome exRunShape exCompute exRows rfl fits hf [2, 0, 1] [11, 12, 13] (by decide)
    (exCompute_good _ (by decide) _) 2 2 20 _ (by omega) (by omega) _ rfl s h1 h2).1 ?_
  intro i _
  unfold exCompute
  split
  · exact ⟨_, rfl⟩
  · exact ⟨_, rfl⟩

/-- C62, C63, C66: results that can be stored, one of them without epochs, in an order of their own. -/
example : (∀ d ∈ [(⟨2, [1, 2], [1 / 4, 3 / 4], some (exPix 2 13)⟩ : SliceRes ℤ Nat), ⟨1, [7], [], none⟩],
      GoodRes exRunShape.ops 3 4 1 1 d) ∧
    nepochEff [1 / 4, 3 / 4] = 4 / 3 := by
  refine ⟨?_, by norm_num [nepochEff]⟩
  intro d hd
  simp only [List.mem_cons, List.not_mem_nil, or_false] at hd
  rcases hd with rfl | rfl
  · exact ⟨by show 2 < 3; omega, fun _ => ⟨_, rfl, exPix_good 2 13⟩⟩
  · exact ⟨by show 1 < 3; omega, fun h => absurd rfl h⟩

/-- C88: runs over all slices and over one of them. -/
example : ∃ fits o o',
    reserveImages exRunShape.ops exRunShape.pars (3 * 4) (3 * 1) 1 4 1 = .ok fits ∧
    runSeq exRunShape exCompute ⟨fits, exRows, []⟩ (jobsOf [11, 12, 13] [0, 1, 2]) = .ok o ∧
    runSeq exRunShape exCompute ⟨fits, exRows, []⟩ (jobsOf [11, 12, 13] [2]) = .ok o' := by
  obtain ⟨fits, hf, _⟩ := C63_reserved exRunShape.ops exRunShape.pars (3 * 4) (3 * 1) 1 4 1
  have hfits : fits = exRunShape.reserved := reserved_of (c := exRunShape) hf
  subst hfits
  obtain ⟨o, h1, _⟩ := runSeq_holds (c := exRunShape) (compute := exCompute) (rows0 := exRows)
    (jobs := jobsOf [11, 12, 13] [0, 1, 2])
    (rs := [⟨0, [1, 2], [1 / 4, 3 / 4], some (exPix 0 11)⟩, ⟨1, [7], [], none⟩,
      ⟨2, [1, 2], [1 / 4, 3 / 4], some (exPix 2 13)⟩]) rfl (exCompute_good _ (by decide) _) (by decide) rfl
  obtain ⟨o', h1', _⟩ := runSeq_holds (c := exRunShape) (compute := exCompute) (rows0 := exRows)
    (jobs := jobsOf [11, 12, 13] [2])
    (rs := [⟨2, [1, 2], [1 / 4, 3 / 4], some (exPix 2 13)⟩]) rfl (exCompute_good _ (by decide) _) (by decide) rfl
  exact ⟨_, o, o', hf, h1, h1'⟩

/-- `C60_parallel`, `C60_order` and `C61_progress` on that run. -/
example : ∃ fits chunks o s k,
    reserveImages exRunShape.ops exRunShape.pars (3 * 4) (3 * 1) 1 4 1 = .ok fits ∧
    allChunks [2, 0, 1] [11, 12, 13] 2 = .ok chunks ∧
    Steps exRunShape exCompute 3 2 20 k (PState.init chunks ⟨fits, exRows, []⟩) s ∧ s.status = .done ∧
    runSeq exRunShape exCompute ⟨fits, exRows, []⟩ (jobsOf [11, 12, 13] [2, 0, 1]) = .ok o ∧
    s.out.fits = o.fits ∧
    (∃ o', runSeq exRunShape exCompute ⟨fits, exRows, []⟩ (jobsOf [11, 12, 13] [0, 1, 2]) = .ok o' ∧
      o.fits = o'.fits) ∧
    ∃ t, Step exRunShape exCompute 3 2 20 (PState.init chunks ⟨fits, exRows, []⟩) t := by
  obtain ⟨fits, hf, _⟩ := C63_reserved exRunShape.ops exRunShape.pars (3 * 4) (3 * 1) 1 4 1
  obtain ⟨k, s, h1, h2⟩ := C61_completes exRunShape exCompute 3 2 20 0
    (PState.init [[(2, 13), (0, 11)], [(1, 12)]] ⟨fits, exRows, []⟩) _ (.refl _)
  have hg := exCompute_good [2, 0, 1] (by decide) [11, 12, 13]
  have hd := (C61_outcome exRunShape exCompute exRows rfl fits hf [2, 0, 1] [11, 12, 13] (by decide)
    hg 2 2 20 _ (by omega) (by omega) _ rfl s h1 h2).1 (by
      intro i _
      unfold exCompute
      split
      · exact ⟨_, rfl⟩
      · exact ⟨_, rfl⟩)
  obtain ⟨o, ho, he, _⟩ := C60_parallel exRunShape exCompute exRows rfl fits hf [2, 0, 1] [11, 12, 13]
    (by decide) hg 2 2 20 _ _ rfl s h1 hd
  obtain ⟨o', ho', he', _⟩ := C60_order exRunShape exCompute exRows rfl fits hf [2, 0, 1] [0, 1, 2]
    [11, 12, 13] (by decide) (by decide) hg o ho
  exact ⟨fits, _, o, s, _, hf, rfl, h1, hd, ho, he, ⟨o', ho', he'⟩,
    C61_progress exRunShape exCompute exRows rfl fits hf [2, 0, 1] [11, 12, 13] (by decide) hg 2 2 20 0
      (by norm_num) (by norm_num) _ rfl _ (.refl _) rfl⟩

/-- `C61_terminates` for three slices in two chunks. -/
example (o : Out ℤ Nat) (s : PState ℤ Nat) (k : Nat)
    (h : Steps exRunShape exCompute 3 2 20 k (PState.init [[(2, 13), (0, 11)], [(1, 12)]] o) s) : k ≤ 11 :=
  C61_terminates exRunShape exCompute o [2, 0, 1] [11, 12, 13] 2 3 2 20 k _ rfl s h

/-- `C61_sequential`: slice 1 raises, slice 2 before it does not. -/
example (fits) (hf : reserveImages exRunShape.ops exRunShape.pars (3 * 4) (3 * 1) 1 4 1 = .ok fits) :=
  C61_sequential exRunShape (fun i seed => if i = 1 then .error .valueError else exCompute i seed) exRows rfl
    fits hf [2] [0] [11, 12, 13] 1 (by decide) (by
      intro j hj r hr
      simp only at hr
      split at hr
      · cases hr
      · exact exCompute_good [2, 1, 0] (by decide) [11, 12, 13] j hj r hr)
    (by simp [exCompute]) .valueError rfl

/-- `C61_killed_worker_stuck` for two workers. -/
example (o : Out ℤ Nat) := C61_killed_worker_stuck exRunShape exCompute o 2 13 2 20 (by norm_num)

/-- Results that can be stored (example). -/
theorem exResults_good :
    ∀ d ∈ [(⟨2, [1, 2], [1 / 4, 3 / 4], some (exPix 2 13)⟩ : SliceRes ℤ Nat), ⟨1, [7], [], none⟩],
      GoodRes exRunShape.ops 3 4 1 1 d := by
  intro d hd
  simp only [List.mem_cons, List.not_mem_nil, or_false] at hd
  rcases hd with rfl | rfl
  · exact ⟨by show 2 < 3; omega, fun _ => ⟨_, rfl, exPix_good 2 13⟩⟩
  · exact ⟨by show 1 < 3; omega, fun h => absurd rfl h⟩

/-- `C62_layout` and `C66_recorded` for the results of two slices. -/
example : ∃ fits o, reserveImages exRunShape.ops exRunShape.pars (3 * 4) (3 * 1) 1 4 1 = .ok fits ∧
    processAllResults exRunShape ⟨fits, exRows, []⟩
      [(⟨2, [1, 2], [1 / 4, 3 / 4], some (exPix 2 13)⟩ : SliceRes ℤ Nat), ⟨1, [7], [], none⟩] = .ok o ∧
    ∃ row, o.rows[2]? = some row ∧ row.nepoch = 2 := by
  obtain ⟨fits, hf, _⟩ := C63_reserved exRunShape.ops exRunShape.pars (3 * 4) (3 * 1) 1 4 1
  have hfits : fits = exRunShape.reserved := reserved_of (c := exRunShape) hf
  obtain ⟨o, ho, hh⟩ := C62_layout exRunShape exRows rfl fits hf _ exResults_good (by decide)
  subst hfits
  obtain ⟨row, h1, h2, _⟩ := C66_recorded exRunShape exRows rfl _ o exResults_good hh _
    (List.mem_cons_self ..)
  exact ⟨_, o, hf, ho, row, h1, (h2 (by simp)).2.1⟩

/-- `C62_disjoint` for the last pixel of slice 1. -/
example (fits) (hf : reserveImages exRunShape.ops exRunShape.pars (3 * 4) (3 * 1) 1 4 1 = .ok fits)
    (h : Hdu ℤ) (hh : h ∈ fits) := C62_disjoint exRunShape fits hf h hh 1 2 (by decide) (by decide)

/-- `C66_bounds` for a quarter and three quarters. -/
example := C66_bounds [1 / 4, 3 / 4] (by simp) (by simp)

/-- `C88_slice`: slice 2 in a run over all slices and in a run over slices 2 and 1. -/
example : ∃ fits o o',
    reserveImages exRunShape.ops exRunShape.pars (3 * 4) (3 * 1) 1 4 1 = .ok fits ∧
    runSeq exRunShape exCompute ⟨fits, exRows, []⟩ (jobsOf [11, 12, 13] [0, 1, 2]) = .ok o ∧
    runSeq exRunShape exCompute ⟨fits, exRows, []⟩ (jobsOf [11, 12, 13] [2, 1]) = .ok o' ∧
    o.rows[2]? = o'.rows[2]? := by
  obtain ⟨fits, hf, _⟩ := C63_reserved exRunShape.ops exRunShape.pars (3 * 4) (3 * 1) 1 4 1
  have hfits : fits = exRunShape.reserved := reserved_of (c := exRunShape) hf
  subst hfits
  obtain ⟨o, h1, _⟩ := runSeq_holds (c := exRunShape) (compute := exCompute) (rows0 := exRows)
    (jobs := jobsOf [11, 12, 13] [0, 1, 2])
    (rs := [⟨0, [1, 2], [1 / 4, 3 / 4], some (exPix 0 11)⟩, ⟨1, [7], [], none⟩,
      ⟨2, [1, 2], [1 / 4, 3 / 4], some (exPix 2 13)⟩]) rfl (exCompute_good _ (by decide) _) (by decide) rfl
  obtain ⟨o', h1', _⟩ := runSeq_holds (c := exRunShape) (compute := exCompute) (rows0 := exRows)
    (jobs := jobsOf [11, 12, 13] [2, 1])
    (rs := [⟨2, [1, 2], [1 / 4, 3 / 4], some (exPix 2 13)⟩, ⟨1, [7], [], none⟩]) rfl
    (exCompute_good _ (by decide) _) (by decide) rfl
  exact ⟨_, o, o', hf, h1, h1', (C88_slice exRunShape exCompute exRows rfl _ hf [11, 12, 13] _ _ (by decide)
    (by decide) (exCompute_good _ (by decide) _) (exCompute_good _ (by decide) _) o o' h1 h1' 2 (by decide)
    (by decide)).1⟩

/-- `C63_written`: the second of three slices. -/
example (fits : List (Hdu ℤ))
    (hf : reserveImages exRunShape.ops exRunShape.pars (3 * 4) (3 * 1) 1 4 1 = .ok fits) :=
  C63_written exRunShape.ops exRunShape.pars 3 4 1 1 1 (exPix 1 5) (exPix_good 1 5) (by omega) fits hf

end Pizza
