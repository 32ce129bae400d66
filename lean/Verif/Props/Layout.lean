import Verif.Props.Fits
import Verif.Model.Run
import Mathlib.Algebra.Order.BigOperators.Group.List

/-!
C62 (layout), C66 (effective number of epochs).
-/

namespace Pizza

variable {V E : Type}

/-- The reserved extensions of a run. -/
def RunShape.reserved (c : RunShape V) : List (Hdu V) :=
  reservedHdus c.ops c.pars (c.n * c.npix) (c.n * c.npixPsf) c.nExtra c.npix c.npixPsf

/-- The layout holds before anything is written. -/
theorem holds_init (c : RunShape V) (rows0 : List RunRow) :
    Holds (E := E) c.ops c.n c.npix c.npixPsf c.reserved rows0 [] ⟨c.reserved, rows0, []⟩ := by
  refine ⟨?_, by simp, ?_, rfl, by simp, fun _ _ => rfl, rfl⟩
  · exact List.forall₂_same.2 fun _ _ => ⟨rfl, rfl, rfl, rfl⟩
  · intro h hh k _
    obtain ⟨x, _, rfl⟩ := List.mem_map.1 hh
    rfl

theorem forall₂_names {a b : List (Hdu V)} (h : List.Forall₂ (fun a b : Hdu V =>
    a.name = b.name ∧ a.dtype = b.dtype ∧ a.dims = b.dims ∧ a.header = b.header) a b) :
    a.map Hdu.name = b.map Hdu.name ∧ ∀ x ∈ b, ∃ y ∈ a, y.name = x.name ∧ y.dtype = x.dtype ∧ y.dims = x.dims := by
  induction h with
  | nil => simp
  | cons h _ ih =>
    obtain ⟨i1, i2⟩ := ih
    refine ⟨by simp [h.1, i1], ?_⟩
    intro x hx
    rcases List.mem_cons.1 hx with rfl | hx
    · exact ⟨_, by simp, h.1, h.2.1, h.2.2.1⟩
    · obtain ⟨y, hy, e⟩ := i2 x hx
      exact ⟨y, by simp [hy], e⟩

/-- One more result is stored. -/
theorem process_holds (c : RunShape V) (rows0 : List RunRow) (hrows : rows0.length = c.n)
    (done : List (SliceRes V E)) (o : Out V E) (r : SliceRes V E)
    (ho : Holds c.ops c.n c.npix c.npixPsf c.reserved rows0 done o)
    (hdone : ∀ d ∈ done, GoodRes c.ops c.n c.npix c.npixPsf c.nExtra d)
    (hr : GoodRes c.ops c.n c.npix c.npixPsf c.nExtra r) (hnew : ∀ d ∈ done, d.i ≠ r.i) :
    ∃ o', processResults c.ops c.npix c.npixPsf o r = .ok o' ∧
      Holds c.ops c.n c.npix c.npixPsf c.reserved rows0 (done ++ [r]) o' := by
  have hi : r.i < o.rows.length := by rw [ho.rowsLen, hrows]; exact hr.index
  obtain ⟨old, hold⟩ : ∃ old, rows0[r.i]? = some old := by
    rw [ho.rowsLen] at hi
    exact ⟨_, List.getElem?_eq_getElem hi⟩
  have hcur : o.rows[r.i]? = some old := by rw [ho.rowsRest r.i (fun d hd => hnew d hd), hold]
  -- rows
  have rowsOk : ∀ f : RunRow → RunRow, f old = rowAfter c.npix c.npixPsf nepochEff old r →
      (o.rows.modify r.i f).length = rows0.length ∧
      (∀ x ∈ done ++ [r], ∀ old', rows0[x.i]? = some old' →
        (o.rows.modify r.i f)[x.i]? = some (rowAfter c.npix c.npixPsf nepochEff old' x)) ∧
      ∀ i, (∀ x ∈ done ++ [r], x.i ≠ i) → (o.rows.modify r.i f)[i]? = rows0[i]? := by
    intro f hf
    refine ⟨by rw [List.length_modify, ho.rowsLen], ?_, ?_⟩
    · intro x hx old' hold'
      rw [List.getElem?_modify]
      rcases List.mem_append.1 hx with hx | hx
      · rw [ho.rowsDone x hx old' hold']
        simp [(hnew x hx).symm]
      · rw [List.mem_singleton] at hx
        subst hx
        rw [hcur]
        rw [hold] at hold'
        cases hold'
        simp [hf]
    · intro i hx
      rw [List.getElem?_modify, ho.rowsRest i fun d hd => hx d (by simp [hd])]
      have := hx r (by simp)
      cases rows0[i]? <;> simp [this]
  unfold processResults
  rw [if_pos hi]
  by_cases hw : r.weights = []
  · -- no data
    rw [if_neg (by simp [hw])]
    refine ⟨_, rfl, ?_⟩
    have hra : rowAfter c.npix c.npixPsf nepochEff old r = { old with nepoch := 0, nepochEff := 0 } := by
      unfold rowAfter; rw [hw]
    obtain ⟨r1, r2, r3⟩ := rowsOk (fun a => { a with nepoch := 0, nepochEff := 0 }) hra.symm
    refine ⟨ho.shape, ?_, ?_, r1, r2, r3, ?_⟩
    · intro h hh x hx hxw
      rcases List.mem_append.1 hx with hx | hx
      · exact ho.stored h hh x hx hxw
      · rw [List.mem_singleton] at hx; subst hx; exact absurd hw hxw
    · intro h hh k hk
      exact ho.zero h hh k fun x hx => hk x (by simp [hx])
    · simp [ho.epochs]
  · -- data
    obtain ⟨p, hp, hgood⟩ := hr.pix hw
    have hlen : r.weights.length > 0 := List.length_pos_iff.2 hw
    obtain ⟨ws, w1, w2, w3, w4⟩ := C63_written c.ops c.pars c.n c.npix c.npixPsf c.nExtra r.i p hgood
      hr.index _ (reserveImages_ok ..)
    obtain ⟨ws', w1', _, w3', _⟩ := writesOf_facts hgood (r.i * c.npix) (r.i * c.npixPsf)
    rw [w1] at w1'
    have w1' := Except.ok.inj w1'
    subst w1'
    obtain ⟨n1, n2⟩ := forall₂_names ho.shape
    have hnodup : (o.fits.map Hdu.name).Nodup := by
      rw [n1, RunShape.reserved, reserved_names]; exact allNames_nodup _
    have hfit : ∀ w ∈ ws, Fitting c.ops o.fits w := by
      intro w hw'
      obtain ⟨h, hh, e1, e2, e3, e4, e5⟩ := w3 w hw'
      obtain ⟨y, hy, y1, y2, y3⟩ := n2 h hh
      refine ⟨y, hy, y1.trans e1, by rw [e2, y2], by rw [y3]; exact e4, ?_⟩
      have hdt : y.dtype = extDtype w.ext := by
        have := (w3' w hw').2.2.2
        rw [e2] at this
        rw [y2]; exact Except.ok.inj this
      have hpv := (w3' w hw').1
      rintro (hm | hm)
      · rw [hdt, hm]
        have : w.data = p.mfrac := by
          rw [hm] at hpv; exact provides_unique hpv .mfrac
        rw [this]; exact hgood.mfrac
      · rw [hdt, hm]
        have : w.data = p.weight := by
          rw [hm] at hpv; exact provides_unique hpv .weight
        rw [this]; exact hgood.weight
    have hra : rowAfter c.npix c.npixPsf nepochEff old r =
        ⟨1, r.weights.length, nepochEff r.weights, p.psfSigma, r.i * c.npix, r.i * c.npixPsf⟩ := by
      unfold rowAfter
      cases hwl : r.weights with
      | nil => exact absurd hwl hw
      | cons a l => rw [hp]
    rw [if_pos hlen]
    have hpe : pixEntries r = .ok p := by unfold pixEntries; rw [hp]
    rw [hpe, ok_bind, w1, ok_bind, writeAll_ok c.ops ws o.fits hnodup hfit, ok_bind]
    refine ⟨_, rfl, ?_⟩
    obtain ⟨r1, r2, r3⟩ := rowsOk (fun _ => ⟨1, r.weights.length, nepochEff r.weights, p.psfSigma,
      (r.i * c.npix : Nat), (r.i * c.npixPsf : Nat)⟩) (by rw [hra]; push_cast; rfl)
    -- what happened to an extension
    have hext : ∀ h ∈ o.fits, h.name ≠ SEG_EXT → ∃ w ∈ ws, w.ext = h.name ∧ Provides p h.name w.data ∧
        w.start = r.i * perSlice c.npix c.npixPsf h.name ∧
        w.data.length = perSlice c.npix c.npixPsf h.name ∧
        ws.foldl (fun h w => applyWrite c.ops w h) h = applyWrite c.ops w h := by
      intro h hh hs
      have hmem : h.name ∈ c.reserved.map Hdu.name := by rw [← n1]; exact List.mem_map_of_mem hh
      obtain ⟨h', hh', he'⟩ := List.mem_map.1 hmem
      obtain ⟨w, hw', hwe⟩ := w4 h' hh' (by rw [he']; exact hs)
      have hwe' : w.ext = h.name := hwe.trans he'
      obtain ⟨a1, a2, _, _⟩ := w3' w hw'
      rw [hwe'] at a1
      refine ⟨w, hw', hwe', a1, ?_, hgood.size _ _ a1, foldl_one c.ops ws h w2 w hw' hwe'⟩
      rw [a2, hwe']
      unfold perSlice
      by_cases hps : h.name = PSF_EXT
      · rw [if_pos hps, if_pos (show h.name = "psf" from hps)]
      · rw [if_neg hps, if_neg (show ¬ h.name = "psf" from hps)]
    refine ⟨?_, ?_, ?_, r1, r2, r3, by simp [ho.epochs]⟩
    · simp only
      rw [List.forall₂_map_left_iff]
      refine List.Forall₂.imp ?_ ho.shape
      intro a b hab
      obtain ⟨f1, f2, f3, f4⟩ := foldl_fields c.ops ws a
      exact ⟨f1.trans hab.1, f2.trans hab.2.1, f3.trans hab.2.2.1, f4.trans hab.2.2.2⟩
    · intro h' hh' x hx hxw q hq d hd k hk
      obtain ⟨h, hh, rfl⟩ := List.mem_map.1 hh'
      obtain ⟨f1, f2, _, _⟩ := foldl_fields c.ops ws h
      simp only [f1, f2] at hd ⊢
      have hseg : h.name ≠ SEG_EXT := fun e => seg_not_provided (e ▸ hd)
      obtain ⟨w, hw', e1, e2, e3, e4, e5⟩ := hext h hh hseg
      rw [e5]
      obtain ⟨a1, a2⟩ := applyWrite_px c.ops w h e1
      rcases List.mem_append.1 hx with hx | hx
      · rw [a2]
        · exact ho.stored h hh x hx hxw q hq d hd k hk
        · rw [e3, e4]
          have hne := hnew x hx
          have hk' : k < perSlice c.npix c.npixPsf h.name := by
            obtain ⟨q', hq', hg'⟩ := (hdone x hx).pix hxw
            rw [hq] at hq'
            cases hq'
            rw [← hg'.size _ _ hd]
            exact hk
          rcases Nat.lt_or_gt_of_ne hne with hlt | hgt
          · left
            calc x.i * perSlice c.npix c.npixPsf h.name + k
                < (x.i + 1) * perSlice c.npix c.npixPsf h.name := by rw [Nat.succ_mul]; omega
              _ ≤ _ := Nat.mul_le_mul_right _ hlt
          · right
            calc r.i * perSlice c.npix c.npixPsf h.name + perSlice c.npix c.npixPsf h.name
                = (r.i + 1) * perSlice c.npix c.npixPsf h.name := by rw [Nat.succ_mul]
              _ ≤ x.i * perSlice c.npix c.npixPsf h.name := Nat.mul_le_mul_right _ hgt
              _ ≤ _ := Nat.le_add_right _ _
      · rw [List.mem_singleton] at hx
        subst hx
        rw [hp] at hq
        cases hq
        have hdd : d = w.data := provides_unique hd e2
        subst hdd
        rw [← e3]
        exact a1 k hk
    · intro h' hh' k hk
      obtain ⟨h, hh, rfl⟩ := List.mem_map.1 hh'
      obtain ⟨f1, _, _, _⟩ := foldl_fields c.ops ws h
      simp only [f1] at hk ⊢
      by_cases hseg : h.name = SEG_EXT
      · rw [foldl_other]
        · exact ho.zero h hh k fun x hx _ _ _ => hseg
        · intro w hw' he
          exact seg_not_provided (hseg ▸ he ▸ (w3' w hw').1)
      · obtain ⟨w, hw', e1, e2, e3, e4, e5⟩ := hext h hh hseg
        rw [e5]
        obtain ⟨_, a2⟩ := applyWrite_px c.ops w h e1
        rw [a2]
        · exact ho.zero h hh k fun x hx => hk x (by simp [hx])
        · rw [e3, e4]
          by_contra hc
          push Not at hc
          obtain ⟨c1, c2⟩ := hc
          have hpos : perSlice c.npix c.npixPsf h.name ≠ 0 := by omega
          apply hseg
          refine hk r (by simp) hw ?_ hpos
          rw [Nat.div_eq_iff (by omega)]
          constructor <;> (rw [Nat.mul_comm] at *; omega)

theorem processAll_holds (c : RunShape V) (rows0 : List RunRow) (hrows : rows0.length = c.n)
    (rs done : List (SliceRes V E)) (o : Out V E)
    (ho : Holds c.ops c.n c.npix c.npixPsf c.reserved rows0 done o)
    (hg : ∀ d ∈ done ++ rs, GoodRes c.ops c.n c.npix c.npixPsf c.nExtra d)
    (hn : ((done ++ rs).map SliceRes.i).Nodup) :
    ∃ o', processAllResults c o rs = .ok o' ∧
      Holds c.ops c.n c.npix c.npixPsf c.reserved rows0 (done ++ rs) o' := by
  induction rs generalizing done o with
  | nil => exact ⟨o, rfl, by simpa using ho⟩
  | cons r l ih =>
    obtain ⟨o1, h1, h2⟩ := process_holds c rows0 hrows done o r ho (fun d hd => hg d (by simp [hd]))
      (hg r (by simp)) (by
        intro d hd he
        rw [List.map_append, List.nodup_append] at hn
        exact hn.2.2 _ (List.mem_map_of_mem hd) _ (by simp) he)
    obtain ⟨o2, h3, h4⟩ := ih (done ++ [r]) o1 h2 (by simpa using hg) (by simpa using hn)
    refine ⟨o2, ?_, by simpa using h4⟩
    unfold processAllResults
    rw [h1, ok_bind, h3]

/-- C62: results of different slices, processed in any order into the reserved images, are stored so
that every slice can be read back from its own range; all other pixels stay zero and all other rows of
`object_data` stay as they were. -/
theorem C62_layout (c : RunShape V) (rows0 : List RunRow) (hrows : rows0.length = c.n)
    (fits : List (Hdu V))
    (hf : reserveImages c.ops c.pars (c.n * c.npix) (c.n * c.npixPsf) c.nExtra c.npix c.npixPsf = .ok fits)
    (rs : List (SliceRes V E)) (hg : ∀ d ∈ rs, GoodRes c.ops c.n c.npix c.npixPsf c.nExtra d)
    (hn : (rs.map SliceRes.i).Nodup) :
    ∃ o, processAllResults c ⟨fits, rows0, []⟩ rs = .ok o ∧
      Holds c.ops c.n c.npix c.npixPsf fits rows0 rs o := by
  rw [reserveImages_ok] at hf
  have hf := Except.ok.inj hf
  subst hf
  exact processAll_holds c rows0 hrows rs [] _ (holds_init c rows0) (by simpa using hg) (by simpa using hn)

/-- C62: the ranges of different slices in an extension are disjoint and inside the extension. -/
theorem C62_disjoint (c : RunShape V) (fits : List (Hdu V))
    (hf : reserveImages c.ops c.pars (c.n * c.npix) (c.n * c.npixPsf) c.nExtra c.npix c.npixPsf = .ok fits)
    (h : Hdu V) (hh : h ∈ fits) (i j : Nat) (hi : i < c.n) (hij : i ≠ j) (k : Nat)
    (hk : k < perSlice c.npix c.npixPsf h.name) :
    i * perSlice c.npix c.npixPsf h.name + k < h.dims ∧
    ∀ k' < perSlice c.npix c.npixPsf h.name,
      i * perSlice c.npix c.npixPsf h.name + k ≠ j * perSlice c.npix c.npixPsf h.name + k' := by
  obtain ⟨fits', hr, _, _, hd⟩ := C63_reserved c.ops c.pars (c.n * c.npix) (c.n * c.npixPsf) c.nExtra c.npix c.npixPsf
  rw [hf] at hr
  have hr := Except.ok.inj hr
  subst hr
  have hdim : h.dims = c.n * perSlice c.npix c.npixPsf h.name := by
    rw [(hd h hh).1]; unfold perSlice; split <;> rfl
  rw [hdim]
  generalize perSlice c.npix c.npixPsf h.name = m at hk
  constructor
  · calc i * m + k < (i + 1) * m := by rw [Nat.succ_mul]; omega
      _ ≤ c.n * m := Nat.mul_le_mul_right m hi
  · intro k' hk' he
    have h1 : (i * m + k) / m = i := by
      rw [Nat.mul_comm, Nat.mul_add_div (by omega), Nat.div_eq_of_lt hk]; rfl
    have h2 : (j * m + k') / m = j := by
      rw [Nat.mul_comm, Nat.mul_add_div (by omega), Nat.div_eq_of_lt hk']; rfl
    rw [he, h2] at h1
    exact hij h1.symm

/-- What has been stored determines file and table: two ways of storing the same results give the same
file and table. -/
theorem holds_unique (c : RunShape V) (rows0 : List RunRow) (hrows : rows0.length = c.n)
    (rs rs' : List (SliceRes V E)) (hp : rs.Perm rs')
    (hg : ∀ d ∈ rs, GoodRes c.ops c.n c.npix c.npixPsf c.nExtra d) (o o' : Out V E)
    (ho : Holds c.ops c.n c.npix c.npixPsf c.reserved rows0 rs o)
    (ho' : Holds c.ops c.n c.npix c.npixPsf c.reserved rows0 rs' o') :
    o.fits = o'.fits ∧ o.rows = o'.rows ∧ o.epochs.Perm o'.epochs := by
  refine ⟨?_, ?_, ?_⟩
  · -- extensions
    have key : ∀ h ∈ o.fits, ∀ h' ∈ o'.fits, h.name = h'.name → h.dtype = h'.dtype →
        h.name ∈ allNames c.nExtra → ∀ k, h.px k = h'.px k := by
      intro h hh h' hh' hnm hdt hall k
      by_cases hz : ∀ r ∈ rs, r.weights ≠ [] → k / perSlice c.npix c.npixPsf h.name = r.i →
          perSlice c.npix c.npixPsf h.name ≠ 0 → h.name = "seg_cutouts"
      · rw [ho.zero h hh k hz, ho'.zero h' hh' k]
        intro r hr
        rw [← hnm]
        exact hz r (hp.mem_iff.2 hr)
      · push Not at hz
        obtain ⟨r, hr, z1, z2, z3, z4⟩ := hz
        obtain ⟨p, hpx, hgood⟩ := (hg r hr).pix z1
        obtain ⟨ws, _, _, w3, w4⟩ := writesOf_facts hgood 0 0
        obtain ⟨w, hw, hwe⟩ := w4 h.name hall z4
        have hpv := (w3 w hw).1
        rw [hwe] at hpv
        have hlen := hgood.size _ _ hpv
        have hk : k % perSlice c.npix c.npixPsf h.name < w.data.length := by
          rw [hlen]; exact Nat.mod_lt _ (by omega)
        have hkk : k = r.i * perSlice c.npix c.npixPsf h.name + k % perSlice c.npix c.npixPsf h.name := by
          rw [← z2, Nat.mul_comm]; exact (Nat.div_add_mod _ _).symm
        have e1 := ho.stored h hh r hr z1 p hpx w.data hpv _ hk
        have e2 := ho'.stored h' hh' r (hp.mem_iff.1 hr) z1 p hpx w.data (hnm ▸ hpv) (k % perSlice c.npix c.npixPsf h.name) hk
        rw [← hkk] at e1
        rw [← hnm, ← hkk] at e2
        rw [e1, e2, hdt]
    have hall : ∀ h ∈ o.fits, h.name ∈ allNames c.nExtra := by
      intro h hh
      have := List.mem_map_of_mem (f := Hdu.name) hh
      rwa [(forall₂_names ho.shape).1, RunShape.reserved, reserved_names] at this
    have hl : o.fits.length = o'.fits.length := by rw [ho.shape.length_eq, ho'.shape.length_eq]
    apply List.ext_getElem hl
    intro i h1 h2
    have s1 := List.forall₂_iff_get.1 ho.shape
    have s2 := List.forall₂_iff_get.1 ho'.shape
    have a1 := s1.2 i h1 (by rw [← s1.1]; exact h1)
    have a2 := s2.2 i h2 (by rw [← s2.1]; exact h2)
    simp only [List.get_eq_getElem] at a1 a2
    have b1 : o.fits[i].name = o'.fits[i].name := a1.1.trans a2.1.symm
    have b2 : o.fits[i].dtype = o'.fits[i].dtype := a1.2.1.trans a2.2.1.symm
    have b3 : o.fits[i].dims = o'.fits[i].dims := a1.2.2.1.trans a2.2.2.1.symm
    have b4 : o.fits[i].header = o'.fits[i].header := a1.2.2.2.trans a2.2.2.2.symm
    have b5 : o.fits[i].px = o'.fits[i].px := funext fun k =>
      key _ (List.getElem_mem h1) _ (List.getElem_mem h2) b1 b2 (hall _ (List.getElem_mem h1)) k
    cases hx : o.fits[i]; cases hy : o'.fits[i]
    rw [hx, hy] at b1 b2 b3 b4 b5
    simp only at b1 b2 b3 b4 b5
    subst b1 b2 b3 b4 b5
    rfl
  · apply List.ext_getElem?
    intro i
    by_cases hi : ∃ r ∈ rs, r.i = i
    · obtain ⟨r, hr, rfl⟩ := hi
      have hlt : r.i < rows0.length := by rw [hrows]; exact (hg r hr).index
      rw [ho.rowsDone r hr _ (List.getElem?_eq_getElem hlt),
        ho'.rowsDone r (hp.mem_iff.1 hr) _ (List.getElem?_eq_getElem hlt)]
    · rw [ho.rowsRest i fun r hr he => hi ⟨r, hr, he⟩,
        ho'.rowsRest i fun r hr he => hi ⟨r, hp.mem_iff.2 hr, he⟩]
  · rw [ho.epochs, ho'.epochs]
    exact hp.map _

/-! ### C66 -/

theorem foldl_max_spec (l : List ℚ) (a : ℚ) : (l.foldl max a = a ∨ l.foldl max a ∈ l) ∧ a ≤ l.foldl max a ∧
    ∀ v ∈ l, v ≤ l.foldl max a := by
  induction l generalizing a with
  | nil => simp
  | cons b l ih =>
    obtain ⟨i1, i2, i3⟩ := ih (max a b)
    rw [List.foldl_cons]
    refine ⟨?_, (le_max_left a b).trans i2, ?_⟩
    · rcases i1 with h | h
      · rcases max_choice a b with e | e
        · left; rw [h, e]
        · right; rw [h, e]; simp
      · right; simp [h]
    · intro v hv
      rcases List.mem_cons.1 hv with rfl | hv
      · exact (le_max_right _ _).trans i2
      · exact i3 v hv

theorem sum_le_length_mul {l : List ℚ} {m : ℚ} (h : ∀ v ∈ l, v ≤ m) :
    l.sum ≤ l.length * m ∧ (l.sum = l.length * m → ∀ v ∈ l, v = m) := by
  induction l with
  | nil => simp
  | cons a l ih =>
    obtain ⟨i1, i2⟩ := ih fun v hv => h v (by simp [hv])
    have ha := h a (by simp)
    simp only [List.sum_cons, List.length_cons, Nat.cast_add, Nat.cast_one, add_mul, one_mul]
    refine ⟨by linarith, ?_⟩
    intro he v hv
    have h1 : a = m := by linarith
    have h2 : l.sum = l.length * m := by linarith
    rcases List.mem_cons.1 hv with rfl | hv
    · exact h1
    · exact i2 h2 v hv

/-- C66: for positive weights the effective number of epochs is the sum of the weights over the largest; it is
between 1 and their number, and equal to their number iff all weights are equal. -/
theorem C66_bounds (w : List ℚ) (hne : w ≠ []) (hw : ∀ v ∈ w, 0 < v) :
    1 ≤ nepochEff w ∧ nepochEff w ≤ w.length ∧
    (nepochEff w = w.length ↔ ∀ a ∈ w, ∀ b ∈ w, a = b) ∧
    ∃ m ∈ w, (∀ v ∈ w, v ≤ m) ∧ nepochEff w * m = w.sum := by
  cases w with
  | nil => exact absurd rfl hne
  | cons a l =>
    obtain ⟨m1, m2, m3⟩ := foldl_max_spec l a
    have hmem : l.foldl max a ∈ a :: l := by
      rcases m1 with h | h
      · rw [h]; simp
      · simp [h]
    have hpos := hw _ hmem
    have hle : ∀ v ∈ a :: l, v ≤ l.foldl max a := by
      intro v hv
      rcases List.mem_cons.1 hv with rfl | hv
      · exact m2
      · exact m3 v hv
    have hs := sum_le_length_mul hle
    simp only [nepochEff]
    generalize l.foldl max a = m at *
    refine ⟨?_, ?_, ?_, m, hmem, hle, div_mul_cancel₀ _ hpos.ne'⟩
    · rw [le_div_iff₀ hpos, one_mul]
      exact List.single_le_sum (fun v hv => (hw v hv).le) m hmem
    · rw [div_le_iff₀ hpos]; exact hs.1
    · rw [div_eq_iff hpos.ne']
      constructor
      · intro he x hx y hy
        rw [hs.2 he x hx, hs.2 he y hy]
      · intro he
        have : ∀ v ∈ a :: l, v = m := fun v hv => he v hv m hmem
        rw [List.sum_eq_card_nsmul _ m this, nsmul_eq_mul]

/-- C66: what is recorded for a slice: with epochs, one cutout, their number and the effective number;
without, zero for both (and no cutout if there was none at the start). -/
theorem C66_recorded (c : RunShape V) (rows0 : List RunRow) (hrows : rows0.length = c.n)
    (rs : List (SliceRes V E)) (o : Out V E)
    (hg : ∀ d ∈ rs, GoodRes c.ops c.n c.npix c.npixPsf c.nExtra d)
    (ho : Holds c.ops c.n c.npix c.npixPsf c.reserved rows0 rs o) (r : SliceRes V E) (hr : r ∈ rs) :
    ∃ row, o.rows[r.i]? = some row ∧
      (r.weights ≠ [] → row.ncutout = 1 ∧ row.nepoch = r.weights.length ∧ row.nepochEff = nepochEff r.weights ∧
        row.startRow = r.i * c.npix ∧ row.psfStartRow = r.i * c.npixPsf) ∧
      (r.weights = [] → row.nepoch = 0 ∧ row.nepochEff = 0 ∧
        ∀ old, rows0[r.i]? = some old → row.ncutout = old.ncutout) := by
  have hlt : r.i < rows0.length := by rw [hrows]; exact (hg r hr).index
  refine ⟨_, ho.rowsDone r hr _ (List.getElem?_eq_getElem hlt), ?_, ?_⟩
  · intro hw
    obtain ⟨p, hp, _⟩ := (hg r hr).pix hw
    unfold rowAfter
    cases hwl : r.weights with
    | nil => exact absurd hwl hw
    | cons a l => rw [hp]; exact ⟨rfl, rfl, rfl, rfl, rfl⟩
  · intro hw
    unfold rowAfter
    rw [hw]
    refine ⟨rfl, rfl, ?_⟩
    intro old hold
    rw [List.getElem?_eq_getElem hlt] at hold
    rw [Option.some.inj hold]

end Pizza
