import Verif.Lemmas.Slice
import Verif.Props.Run
import Verif.Props.Locate
import Verif.Spec.Slice
import Verif.Props.Gaia

/-!
Properties C93-C95: `_coadd_single_slice`, and what a run writes to its files.
-/

namespace Pizza

variable {A σ S : Type}

theorem coaddPsfLayout_odd (fwd inv : ℚ → ℚ → ℚ × ℚ) (ra dec offset : ℚ) {n : Nat} (h : n % 2 = 1) :
    ∃ lay, coaddPsfLayout fwd inv ra dec n offset = .ok lay := by
  obtain ⟨l, _, _, hl, _⟩ := (C09_coadd_layout fwd inv ra dec offset n).1 (by omega)
  exact ⟨l, hl⟩

theorem SoundEnv.sane {v : SliceEnv A σ S} {box psfBox : Nat} (hv : SoundEnv v box psfBox) {row : ObjRow}
    (hr : row ∈ v.objects) (gaia : Option (Img Bool)) (a b c d : ℚ) :
    Sane v.ext (cfgFor v row gaia) (v.sources a b c d) := by
  refine ⟨?_, hv.frac, hv.shape a b c d, hv.keeps⟩
  show 1 ≤ row.boxSize
  rw [(hv.rows row hr).1]
  have := hv.boxPos
  omega

theorem values_rowMajor {α : Type} {n : Nat} {a : Img α} (h : a.nrow = n ∧ a.ncol = n) :
    RowMajor n a.values fun r c x => x = a.px r c := by
  obtain ⟨h1, h2⟩ := h
  unfold Img.values
  rw [h1, h2]
  exact ⟨length_gridRow n n _, fun r hr c hc => ⟨_, getElem?_gridRow n n _ hr hc, rfl⟩⟩

theorem RowMajor.map {α β : Type} {n : Nat} {l : List α} {p : Nat → Nat → α → Prop} {q : Nat → Nat → β → Prop}
    (f : α → β) (h : RowMajor n l p) (hf : ∀ r < n, ∀ c < n, ∀ x, p r c x → q r c (f x)) :
    RowMajor n (l.map f) q := by
  refine ⟨by rw [List.length_map, h.1], fun r hr c hc => ?_⟩
  obtain ⟨x, h1, h2⟩ := h.2 r hr c hc
  exact ⟨f x, by rw [List.getElem?_map, h1]; rfl, hf r hr c hc x h2⟩

theorem RowMajor.mono {α : Type} {n : Nat} {l : List α} {p q : Nat → Nat → α → Prop}
    (h : RowMajor n l p) (hf : ∀ r < n, ∀ c < n, ∀ x, p r c x → q r c x) : RowMajor n l q :=
  ⟨h.1, fun r hr c hc => let ⟨x, h1, h2⟩ := h.2 r hr c hc; ⟨x, h1, hf r hr c hc x h2⟩⟩

/-- Every entry of the list is a pixel. -/
theorem RowMajor.forall {α : Type} {n : Nat} {l : List α} {p : Nat → Nat → α → Prop} {q : α → Prop}
    (h : RowMajor n l p) (hf : ∀ r < n, ∀ c < n, ∀ x, p r c x → q x) : ∀ x ∈ l, q x := by
  intro x hx
  obtain ⟨k, hk, rfl⟩ := List.getElem_of_mem hx
  have hk' := hk
  rw [h.1] at hk'
  have hn : 0 < n := by
    rcases Nat.eq_zero_or_pos n with rfl | hn
    · simp at hk'
    · exact hn
  have hr : k / n < n := Nat.div_lt_of_lt_mul hk'
  have hc : k % n < n := Nat.mod_lt _ hn
  obtain ⟨y, h1, h2⟩ := h.2 _ hr _ hc
  have : k / n * n + k % n = k := by rw [mul_comm]; exact Nat.div_add_mod k n
  rw [this, List.getElem?_eq_getElem hk] at h1
  rw [Option.some.inj h1]
  exact hf _ hr _ hc _ h2

theorem isVariance_congr {box : Nat} {f g : Nat → Nat → ℚ} {w : ℚ}
    (h : ∀ r < box, ∀ c < box, f r c = g r c) (hf : IsVariance box f w) : IsVariance box g w := by
  obtain ⟨m, h1, h2⟩ := hf
  refine ⟨m, ?_, ?_⟩
  · rw [h1]
    exact Finset.sum_congr rfl fun r hr => Finset.sum_congr rfl fun c hc =>
      h r (Finset.mem_range.1 hr) c (Finset.mem_range.1 hc)
  · rw [h2]
    exact Finset.sum_congr rfl fun r hr => Finset.sum_congr rfl fun c hc => by
      rw [h r (Finset.mem_range.1 hr) c (Finset.mem_range.1 hc)]

/-- The pixel entries of a coadd of epochs. -/
theorem pixOf_combination {box psfBox nExtra : Nat} {ps : List (EpochData × ℚ)} {out : Coadd} (sigma : ℚ)
    (hb : 1 ≤ box) (hs : (ps.map Prod.snd).sum ≠ 0)
    (h : coaddSliceInputs box psfBox nExtra (ps.map fun p => .ok p.1) (ps.map Prod.snd) = .ok out) :
    CombinationOf box psfBox nExtra ps (pixOf out sigma) := by
  obtain ⟨⟨s1, s2, s3, s4⟩, m1, m2, m3, m4⟩ := C55_mean box psfBox nExtra ps out hs h
  obtain ⟨⟨o1, o2, o3, o4⟩, ho⟩ := C54_masks box psfBox nExtra _ _ out h
  obtain ⟨w1, w2, n0, var, w3, w4, w5, w6⟩ := C56_weight box psfBox nExtra _ _ out hb h
  have hor : ∀ (g : EpochData → Img (BitVec 32)) r c j,
      (∃ d : EpochData, (Except.ok d : Except Err EpochData) ∈ ps.map (fun p => .ok p.1) ∧
        ((g d).px r c).getLsbD j = true) ↔
      ∃ a ∈ ps.map fun q => (g q.1).px r c, a.getLsbD j = true := by
    intro g r c j
    constructor
    · rintro ⟨d, hd, hj⟩
      obtain ⟨q, hq, he⟩ := List.mem_map.1 hd
      cases he
      exact ⟨_, List.mem_map.2 ⟨q, hq, rfl⟩, hj⟩
    · rintro ⟨a, ha, hj⟩
      obtain ⟨q, hq, rfl⟩ := List.mem_map.1 ha
      exact ⟨q.1, List.mem_map.2 ⟨q, hq, rfl⟩, hj⟩
  refine ⟨?_, ?_, ?_, ?_, ?_, ?_, ?_, ?_⟩
  · refine (values_rowMajor s1).map _ fun r hr c hc x hx => ?_
    rw [hx, m1 r hr c hc]
  · refine (values_rowMajor s2).map _ fun r hr c hc x hx => ?_
    rw [hx, m2 r hr c hc]
  · refine (values_rowMajor s3).map _ fun r hr c hc x hx => ?_
    rw [hx, m3 r hr c hc]
  · refine (values_rowMajor ⟨o3, o4⟩).map _ fun r hr c hc x hx => ⟨x, rfl, fun j => ?_⟩
    rw [hx, (ho r hr c hc j).2]
    exact hor _ r c j
  · refine (values_rowMajor ⟨o1, o2⟩).map _ fun r hr c hc x hx => ⟨x, rfl, fun j => ?_⟩
    rw [hx, (ho r hr c hc j).1]
    exact hor _ r c j
  · simp only [pixOf, List.length_map, s4]
  · intro k hk
    obtain ⟨a, a1, a2, a3, a4⟩ := m4 k hk
    refine ⟨a.values.map .fin, by simp [pixOf, a1], ?_⟩
    refine (values_rowMajor ⟨a2, a3⟩).map _ fun r hr c hc x hx => ?_
    rw [hx, a4 r hr c hc]
    rfl
  · obtain ⟨a, a1, a2, a3, a4⟩ := m4 0 (by omega)
    rw [w3] at a1
    cases a1
    refine ⟨var, w5, isVariance_congr (fun r hr c hc => a4 r hr c hc) w4, ?_⟩
    refine (values_rowMajor ⟨w1, w2⟩).mono fun r hr c hc x hx => ?_
    rw [hx, w6]

theorem forall₂_of_total {α β : Type} {l : List α} {R : α → β → Prop} (h : ∀ a ∈ l, ∃ b, R a b) :
    ∃ bs, List.Forall₂ R l bs := by
  induction l with
  | nil => exact ⟨[], .nil⟩
  | cons a l ih =>
    obtain ⟨b, hb⟩ := h a List.mem_cons_self
    obtain ⟨bs, hbs⟩ := ih fun a ha => h a (List.mem_cons_of_mem _ ha)
    exact ⟨b :: bs, .cons hb hbs⟩

theorem map_of_forall₂ {α β : Type} {l : List α} {bs : List β} {f : α → Except Err β}
    (h : List.Forall₂ (fun a b => f a = .ok b) l bs) : l.map f = bs.map .ok := by
  induction h with
  | nil => rfl
  | cons h1 _ ih => rw [List.map_cons, List.map_cons, h1, ih]

theorem zip_fst_snd {α β : Type} {l : List α} {m : List β} (h : l.length = m.length) :
    (l.zip m).map Prod.fst = l ∧ (l.zip m).map Prod.snd = m :=
  ⟨List.map_fst_zip h.le, List.map_snd_zip h.ge⟩

/-- Every element satisfies a predicate, or there is a first that does not. -/
theorem all_or_first {α : Type} (P : α → Prop) (l : List α) :
    (∀ a ∈ l, P a) ∨ ∃ pre a post, l = pre ++ a :: post ∧ (∀ b ∈ pre, P b) ∧ ¬ P a := by
  induction l with
  | nil => left; intro a ha; cases ha
  | cons a l ih =>
    by_cases ha : P a
    · rcases ih with ih | ⟨pre, b, post, rfl, h1, h2⟩
      · left
        intro b hb
        rcases List.mem_cons.1 hb with rfl | hb
        · exact ha
        · exact ih b hb
      · right
        refine ⟨a :: pre, b, post, rfl, fun c hc => ?_, h2⟩
        rcases List.mem_cons.1 hc with rfl | hc
        · exact ha
        · exact h1 c hc
    · exact .inr ⟨[], a, l, rfl, by simp, ha⟩

theorem stackAll_append (st : Stacks) (l m : List (Except Err EpochData × ℚ)) :
    stackAll st (l ++ m) = (stackAll st l).bind fun st => stackAll st m := by
  induction l generalizing st with
  | nil => rfl
  | cons a l ih =>
    obtain ⟨d, w⟩ := a
    rw [List.cons_append]
    cases d with
    | error e => rfl
    | ok d =>
      show (stackStep st d w).bind (fun st => stackAll st (l ++ m)) =
        ((stackStep st d w).bind fun st => stackAll st l).bind fun st => stackAll st m
      cases hs : stackStep st d w with
      | error e => rfl
      | ok st' => exact ih st'

/-- The lookups of an epoch can be built. -/
def Epoch.HasLookups (e : Epoch) : Prop := ∃ w, e.src.lookups = .ok w

theorem not_hasLookups {e : Epoch} : ¬ e.HasLookups ↔ ∃ x, e.src.lookups = .error x := by
  unfold Epoch.HasLookups
  cases e.src.lookups with
  | ok w => simp
  | error x => simp

/-- Once the epochs are chosen, nothing but building the lookups and the measurement of the PSF can
fail. -/
theorem coaddChosen_ok {v : SliceEnv A σ S} {box psfBox : Nat} (hv : SoundEnv v box psfBox) {row : ObjRow}
    (hr : row ∈ v.objects) {gaia : Option (Img Bool)} {lay : PsfLayout} {rng : σ} {inp : Inputs}
    (h : buildSliceInputs v.ext (cfgFor v row gaia)
      (v.sources row.ra row.dec lay.raPsf lay.decPsf) rng = .ok inp) :
    inp.weights.length = inp.slices.length ∧ ∃ rows,
      makeEpochsInfo row.id inp.weights inp.slices inp.notUsed inp.flags = .ok rows ∧
      (inp.slices = [] → ∀ i, coaddChosen v row lay i inp = .ok ⟨i, rows, [], none⟩) ∧
      (inp.slices ≠ [] → (∀ w ∈ inp.weights, 0 < w) ∧ inp.weights.sum = 1 ∧
        ((∀ e ∈ inp.slices, e.HasLookups) → ∃ ds co,
          List.Forall₂ (SeenAs row lay) inp.slices ds ∧ ds.length = inp.weights.length ∧
          coaddSliceInputs box psfBox v.nExtra ((ds.zip inp.weights).map fun p => .ok p.1)
            ((ds.zip inp.weights).map Prod.snd) = .ok co ∧
          ∀ i, coaddChosen v row lay i inp =
            (v.ext.fwhm co.psf).map fun sigma => ⟨i, rows, inp.weights, some (pixOf co sigma)⟩) ∧
        ∀ pre ep post x, inp.slices = pre ++ ep :: post → (∀ q ∈ pre, q.HasLookups) →
          ep.src.lookups = .error x → ∀ i, coaddChosen v row lay i inp = .error x) := by
  have hx := hv.sane hr gaia row.ra row.dec lay.raPsf lay.decPsf
  obtain ⟨hl, hpos⟩ := C49_weights v.ext _ _ rng inp hx (fun _ => hv.fwhm) h
  obtain ⟨rows, hrows, _⟩ := C64_slice v.ext _ _ rng inp hx (fun _ => hv.fwhm) h row.id
  have hready := buildSliceInputs_ready hx (hv.noises _ _ _ _) (hv.psf _ _ _ _) h
  obtain ⟨e1, e2⟩ := hv.rows row hr
  have hsee : ∀ e ∈ inp.slices, e.HasLookups → ∃ d, SeenAs row lay e d ∧
        resampleEpoch row lay e = .ok d ∧ d.Fits box psfBox (v.nExtra + 1) := by
    rintro e he ⟨w, hw⟩
    obtain ⟨out, h1, h2⟩ := ready_resample (hready e he).2 w row.origStartCol
      row.origStartRow row.boxSize.toNat lay.startCol lay.startRow row.psfBoxSize.toNat
      (false)
    obtain ⟨out', h1', h2'⟩ := ready_resample (hready e he).2 w row.origStartCol
      row.origStartRow row.boxSize.toNat lay.startCol lay.startRow row.psfBoxSize.toNat
      (decide (out.psf.total ≠ 0))
    rw [h1] at h1'
    cases h1'
    refine ⟨out.toEpoch (decide (out.psf.total ≠ 0)), ⟨w, out, hw, h1, rfl⟩, ?_, ?_⟩
    · unfold resampleEpoch
      rw [hw, ok_bind, h1]
      rfl
    · rw [e1, e2, Int.toNat_natCast, Int.toNat_natCast] at h2'
      exact h2'
  refine ⟨hl, rows, hrows, ?_, ?_⟩
  · intro hnil i
    have hw : inp.weights = [] := List.length_eq_zero_iff.1 (by rw [hl, hnil]; rfl)
    unfold coaddChosen
    rw [hrows, ok_bind, hw]
    rfl
  · intro hne
    obtain ⟨p1, p2⟩ := hpos hne
    refine ⟨p1, p2, ?_, ?_⟩
    · intro hlook
      obtain ⟨ds, hds⟩ := forall₂_of_total (l := inp.slices) (R := fun e d => SeenAs row lay e d ∧
          resampleEpoch row lay e = .ok d ∧ d.Fits box psfBox (v.nExtra + 1))
        (fun e he => hsee e he (hlook e he))
      have hlen : ds.length = inp.weights.length := by rw [hl]; exact hds.length_eq.symm
      obtain ⟨z1, z2⟩ := zip_fst_snd hlen
      have hdata : inp.slices.map (resampleEpoch row lay) =
          (ds.zip inp.weights).map fun p => .ok p.1 := by
        have : (ds.zip inp.weights).map (fun p => (Except.ok p.1 : Except Err EpochData)) =
            ((ds.zip inp.weights).map Prod.fst).map .ok := by rw [List.map_map]; rfl
        rw [this, z1]
        exact map_of_forall₂ (hds.imp fun _ _ h => h.2.1)
      obtain ⟨co, hco⟩ := (C55_succeeds box psfBox v.nExtra (ds.zip inp.weights)).2 (by
        refine ⟨?_, ?_⟩
        · intro hz
          have : (ds.zip inp.weights).length = 0 := by rw [hz]; rfl
          rw [List.length_zip, hlen, Nat.min_self, hl] at this
          exact hne (List.length_eq_zero_iff.1 this)
        · intro q hq
          have hq1 : q.1 ∈ ds := by rw [← z1]; exact List.mem_map.2 ⟨q, hq, rfl⟩
          obtain ⟨k, hk, hk'⟩ := List.getElem_of_mem hq1
          have := (List.forall₂_iff_get.1 hds).2 k (by rw [hds.length_eq]; exact hk) hk
          simp only [List.get_eq_getElem, hk'] at this
          exact this.2.2)
      refine ⟨ds, co, hds.imp fun _ _ h => h.1, hlen, hco, fun i => ?_⟩
      unfold coaddChosen
      rw [hrows, ok_bind, if_pos (by rw [hl]; exact List.length_pos_iff.2 hne), hdata, e1, e2,
        Int.toNat_natCast, Int.toNat_natCast]
      have hco' := hco
      rw [z2] at hco'
      rw [hco', ok_bind]
      cases v.ext.fwhm co.psf <;> rfl
    · intro pre ep post x hs hpre hx' i
      have hfit : ∃ ps : List (EpochData × ℚ), (∀ q ∈ ps, q.1.Fits box psfBox (v.nExtra + 1)) ∧
          ∃ rest w, (inp.slices.map (resampleEpoch row lay)).zip
            (inp.weights.map (· / inp.weights.sum)) =
            ps.map (fun p => (.ok p.1, p.2)) ++ (.error x, w) :: rest := by
        have hlw : (inp.weights.map (· / inp.weights.sum)).length = inp.slices.length := by
          rw [List.length_map, hl]
        generalize inp.weights.map (· / inp.weights.sum) = ws at hlw
        have hsee' : ∀ e ∈ pre, e.HasLookups → ∃ d, SeenAs row lay e d ∧
            resampleEpoch row lay e = .ok d ∧ d.Fits box psfBox (v.nExtra + 1) := fun e he =>
          hsee e (by rw [hs]; exact List.mem_append_left _ he)
        rw [hs] at hlw ⊢
        clear hs
        induction pre generalizing ws with
        | nil =>
          cases ws with
          | nil => simp at hlw
          | cons w ws =>
            refine ⟨[], by simp, (post.map (resampleEpoch row lay)).zip ws, w, ?_⟩
            rw [List.nil_append, List.map_cons, List.zip_cons_cons]
            unfold resampleEpoch
            rw [hx']
            rfl
        | cons q pre ih =>
          cases ws with
          | nil => simp at hlw
          | cons w ws =>
            obtain ⟨d, _, d1, d2⟩ := hsee' q List.mem_cons_self (hpre q List.mem_cons_self)
            obtain ⟨ps, p1, rest, w', p2⟩ := ih (fun a ha => hpre a (List.mem_cons_of_mem _ ha)) ws
              (by simpa using hlw) (fun e he => hsee' e (List.mem_cons_of_mem _ he))
            refine ⟨(d, w) :: ps, ?_, rest, w', ?_⟩
            · intro a ha
              rcases List.mem_cons.1 ha with rfl | ha
              · exact d2
              · exact p1 a ha
            · rw [List.cons_append, List.map_cons, List.zip_cons_cons, d1, p2]
              rfl
      obtain ⟨ps, q1, rest, w, q2⟩ := hfit
      obtain ⟨st', hst⟩ := ((stackAll_ok (stacked_zero box psfBox v.nExtra) ps).1).2 q1
      unfold coaddChosen
      rw [hrows, ok_bind, if_pos (by rw [hl]; exact List.length_pos_iff.2 hne), e1, e2,
        Int.toNat_natCast, Int.toNat_natCast]
      have hfail : coaddSliceInputs box psfBox v.nExtra (inp.slices.map (resampleEpoch row lay)) inp.weights =
          .error x := by
        unfold coaddSliceInputs
        simp only []
        rw [if_neg (by rw [List.length_map, List.length_map, hl]; exact fun h => h rfl),
          if_neg (by simpa using hne), q2, stackAll_append, hst]
        rfl
      rw [hfail]
      rfl

/-- Taking `coaddSingleSlice` apart. -/
theorem coaddSingleSlice_ok {v : SliceEnv A σ S} {i seed : Nat} {r : SliceRes Flt EpochRow}
    (h : coaddSingleSlice v i seed = .ok r) :
    ∃ row lay gaia inp, v.objects[i]? = some row ∧
      coaddPsfLayout v.fwd v.inv row.ra row.dec row.psfBoxSize v.offset = .ok lay ∧
      gaiaFor v row = .ok gaia ∧
      buildSliceInputs v.ext (cfgFor v row gaia) (v.sources row.ra row.dec lay.raPsf lay.decPsf)
        (v.seeded seed) = .ok inp ∧ coaddChosen v row lay i inp = .ok r := by
  unfold coaddSingleSlice at h
  obtain ⟨row, h1, h⟩ := bind_eq_ok.1 h
  obtain ⟨lay, h2, h⟩ := bind_eq_ok.1 h
  obtain ⟨gaia, h3, h⟩ := bind_eq_ok.1 h
  obtain ⟨inp, h4, h⟩ := bind_eq_ok.1 h
  refine ⟨row, lay, gaia, inp, ?_, h2, h3, h4, h⟩
  unfold objRow at h1
  split at h1
  · rename_i hr; rw [hr, Except.ok.inj h1]
  · cases h1

theorem starMask_of {v : SliceEnv A σ S} {row : ObjRow} {gaia : Option (Img Bool)} (h : gaiaFor v row = .ok gaia) :
    StarMask v row gaia := by
  unfold gaiaFor at h
  rcases hgf : v.gaiaFile with _ | f
  · rw [hgf] at h
    cases h
    exact .none (.inl hgf)
  · rcases hgc : v.gaiaCfg with _ | g
    · rw [hgf, hgc] at h
      cases h
      exact .none (.inr hgc)
    · rw [hgf, hgc] at h
      cases f with
      | error e => cases h
      | ok cat =>
        cases h
        obtain ⟨bright, hb, hm⟩ := C87_stars v.draw v.pow10 v.f4 v.inv v.offset g.maxMag g.coeffs
          ⌊row.origStartCol⌋ ⌊row.origStartRow⌋ row.boxSize.toNat g.symmetrize cat
        obtain ⟨m1, m2, m3⟩ := hm _ rfl _ rfl
        exact .some cat g bright _ _ hgf hgc hb rfl m1 m2 m3

/-- The conditions on the star mask determine it. -/
theorem StarMask.eq {v : SliceEnv A σ S} {row : ObjRow} {gaia : Option (Img Bool)} (h : StarMask v row gaia) :
    gaiaFor v row = .ok gaia := by
  cases h with
  | none h =>
    unfold gaiaFor
    rcases h with h | h <;> rw [h]
    · rfl
    · cases v.gaiaFile <;> rfl
  | some cat g bright m mask h1 h2 h3 h4 h5 h6 h7 =>
    have hg : ∃ mask', gaiaFor v row = .ok (Option.some mask') := by
      unfold gaiaFor
      rw [h1, h2]
      exact ⟨_, rfl⟩
    obtain ⟨mask', hg⟩ := hg
    have hs := starMask_of hg
    cases hs with
    | some cat' g' bright' m' _ g1 g2 g3 g4 g5 g6 g7 =>
      rw [h1] at g1
      cases g1
      rw [h2] at g2
      cases g2
      cases C87_unique h3 g3
      rw [← h4] at g4
      subst g4
      rw [hg]
      obtain ⟨n, k, px⟩ := mask
      obtain ⟨n', k', px'⟩ := mask'
      dsimp only at h5 h6 h7 g5 g6 g7
      have : px' = px := by
        funext r c
        rw [Bool.eq_iff_iff, h7, g7]
      rw [h5, h6, g5, g6, this]

theorem sliceCfg_of (v : SliceEnv A σ S) (row : ObjRow) (gaia : Option (Img Bool)) :
    SliceCfg v row gaia (cfgFor v row gaia) := ⟨rfl, rfl, rfl, rfl, rfl⟩

/-- The conditions on the configuration determine it. -/
theorem SliceCfg.eq {v : SliceEnv A σ S} {row : ObjRow} {gaia : Option (Img Bool)} {c : BuildCfg A}
    (h : SliceCfg v row gaia c) : c = cfgFor v row gaia := by
  obtain ⟨h1, h2, h3, h4, h5⟩ := h
  obtain ⟨⟩ := c
  unfold cfgFor
  rw [← h5]
  dsimp only at h1 h2 h3 h4 ⊢
  subst h1 h2 h3 h4
  rfl

/-! ### C93 -/

/-- C93: the tables of `_build_object_data` meet the assumptions on the boxes. -/
theorem C93_boxes (central buffer width : ℤ) (box psfBox : Nat) (fwd : ℚ → ℚ → ℚ × ℚ)
    (jac : ℚ → ℚ → ℚ × ℚ × ℚ × ℚ) (offset : ℚ) (rows : List ObjRow) (hb : central + 2 * buffer = box)
    (h : buildObjectData central buffer width psfBox fwd jac offset = .ok rows) :
    ∀ row ∈ rows, row.boxSize = box ∧ row.psfBoxSize = psfBox := by
  obtain ⟨h1, h2⟩ := C12_object_data central buffer width psfBox fwd jac offset
  cases hl : buildSliceLocations central buffer width with
  | error e => rw [h1 e hl] at h; cases h
  | ok locs =>
    obtain ⟨rows', e1, _, e2⟩ := h2 locs hl
    rw [h] at e1
    cases e1
    intro row hr
    obtain ⟨k, hk⟩ := List.mem_iff_getElem?.1 hr
    obtain ⟨s, _, _, b1, b2, _⟩ := e2 k row hk
    exact ⟨b1.trans hb, b2⟩

/-- C93: the result of a slice is that of the epochs chosen for its patch of the tile, with the random
numbers of its seed: their weights, the table of all epochs, and, if there is a used epoch, the weighted
combination of the used epochs resampled to the grid of the slice. -/
theorem C93_slice (v : SliceEnv A σ S) (box psfBox : Nat) (hv : SoundEnv v box psfBox) (i seed : Nat)
    (r : SliceRes Flt EpochRow) (h : coaddSingleSlice v i seed = .ok r) :
    r.i = i ∧ ∃ row lay gaia cfg inp, v.objects[i]? = some row ∧
      coaddPsfLayout v.fwd v.inv row.ra row.dec row.psfBoxSize v.offset = .ok lay ∧
      StarMask v row gaia ∧ SliceCfg v row gaia cfg ∧
      buildSliceInputs v.ext cfg (v.sources row.ra row.dec lay.raPsf lay.decPsf)
        (v.seeded seed) = .ok inp ∧
      r.weights = inp.weights ∧
      makeEpochsInfo row.id inp.weights inp.slices inp.notUsed inp.flags = .ok r.epochs ∧
      (inp.slices = [] → r.weights = [] ∧ r.pix = none) ∧
      (inp.slices ≠ [] → (∀ w ∈ r.weights, 0 < w) ∧ r.weights.sum = 1 ∧
        ∃ p ds, r.pix = some p ∧ List.Forall₂ (SeenAs row lay) inp.slices ds ∧
          CombinationOf box psfBox v.nExtra (ds.zip r.weights) p) := by
  obtain ⟨row, lay, gaia, inp, h1, h2, h3, h4, h5⟩ := coaddSingleSlice_ok h
  have hr := List.mem_of_getElem? h1
  obtain ⟨hl, rows, c1, c2, c3⟩ := coaddChosen_ok hv hr h4
  by_cases hs : inp.slices = []
  · rw [c2 hs i] at h5
    cases h5
    have hw : inp.weights = [] := List.length_eq_zero_iff.1 (by rw [hl, hs]; rfl)
    exact ⟨rfl, row, lay, gaia, _, inp, h1, h2, starMask_of h3, sliceCfg_of _ _ _, h4, hw.symm, c1, fun _ => ⟨rfl, rfl⟩, fun h => absurd hs h⟩
  · obtain ⟨w1, w2, c4, c5⟩ := c3 hs
    have hlook : ∀ e ∈ inp.slices, e.HasLookups := by
      rcases all_or_first Epoch.HasLookups inp.slices with h | ⟨pre, ep, post, q1, q2, q3⟩
      · exact h
      · obtain ⟨x, hx⟩ := not_hasLookups.1 q3
        rw [c5 pre ep post x q1 q2 hx i] at h5
        cases h5
    obtain ⟨ds, co, d1, d2, d3, d4⟩ := c4 hlook
    rw [d4 i] at h5
    cases hf : v.ext.fwhm co.psf with
    | error e => rw [hf] at h5; cases h5
    | ok sigma =>
      rw [hf] at h5
      cases h5
      refine ⟨rfl, row, lay, gaia, _, inp, h1, h2, starMask_of h3, sliceCfg_of _ _ _, h4, rfl, c1, fun h => absurd h hs, fun _ => ⟨w1, w2, _, ds,
        rfl, d1, ?_⟩⟩
      refine pixOf_combination sigma hv.boxPos ?_ d3
      rw [(zip_fst_snd d2).2, w2]
      exact one_ne_zero

theorem length_provided {box psfBox nExtra : Nat} {ps : List (EpochData × ℚ)} {p : SlicePix Flt}
    (h : CombinationOf box psfBox nExtra ps p) {name : String} {d : List Flt} (hd : Provides p name d) :
    d.length = perSlice (box * box) (psfBox * psfBox) name := by
  have hn : ∀ (k : Nat) (d : List Flt), p.noises[k]? = some d → d.length = box * box := by
    intro k d hk
    have hlt : k < nExtra + 1 := by
      rw [← h.noises]; exact (List.getElem?_eq_some_iff.1 hk).1
    obtain ⟨l, h1, h2⟩ := h.noise k hlt
    rw [hk] at h1
    rw [Option.some.inj h1, h2.1]
  cases hd with
  | image => exact h.image.1
  | weight => exact h.weight.choose_spec.2.2.1
  | bmask => exact h.bmask.1
  | ormask => exact h.ormask.1
  | mfrac => exact h.mfrac.1
  | psf => exact h.psf.1
  | noise d hd => exact hn 0 d hd
  | extra k d n hk hd hname =>
    have : name ≠ "psf" := by
      rintro rfl
      have := congrArg List.length hname
      simp at this
    rw [hn k d hd, perSlice, if_neg this]

theorem wMean_nonneg {ps : List (EpochData × ℚ)} {f : EpochData → ℚ} (hw : ∀ p ∈ ps, 0 < p.2)
    (hf : ∀ p ∈ ps, 0 ≤ f p.1) : 0 ≤ wMean ps f := by
  unfold wMean
  apply div_nonneg
  · apply List.sum_nonneg
    intro x hx
    obtain ⟨p, hp, rfl⟩ := List.mem_map.1 hx
    exact mul_nonneg (hw p hp).le (hf p hp)
  · apply List.sum_nonneg
    intro x hx
    obtain ⟨p, hp, rfl⟩ := List.mem_map.1 hx
    exact (hw p hp).le

/-- C93: every result can be stored: its index is that of a row, all arrays have the size of their
range, and no weight or masked fraction is negative.  This is the assumption on the computation of a
slice in C60-C62 and C88. -/
theorem C93_storable (v : SliceEnv A σ S) (box psfBox : Nat) (hv : SoundEnv v box psfBox)
    (ops : PixelOps Flt) (hops : ops.KeepsSign) (i seed : Nat)
    (r : SliceRes Flt EpochRow) (h : coaddSingleSlice v i seed = .ok r) :
    GoodRes ops v.objects.length (box * box) (psfBox * psfBox) v.nExtra r := by
  obtain ⟨rfl, row, lay, gaia, cfg, inp, h1, _, _, _, _, _, _, h2, h3⟩ := C93_slice v box psfBox hv i seed r h
  refine ⟨(List.getElem?_eq_some_iff.1 h1).1, fun hne => ?_⟩
  have hs : inp.slices ≠ [] := fun hs => hne (h2 hs).1
  obtain ⟨w1, _, p, ds, hp, _, hc⟩ := h3 hs
  have hw : ∀ q ∈ ds.zip r.weights, 0 < q.2 := fun q hq => w1 _ (List.of_mem_zip hq).2
  refine ⟨p, hp, fun name d hd => length_provided hc hd, hc.noises, ?_, ?_⟩
  · obtain ⟨var, v1, _, v3⟩ := hc.weight
    refine v3.forall fun r hr c hc x hx => hops x ?_
    rw [hx]
    split
    · rfl
    · simp only [Flt.isNeg, decide_eq_false_iff_not, not_lt]
      exact div_nonneg zero_le_one v1
  · refine hc.mfrac.forall fun r hr c hc x hx => hops x ?_
    rw [hx]
    simp only [Flt.isNeg, decide_eq_false_iff_not, not_lt]
    exact wMean_nonneg hw fun q _ => le_min (abs_nonneg _) zero_le_one

/-! ### C94 -/

/-- C94: the computation of a slice can only fail where the star catalog is read, where the inputs are
built, where the lookup of pixel positions of a used epoch is built, or where the PSF is measured; with a
measurement that always succeeds, it raises exactly what the first three raise, for the lookups what the
first used epoch that has none raises. -/
theorem C94_errors (v : SliceEnv A σ S) (box psfBox : Nat) (hv : SoundEnv v box psfBox)
    (hf : ∀ im, ∃ w, v.ext.fwhm im = .ok w) (i seed : Nat) (row : ObjRow) (hi : v.objects[i]? = some row) :
    ∃ lay, coaddPsfLayout v.fwd v.inv row.ra row.dec row.psfBoxSize v.offset = .ok lay ∧
      ∀ e, coaddSingleSlice v i seed = .error e ↔
        (v.gaiaFile = some (.error e) ∧ v.gaiaCfg.isSome) ∨
        (∃ gaia cfg, StarMask v row gaia ∧ SliceCfg v row gaia cfg ∧ buildSliceInputs v.ext cfg
          (v.sources row.ra row.dec lay.raPsf lay.decPsf) (v.seeded seed) = .error e) ∨
        ∃ gaia cfg inp pre ep post, StarMask v row gaia ∧ SliceCfg v row gaia cfg ∧
          buildSliceInputs v.ext cfg (v.sources row.ra row.dec lay.raPsf lay.decPsf) (v.seeded seed) =
            .ok inp ∧
          inp.slices = pre ++ ep :: post ∧ (∀ q ∈ pre, ∃ w, q.src.lookups = .ok w) ∧
          ep.src.lookups = .error e := by
  have hr := List.mem_of_getElem? hi
  have hlay := coaddPsfLayout_odd v.fwd v.inv row.ra row.dec v.offset hv.psfOdd
  rw [← (hv.rows row hr).2] at hlay
  obtain ⟨lay, hlay⟩ := hlay
  refine ⟨lay, hlay, fun e => ?_⟩
  have hstate' : (∃ gaia cfg inp pre ep post, StarMask v row gaia ∧ SliceCfg v row gaia cfg ∧
          buildSliceInputs v.ext cfg (v.sources row.ra row.dec lay.raPsf lay.decPsf) (v.seeded seed) =
            .ok inp ∧
          inp.slices = pre ++ ep :: post ∧ (∀ q ∈ pre, ∃ w, q.src.lookups = .ok w) ∧
          ep.src.lookups = .error e) ↔
      ∃ gaia inp pre ep post, gaiaFor v row = .ok gaia ∧ buildSliceInputs v.ext (cfgFor v row gaia)
        (v.sources row.ra row.dec lay.raPsf lay.decPsf) (v.seeded seed) = .ok inp ∧
          inp.slices = pre ++ ep :: post ∧ (∀ q ∈ pre, ∃ w, q.src.lookups = .ok w) ∧
          ep.src.lookups = .error e := by
    constructor
    · rintro ⟨gaia, cfg, inp, pre, ep, post, h1, h2, h3, h4⟩
      exact ⟨gaia, inp, pre, ep, post, h1.eq, h2.eq ▸ h3, h4⟩
    · rintro ⟨gaia, inp, pre, ep, post, h1, h2, h3⟩
      exact ⟨gaia, _, inp, pre, ep, post, starMask_of h1, sliceCfg_of _ _ _, h2, h3⟩
  have hstate : (∃ gaia cfg, StarMask v row gaia ∧ SliceCfg v row gaia cfg ∧ buildSliceInputs v.ext cfg
        (v.sources row.ra row.dec lay.raPsf lay.decPsf) (v.seeded seed) = .error e) ↔
      ∃ gaia, gaiaFor v row = .ok gaia ∧ buildSliceInputs v.ext (cfgFor v row gaia)
        (v.sources row.ra row.dec lay.raPsf lay.decPsf) (v.seeded seed) = .error e := by
    constructor
    · rintro ⟨gaia, cfg, h1, h2, h3⟩
      exact ⟨gaia, h1.eq, h2.eq ▸ h3⟩
    · rintro ⟨gaia, h1, h2⟩
      exact ⟨gaia, _, starMask_of h1, sliceCfg_of _ _ _, h2⟩
  rw [hstate, hstate']
  have hrow : objRow v.objects i = .ok row := by unfold objRow; rw [hi]
  have hg : ∀ e, gaiaFor v row = .error e ↔ v.gaiaFile = some (.error e) ∧ v.gaiaCfg.isSome := by
    intro e
    unfold gaiaFor
    rcases hgf : v.gaiaFile with _ | f <;> rcases hgc : v.gaiaCfg with _ | g <;> simp [pure, Except.pure]
    cases f with
    | error e' => simp [bind, Except.bind]
    | ok cat => simp [bind, Except.bind]
  unfold coaddSingleSlice
  rw [hrow, ok_bind, hlay, ok_bind, ← hg]
  cases hgr : gaiaFor v row with
  | error e' => simp [bind, Except.bind]
  | ok gaia =>
    rw [ok_bind]
    cases hb : buildSliceInputs v.ext (cfgFor v row gaia)
          (v.sources row.ra row.dec lay.raPsf lay.decPsf) (v.seeded seed) with
    | error e' =>
      constructor
      · intro h
        exact .inr (.inl ⟨gaia, rfl, hb.trans (by cases h; rfl)⟩)
      · rintro (h | ⟨g, h1, h2⟩ | ⟨g, inp, _, _, _, h1, h2, _⟩)
        · cases h
        · cases h1; rw [hb] at h2; cases h2; rfl
        · cases h1; rw [hb] at h2; cases h2
    | ok inp =>
      obtain ⟨_, rows, _, c2, c3⟩ := coaddChosen_ok hv hr hb
      rw [ok_bind]
      constructor
      · intro h
        by_cases hs : inp.slices = []
        · rw [c2 hs i] at h; cases h
        · obtain ⟨_, _, c4, c5⟩ := c3 hs
          rcases all_or_first Epoch.HasLookups inp.slices with hl | ⟨pre, ep, post, q1, q2, q3⟩
          · obtain ⟨ds, co, _, _, _, d4⟩ := c4 hl
            obtain ⟨w, hw⟩ := hf co.psf
            rw [d4 i, hw] at h
            cases h
          · obtain ⟨x, hx⟩ := not_hasLookups.1 q3
            rw [c5 pre ep post x q1 q2 hx i] at h
            cases h
            exact .inr (.inr ⟨gaia, inp, pre, ep, post, rfl, hb, q1, q2, hx⟩)
      · rintro (h | ⟨g, h1, h2⟩ | ⟨g, inp', pre, ep, post, h1, h2, h3, h4, h5⟩)
        · cases h
        · cases h1; rw [hb] at h2; cases h2
        · cases h1; rw [hb] at h2; cases h2
          have hs : inp.slices ≠ [] := by rw [h3]; simp
          exact (c3 hs).2.2.2 pre ep post e h3 h4 h5 i

/-- C94: a slice that does not exist is an IndexError. -/
theorem C94_no_such_slice (v : SliceEnv A σ S) (i seed : Nat) (hi : v.objects.length ≤ i) :
    coaddSingleSlice v i seed = .error .indexError := by
  unfold coaddSingleSlice objRow
  rw [List.getElem?_eq_none hi]
  rfl

/-- C94: an even PSF box is refused for every slice. -/
theorem C94_even_psf_box (v : SliceEnv A σ S) (i seed : Nat) (row : ObjRow) (hi : v.objects[i]? = some row)
    (hk : row.psfBoxSize % 2 = 0) : coaddSingleSlice v i seed = .error .assertionError := by
  unfold coaddSingleSlice objRow
  rw [hi]
  simp only [ok_bind]
  rw [(C09_coadd_layout v.fwd v.inv row.ra row.dec v.offset row.psfBoxSize).2 hk]
  rfl

/-! ### C95 -/

/-- The shape of the files of a tile. -/
def runShapeOf (v : SliceEnv A σ S) (ops : PixelOps Flt) (pars : Option (List (String × String)))
    (box psfBox : Nat) : RunShape Flt :=
  ⟨ops, pars, v.objects.length, box * box, psfBox * psfBox, v.nExtra⟩

/-- C95: the computation of the slices of a tile meets the assumptions of the theorems about runs. -/
theorem C95_good (v : SliceEnv A σ S) (box psfBox : Nat) (hv : SoundEnv v box psfBox)
    (ops : PixelOps Flt) (hops : ops.KeepsSign) (pars : Option (List (String × String)))
    (jobs : List (Nat × Nat)) :
    GoodCompute (runShapeOf v ops pars box psfBox) (coaddSingleSlice v) jobs := fun j _ r h =>
  ⟨(C93_slice v box psfBox hv j.1 j.2 r h).1, C93_storable v box psfBox hv ops hops j.1 j.2 r h⟩

theorem job_result {compute : Nat → Nat → Except Err (SliceRes Flt EpochRow)} {jobs : List (Nat × Nat)}
    {rs : List (SliceRes Flt EpochRow)} (h : jobs.map (fun j => compute j.1 j.2) = rs.map .ok)
    {j : Nat × Nat} (hj : j ∈ jobs) : ∃ r ∈ rs, compute j.1 j.2 = .ok r := by
  have : compute j.1 j.2 ∈ rs.map Except.ok := by
    rw [← h]; exact List.mem_map.2 ⟨j, hj, rfl⟩
  obtain ⟨r, hr, he⟩ := List.mem_map.1 this
  exact ⟨r, hr, he.symm⟩

/-- C95: what a parallel run that ends normally has written.  Every slice asked for has the epochs chosen
for its patch with the random numbers of its seed.  If there are none, its row has 0 epochs and all its
pixels are 0.  Otherwise its row records the number of epochs and the effective number, and its pixels
in every extension are those of the weighted combination of the used epochs (converted to the type of the
extension). -/
theorem C95_file (v : SliceEnv A σ S) (box psfBox : Nat) (hv : SoundEnv v box psfBox)
    (ops : PixelOps Flt) (hops : ops.KeepsSign) (pars : Option (List (String × String)))
    (rows0 : List RunRow) (hrows : rows0.length = v.objects.length) (fits : List (Hdu Flt))
    (hf : reserveImages ops pars (v.objects.length * (box * box)) (v.objects.length * (psfBox * psfBox))
      v.nExtra (box * box) (psfBox * psfBox) = .ok fits)
    (slices seeds : List Nat) (hs : slices.Nodup) (nChunks nJobs cap k : Nat)
    (chunks : List (List (Nat × Nat))) (hch : allChunks slices seeds nChunks = .ok chunks)
    (s : PState Flt EpochRow)
    (hrun : Steps (runShapeOf v ops pars box psfBox) (coaddSingleSlice v) slices.length nJobs cap k
      (PState.init chunks ⟨fits, rows0, []⟩) s) (hd : s.status = .done) (i : Nat) (hi : i ∈ slices) :
    ∃ row lay gaia cfg inp, v.objects[i]? = some row ∧
      coaddPsfLayout v.fwd v.inv row.ra row.dec row.psfBoxSize v.offset = .ok lay ∧
      StarMask v row gaia ∧ SliceCfg v row gaia cfg ∧
      buildSliceInputs v.ext cfg (v.sources row.ra row.dec lay.raPsf lay.decPsf)
        (v.seeded (seeds.getD i 0)) = .ok inp ∧
      (inp.slices = [] → (∃ out, s.out.rows[i]? = some out ∧ out.nepoch = 0 ∧ out.nepochEff = 0) ∧
        ∀ h ∈ s.out.fits, ∀ k < perSlice (box * box) (psfBox * psfBox) h.name,
          h.px (i * perSlice (box * box) (psfBox * psfBox) h.name + k) = ops.zero) ∧
      (inp.slices ≠ [] → (∀ w ∈ inp.weights, 0 < w) ∧ inp.weights.sum = 1 ∧
        (∃ out, s.out.rows[i]? = some out ∧ out.ncutout = 1 ∧ out.nepoch = inp.slices.length ∧
          out.nepochEff = nepochEff inp.weights) ∧
        ∃ p ds, List.Forall₂ (SeenAs row lay) inp.slices ds ∧
          CombinationOf box psfBox v.nExtra (ds.zip inp.weights) p ∧
          ∀ h ∈ s.out.fits, ∀ d, Provides p h.name d →
            d.length = perSlice (box * box) (psfBox * psfBox) h.name ∧
            ∀ k (hk : k < d.length),
              h.px (i * perSlice (box * box) (psfBox * psfBox) h.name + k) = ops.cast h.dtype d[k]) := by
  obtain ⟨hfl, _⟩ := chunks_of hch
  have hlen : slices.length = chunks.flatten.length := by
    rw [hfl, ← List.length_map (f := Prod.fst), jobsOf_fst]
  have hfits := reserved_of (c := runShapeOf v ops pars box psfBox) hf
  subst hfits
  rw [hlen] at hrun
  have hgood := C95_good v box psfBox hv ops hops pars
  obtain ⟨_, _, hdone⟩ := run_inv (c := runShapeOf v ops pars box psfBox) hrows
    (hgood chunks.flatten) (by rw [hfl, jobsOf_fst]; exact hs) hrun
  obtain ⟨gj, rs, hp, hr, hh⟩ := hdone hd
  have hmem : (i, seeds.getD i 0) ∈ gj := by
    rw [hp.mem_iff, hfl]
    exact List.mem_map.2 ⟨i, hi, rfl⟩
  obtain ⟨r, hrs, hres⟩ := job_result hr hmem
  obtain ⟨hri, row, lay, gaia, cfg, inp, h1, h2, h3, hcfg, h4, h5, h6, h7, h8⟩ :=
    C93_slice v box psfBox hv i (seeds.getD i 0) r hres
  have hi' : i < rows0.length := by rw [hrows]; exact (List.getElem?_eq_some_iff.1 h1).1
  have hrow := hh.rowsDone r hrs rows0[i] (by rw [hri]; exact List.getElem?_eq_getElem hi')
  rw [hri] at hrow
  have hgl := C49_weights v.ext _ _ (v.seeded (seeds.getD i 0)) inp
    (hv.sane (List.mem_of_getElem? h1) gaia _ _ _ _) (fun _ => hv.fwhm) (hcfg.eq ▸ h4)
  have hidx : ∀ r' ∈ rs, r'.i = i → r' = r := by
    intro r' hr' he
    have : Except.ok r' ∈ gj.map fun j => coaddSingleSlice v j.1 j.2 := by
      rw [hr]; exact List.mem_map.2 ⟨r', hr', rfl⟩
    obtain ⟨j, hj, hj'⟩ := List.mem_map.1 this
    have hj1 := (C93_slice v box psfBox hv j.1 j.2 r' hj').1
    rw [hp.mem_iff, hfl] at hj
    obtain ⟨i', _, rfl⟩ := List.mem_map.1 hj
    have hii : i = i' := he.symm.trans hj1
    subst hii
    rw [hres] at hj'
    exact (Except.ok.inj hj').symm
  refine ⟨row, lay, gaia, cfg, inp, h1, h2, h3, hcfg, h4, fun hnil => ?_, fun hne => ?_⟩
  · obtain ⟨e1, e2⟩ := h7 hnil
    refine ⟨⟨_, hrow, ?_⟩, ?_⟩
    · unfold rowAfter
      rw [e1]
      exact ⟨rfl, rfl⟩
    · intro h hhm k hk
      refine hh.zero h hhm _ fun r' hr' hw' he _ => ?_
      exfalso
      apply hw'
      rw [hidx r' hr' ?_, e1]
      rw [← he]
      have hpos : 0 < perSlice (box * box) (psfBox * psfBox) h.name := by omega
      show (i * perSlice (box * box) (psfBox * psfBox) h.name + k) /
        perSlice (box * box) (psfBox * psfBox) h.name = i
      rw [mul_comm, Nat.mul_add_div hpos, Nat.div_eq_of_lt hk]
      rfl
  · obtain ⟨w1, w2, p, ds, p1, p2, p3⟩ := h8 hne
    rw [h5] at w1 w2 p3
    have hwne : r.weights ≠ [] := by
      rw [h5]
      intro hz
      apply hne
      rw [← List.length_eq_zero_iff, ← hgl.1, hz]
      rfl
    refine ⟨w1, w2, ⟨_, hrow, ?_⟩, p, ds, p2, p3, fun h hhm d hd => ⟨length_provided p3 hd, fun k hk => ?_⟩⟩
    · unfold rowAfter
      rw [p1]
      cases hw : r.weights with
      | nil => exact absurd hw hwne
      | cons w l =>
        refine ⟨rfl, ?_, ?_⟩
        · show (((w :: l).length : Nat) : ℤ) = _
          rw [← hw, h5, hgl.1]
        · show nepochEff (w :: l) = _
          rw [← hw, h5]
    · have := hh.stored h hhm r hrs hwne p p1 d hd k hk
      rw [hri] at this
      exact this

end Pizza
