import Verif.Props.EpochsInfo
import Verif.Props.Slice
import Verif.Spec.Order

/-!
Auxiliary facts for C123: without pixels that are filled with noise, a source is processed independently of the random
numbers, and permuted sources give permuted lists.
-/

namespace Pizza

variable {A σ S P : Type}

/-! ### masks without a flag -/

theorem unflagged_slice {f : BitVec 32} {b : Img (BitVec 32)} (h : Unflagged f b) (r0 r1 c0 c1 : ℤ) :
    Unflagged f (b.slice r0 r1 c0 c1) := by
  have hle : ∀ (n : Nat) (i : ℤ), pySliceIdx n i ≤ n := by
    intro n i
    unfold pySliceIdx
    split
    · omega
    · exact min_le_right _ _
  intro r hr c hc
  have h1 : r < pySliceIdx b.nrow r1 - pySliceIdx b.nrow r0 := hr
  have h2 : c < pySliceIdx b.ncol c1 - pySliceIdx b.ncol c0 := hc
  have h3 := hle b.nrow r1
  have h4 := hle b.ncol c1
  exact h (pySliceIdx b.nrow r0 + r) (by omega) (pySliceIdx b.ncol c0 + c) (by omega)

theorem unflagged_bits {f : BitVec 32} {b : Img (BitVec 32)} (h : Unflagged f b) {r c k : Nat} (hr : r < b.nrow)
    (hc : c < b.ncol) (hk : k < 32) (hf : f.getLsbD k = true) : (b.px r c).getLsbD k = false := by
  by_contra hb
  exact h r hr c hc ⟨k, hk, by simpa using hb, hf⟩

theorem unflagged_symBmask {rotate : A → Img ℚ → Img ℚ} {f : BitVec 32} {b out : Img (BitVec 32)}
    (h : Unflagged f b) (hsq : b.nrow = b.ncol) {a : Option A} {noSym : Option (Img Bool)}
    {sf : Option (BitVec 32)} (ho : symmetrizeBmask rotate b a noSym sf = .ok out) :
    ∀ r < b.nrow, ∀ c < b.nrow, ∀ k < 32, f.getLsbD k = true → (out.px r c).getLsbD k = false := by
  intro r hr c hc k hk hf
  by_contra hb
  rw [Bool.not_eq_false] at hb
  cases a with
  | none =>
    obtain ⟨o, h1, _, _, h4⟩ := C16_bmask_iff rotate b noSym sf hsq
    cases ho.symm.trans h1
    rcases (h4 r hr c hc k hk).1 hb with h5 | ⟨i, j, ⟨hi, hj, _⟩, h5, _⟩
    · rw [unflagged_bits h hr (hsq ▸ hc) hk hf] at h5; cases h5
    · rw [unflagged_bits h hi (hsq ▸ hj) hk hf] at h5; cases h5
  | some a =>
    obtain ⟨o, h1, h4⟩ := C19_angle_bits rotate b a noSym sf hsq
    cases ho.symm.trans h1
    obtain ⟨ind, _, h4⟩ := h4 r hr c hc k hk
    rcases h4.1 hb with h5 | ⟨_, ⟨i, hi, j, hj, h5, _⟩, _⟩
    · rw [unflagged_bits h hr (hsq ▸ hc) hk hf] at h5; cases h5
    · rw [unflagged_bits h hi (hsq ▸ hj) hk hf] at h5; cases h5

theorem unflagged_symmetrize {rotate : A → Img ℚ → Img ℚ} {cfg : SymCfg A} {noSym : Option (Img Bool)}
    {flags f : BitVec 32} {w w' : Img ℚ} {b b' : Img (BitVec 32)} (hw : w.nrow = w.ncol) (hb : b.nrow = b.ncol)
    (h : Unflagged f b) (ho : symmetrizeSlice rotate cfg noSym flags w b = .ok (w', b')) : Unflagged f b' := by
  cases cfg with
  | off =>
    cases ho
    exact h
  | plain =>
    unfold symmetrizeSlice at ho
    obtain ⟨b1, h1, ho⟩ := bind_eq_ok.1 ho
    obtain ⟨w1, h2, ho⟩ := bind_eq_ok.1 ho
    cases ho
    obtain ⟨o, o1, o2, o3, _⟩ := C16_bmask_iff rotate b noSym (some flags) hb
    cases h1.symm.trans o1
    rintro r hr c hc ⟨k, hk, k1, k2⟩
    rw [unflagged_symBmask h hb h1 r (o2 ▸ hr) c (by rw [hb, ← o3]; exact hc) k hk k2] at k1
    cases k1
  | angles l =>
    obtain ⟨w1, b1, h1, _, _, h2, h3, h4, _⟩ := C19_angle_list rotate l noSym flags w b hw hb
    cases ho.symm.trans h1
    rintro r hr c hc ⟨k, hk, k1, k2⟩
    have hr' : r < b.nrow := h2 ▸ hr
    have hc' : c < b.nrow := by rw [hb, ← h3]; exact hc
    rcases (h4 r c k).1 k1 with h5 | ⟨a, _, br, h6, h7⟩
    · rw [unflagged_bits h hr' (hb ▸ hc') hk k2] at h5; cases h5
    · rw [unflagged_symBmask h hb h6 r hr' c hc' k hk k2] at h7; cases h7

/-! ### processing without random numbers -/

/-- The mask of the candidate has no flagged pixel when it comes to filling with noise. -/
def Quiet (x : Ext A σ) (c : BuildCfg A) (k : Cand) : Prop :=
  ∀ g w0 b0 w b, k.obj.weight = some w0 → k.obj.bmask = some b0 →
    symmetrizeSlice x.rotate c.symmetrize g (c.splineFlags ||| c.noiseFlags) w0 b0 = .ok (w, b) →
    Unflagged c.noiseFlags b

theorem noiseInterp_quiet (x : Ext A σ) {flags : BitVec 32} (image : Img ℚ) (noises : List (Img ℚ)) (w : Img ℚ)
    {b : Img (BitVec 32)} (h : Unflagged flags b) (rng : σ) :
    noiseInterp x flags image noises w b rng = .ok (⟨image, noises, ⟨b.nrow, b.ncol, fun _ _ => 0⟩⟩, rng) := by
  unfold noiseInterp
  have : anyPix b.nrow b.ncol (fun r c => hasFlag (b.px r c) flags) = false := by
    rw [Bool.eq_false_iff]
    intro hp
    obtain ⟨r, hr, c, hc, hf⟩ := (anyPix_iff _ _ _).1 hp
    exact h r hr c hc ((hasFlag_iff _ _).1 hf)
  simp only [this]
  rfl

theorem interpolateCand_quiet (x : Ext A σ) (c : BuildCfg A) (g : Option (Img Bool)) (o : SEObj) (w : Img ℚ)
    {b : Img (BitVec 32)} (h : Unflagged c.noiseFlags b) (rng rng0 : σ) :
    interpolateCand x c g o w b rng = (interpolateCand x c g o w b rng0).map fun p => (p.1, rng) := by
  unfold interpolateCand
  cases attr o.image with
  | error e => rfl
  | ok image =>
  simp only [ok_bind]
  cases attr o.noises with
  | error e => rfl
  | ok noises =>
  simp only [ok_bind, noiseInterp_quiet x image noises w h]
  cases edgeStage c.copyEdges c.splineFlags ⟨image, noises, ⟨b.nrow, b.ncol, fun _ _ => 0⟩⟩ w b with
  | error e => rfl
  | ok k2 =>
  simp only [ok_bind]
  split
  · rfl
  cases splineStage x c.splineFlags k2.1 k2.2.1 k2.2.2.1 with
  | error e => rfl
  | ok k3 =>
  simp only [ok_bind]
  cases k3 with
  | none => rfl
  | some k =>
  simp only
  split
  · rfl
  cases o.setInterp k.image k.noises k.pmask with
  | mk o' e =>
  cases e with
  | some e => rfl
  | none =>
  simp only
  cases attr o'.psf with
  | error e => rfl
  | ok psf =>
  simp only [ok_bind]
  cases buildCoaddWeight x.fwhm c.coaddingWeight w psf <;> rfl

theorem processCand_quiet {x : Ext A σ} {c : BuildCfg A} {k : Cand} (h : Quiet x c k) (rng rng0 : σ) :
    processCand x c k rng = (processCand x c k rng0).map fun p => (p.1, rng) := by
  unfold processCand
  cases seGaiaMask c k.src k.obj with
  | error e => rfl
  | ok g =>
  simp only [ok_bind]
  cases hw : k.obj.weight with
  | none => rfl
  | some w0 =>
  cases hb : k.obj.bmask with
  | none => rfl
  | some b0 =>
  simp only [attr_some, ok_bind]
  cases hs : symmetrizeSlice x.rotate c.symmetrize g (c.splineFlags ||| c.noiseFlags) w0 b0 with
  | error e => rfl
  | ok wb =>
  simp only [ok_bind]
  cases edgeCut c.copyEdges wb.1 wb.2 c.splineFlags with
  | error e => rfl
  | ok skip =>
  simp only [ok_bind]
  split
  · rfl
  · exact interpolateCand_quiet x c g _ wb.1 (h g w0 b0 wb.1 wb.2 hw hb hs) rng rng0

/-- What becomes of a candidate, whatever the random numbers. -/
def outcomeOf (x : Ext A σ) (c : BuildCfg A) (rng : σ) (k : Cand) : Except Err (Src × Outcome) :=
  (processCand x c k rng).map fun p => (k.src, p.1)

theorem processAll_quiet {x : Ext A σ} {c : BuildCfg A} {l : List Cand} (h : ∀ k ∈ l, Quiet x c k) (acc : Inputs)
    (rng rng0 : σ) : processAll x c l acc rng =
      (l.mapM (outcomeOf x c rng0)).map fun os => os.foldl (fun a p => a.add p.1 p.2) acc := by
  induction l generalizing acc with
  | nil => rfl
  | cons k l ih =>
    unfold processAll
    have ho : outcomeOf x c rng0 k = (processCand x c k rng0).map fun p => (k.src, p.1) := rfl
    rw [List.mapM_cons, processCand_quiet (h k (by simp)) rng rng0, ho]
    cases processCand x c k rng0 with
    | error e => rfl
    | ok p =>
      simp only [Except.map, ok_bind]
      rw [ih (fun k hk => h k (by simp [hk]))]
      cases l.mapM (outcomeOf x c rng0) <;> rfl

/-! ### permutations -/

theorem mapM_perm {α β : Type} {f : α → Except Err β} {l l' : List α} (h : l.Perm l') {out : List β}
    (ho : l.mapM f = .ok out) : ∃ out', l'.mapM f = .ok out' ∧ out.Perm out' := by
  induction h generalizing out with
  | nil => exact ⟨out, ho, .refl _⟩
  | cons a _ ih =>
    rw [List.mapM_cons] at ho
    obtain ⟨b, h1, ho⟩ := bind_eq_ok.1 ho
    obtain ⟨bs, h2, ho⟩ := bind_eq_ok.1 ho
    cases ho
    obtain ⟨out', h3, h4⟩ := ih h2
    exact ⟨b :: out', by rw [List.mapM_cons, h1, ok_bind, h3]; rfl, h4.cons b⟩
  | swap a a' l =>
    rw [List.mapM_cons] at ho
    obtain ⟨b, h1, ho⟩ := bind_eq_ok.1 ho
    obtain ⟨bs, h2, ho⟩ := bind_eq_ok.1 ho
    cases ho
    rw [List.mapM_cons] at h2
    obtain ⟨b', h3, h2⟩ := bind_eq_ok.1 h2
    obtain ⟨bs', h4, h2⟩ := bind_eq_ok.1 h2
    cases h2
    exact ⟨b' :: b :: bs', by rw [List.mapM_cons, h3, ok_bind, List.mapM_cons, h1, ok_bind, h4]; rfl, .swap _ _ _⟩
  | trans _ _ ih1 ih2 =>
    obtain ⟨o1, h1, h2⟩ := ih1 ho
    obtain ⟨o2, h3, h4⟩ := ih2 h1
    exact ⟨o2, h3, h2.trans h4⟩

theorem possibleSlices_eq (c : BuildCfg A) (l : List Src) :
    possibleSlices c l = (l.mapM (roughCut c)).map List.flatten := by
  induction l with
  | nil => rfl
  | cons s l ih =>
    unfold possibleSlices
    rw [List.mapM_cons, ih]
    cases roughCut c s with
    | error e => rfl
    | ok a =>
      simp only [ok_bind]
      cases l.mapM (roughCut c) <;> rfl

theorem possibleSlices_perm {c : BuildCfg A} {l l' : List Src} (h : l.Perm l') {ks : List Cand}
    (hk : possibleSlices c l = .ok ks) : ∃ ks', possibleSlices c l' = .ok ks' ∧ ks.Perm ks' := by
  rw [possibleSlices_eq] at hk ⊢
  cases hm : l.mapM (roughCut c) with
  | error e => rw [hm] at hk; cases hk
  | ok a =>
    rw [hm] at hk
    cases hk
    obtain ⟨b, h1, h2⟩ := mapM_perm h hm
    rw [h1]
    exact ⟨_, rfl, h2.flatten⟩

/-- The used epochs with their weights, before these are normalised. -/
def usedOf : List (Src × Outcome) → List (Epoch × ℚ) :=
  List.filterMap fun p => match p.2 with | .used o wt => some (⟨p.1, o⟩, wt) | .unused _ _ => none

/-- The other epochs with their flags. -/
def unusedOf : List (Src × Outcome) → List (Epoch × BitVec 32) :=
  List.filterMap fun p => match p.2 with | .used _ _ => none | .unused o f => some (⟨p.1, o⟩, f)

theorem foldl_add (os : List (Src × Outcome)) (acc : Inputs) :
    os.foldl (fun a p => a.add p.1 p.2) acc =
      ⟨acc.slices ++ (usedOf os).map Prod.fst, acc.weights ++ (usedOf os).map Prod.snd,
        acc.notUsed ++ (unusedOf os).map Prod.fst, acc.flags ++ (unusedOf os).map Prod.snd⟩ := by
  induction os generalizing acc with
  | nil => simp [usedOf, unusedOf]
  | cons p os ih =>
    obtain ⟨s, o⟩ := p
    rw [List.foldl_cons, ih]
    cases o <;> simp [usedOf, unusedOf, Inputs.add]

theorem zip_map_pair {α β γ : Type} (l : List (α × β)) (f : β → γ) :
    (l.map Prod.fst).zip ((l.map Prod.snd).map f) = l.map fun p => (p.1, f p.2) := by
  induction l with
  | nil => rfl
  | cons p l ih => rw [List.map_cons, List.map_cons, List.map_cons, List.zip_cons_cons, ih, List.map_cons]

/-- Permuted sources with masks without flags give permuted inputs, also with other random numbers. -/
theorem buildSliceInputs_perm {x : Ext A σ} {c : BuildCfg A} {srcs srcs' : List Src} (hp : srcs.Perm srcs')
    (hro : c.rejectOutliers = false) (hq : ∀ ks, possibleSlices c srcs = .ok ks → ∀ k ∈ ks, Quiet x c k)
    {rng : σ} (rng' : σ) {out : Inputs} (h : buildSliceInputs x c srcs rng = .ok out) :
    ∃ out', buildSliceInputs x c srcs' rng' = .ok out' ∧
      (out.slices.zip out.weights).Perm (out'.slices.zip out'.weights) ∧
      (out.notUsed.zip out.flags).Perm (out'.notUsed.zip out'.flags) ∧
      out.weights.Perm out'.weights ∧ out.slices.Perm out'.slices := by
  unfold buildSliceInputs at h ⊢
  obtain ⟨ks, h1, h⟩ := bind_eq_ok.1 h
  obtain ⟨ks', k1, k2⟩ := possibleSlices_perm hp h1
  rw [k1, ok_bind]
  have hc : (ks'.isEmpty || ks'.all (·.psfFlag)) = (ks.isEmpty || ks.all (·.psfFlag)) := by
    have e1 : ks'.isEmpty = ks.isEmpty := by
      rw [Bool.eq_iff_iff, List.isEmpty_iff, List.isEmpty_iff]
      exact ⟨fun e => (e ▸ k2).eq_nil, fun e => (e ▸ k2).symm.eq_nil⟩
    have e2 : ks'.all (·.psfFlag) = ks.all (·.psfFlag) := by
      rw [Bool.eq_iff_iff, List.all_eq_true, List.all_eq_true]
      exact ⟨fun h k hk => h k (k2.mem_iff.1 hk), fun h k hk => h k (k2.mem_iff.2 hk)⟩
    rw [e1, e2]
  rw [hc]
  split at h
  · rename_i he
    rw [if_pos he]
    cases h
    exact ⟨_, rfl, .refl _, .refl _, .refl _, .refl _⟩
  · rename_i he
    rw [if_neg he]
    have hr : ∀ l : List Cand, rejectOutliers x c l = .ok l := by
      intro l
      unfold rejectOutliers
      rw [hro]
      rfl
    rw [hr, ok_bind] at h ⊢
    have q1 := hq ks h1
    have q2 : ∀ k ∈ ks', Quiet x c k := fun k hk => q1 k (k2.mem_iff.2 hk)
    rw [processAll_quiet q1 {} rng rng] at h
    rw [processAll_quiet q2 {} rng' rng]
    cases hm : ks.mapM (outcomeOf x c rng) with
    | error e => rw [hm] at h; cases h
    | ok os =>
      rw [hm] at h
      obtain ⟨os', m1, m2⟩ := mapM_perm k2 hm
      rw [m1]
      simp only [Except.map, ok_bind, foldl_add, List.nil_append] at h ⊢
      have pu : (usedOf os).Perm (usedOf os') := m2.filterMap _
      have pn : (unusedOf os).Perm (unusedOf os') := m2.filterMap _
      have hs : ((usedOf os').map Prod.snd).sum = ((usedOf os).map Prod.snd).sum := (pu.map _).sum_eq.symm
      have hemp : ((usedOf os').map Prod.snd).isEmpty = ((usedOf os).map Prod.snd).isEmpty := by
        rw [Bool.eq_iff_iff, List.isEmpty_iff, List.isEmpty_iff]
        have := pu.map Prod.snd
        exact ⟨fun e => (e ▸ this).eq_nil, fun e => (e ▸ this).symm.eq_nil⟩
      rw [hemp, hs]
      generalize ((usedOf os).map Prod.snd).sum = S at h ⊢
      split at h
      · rename_i he
        rw [if_pos he]
        cases h
        have z := fun l : List (Epoch × ℚ) => zip_map_pair l id
        have z' := fun l : List (Epoch × BitVec 32) => zip_map_pair l id
        simp only [List.map_id] at z z'
        refine ⟨_, rfl, ?_, ?_, pu.map _, pu.map _⟩
        · rw [z, z]; exact pu.map _
        · rw [z', z']; exact pn.map _
      · rename_i he
        rw [if_neg he]
        cases h
        have z' := fun l : List (Epoch × BitVec 32) => zip_map_pair l id
        simp only [List.map_id] at z'
        refine ⟨_, rfl, ?_, ?_, (pu.map _).map _, pu.map _⟩
        · rw [zip_map_pair, zip_map_pair]; exact pu.map _
        · rw [z', z']; exact pn.map _

end Pizza
