import Verif.Model.SEObject
import Verif.Props.Lanczos
import Verif.Props.Symmetrize
import Verif.Props.SEGeom

/-! Lemmas about grids, `lanczosNan` and `resample`. -/

namespace Pizza

theorem attr_ok {α : Type} {o : Option α} {v : α} : attr o = .ok v ↔ o = some v := by
  cases o <;> simp [attr]

theorem attr_some {α : Type} (v : α) : attr (some v) = .ok v := rfl

theorem bind_eq_ok {α β : Type} {x : Except Err α} {f : α → Except Err β} {b : β} :
    (x >>= f) = .ok b ↔ ∃ a, x = .ok a ∧ f a = .ok b := by
  cases x with
  | error e => simp [bind, Except.bind]
  | ok a => simp [bind, Except.bind]

theorem pure_eq_ok {α : Type} {a b : α} : (pure a : Except Err α) = .ok b ↔ a = b := by
  simp [pure, Except.pure]

section
variable {α β γ : Type}

theorem gridList_map (n : Nat) (f : Nat → Nat → α) (g : α → β) :
    (gridList n f).map g = gridList n fun r c => g (f r c) := by
  simp [gridList, List.map_flatMap, Function.comp_def]

theorem length_gridRow (m n : Nat) (f : Nat → Nat → α) :
    ((List.range m).flatMap fun r => (List.range n).map fun c => f r c).length = m * n := by
  induction m with
  | zero => simp
  | succ m ih => rw [List.range_succ, List.flatMap_append, List.length_append, ih]; simp [Nat.succ_mul]

theorem length_gridList (n : Nat) (f : Nat → Nat → α) : (gridList n f).length = n * n :=
  length_gridRow n n f

theorem getElem?_gridRow (m n : Nat) (f : Nat → Nat → α) {r c : Nat} (hr : r < m) (hc : c < n) :
    ((List.range m).flatMap fun r => (List.range n).map fun c => f r c)[r * n + c]? =
      some (f r c) := by
  induction m with
  | zero => omega
  | succ m ih =>
    rw [List.range_succ, List.flatMap_append]
    by_cases h : r < m
    · rw [List.getElem?_append_left, ih h]
      rw [length_gridRow]
      calc r * n + c < r * n + n := by omega
        _ = (r + 1) * n := by ring
        _ ≤ m * n := Nat.mul_le_mul_right _ h
    · have : r = m := by omega
      subst this
      rw [List.getElem?_append_right (by rw [length_gridRow]; omega), length_gridRow]
      simp [hc]

theorem getElem?_gridList (n : Nat) (f : Nat → Nat → α) {r c : Nat} (hr : r < n) (hc : c < n) :
    (gridList n f)[r * n + c]? = some (f r c) := getElem?_gridRow n n f hr hc

theorem gridList_zipWith (n : Nat) (f : Nat → Nat → α) (g : Nat → Nat → β) (h : α → β → γ) :
    List.zipWith h (gridList n f) (gridList n g) = gridList n fun r c => h (f r c) (g r c) := by
  unfold gridList
  suffices H : ∀ l : List Nat,
      List.zipWith h (l.flatMap fun r => (List.range n).map fun c => f r c)
        (l.flatMap fun r => (List.range n).map fun c => g r c) =
      l.flatMap fun r => (List.range n).map fun c => h (f r c) (g r c) from H _
  intro l
  induction l with
  | nil => simp
  | cons a l ih =>
    rw [List.flatMap_cons, List.flatMap_cons, List.zipWith_append (by simp), ih, List.flatMap_cons,
      List.zipWith_map, List.zipWith_self]

theorem reshape_gridList [Inhabited α] (n : Nat) (f : Nat → Nat → α) {r c : Nat} (hr : r < n)
    (hc : c < n) : (reshape n (gridList n f)).px r c = f r c := by
  simp [reshape, List.getD_eq_getElem?_getD, getElem?_gridList n f hr hc]

end

theorem map_triple_fst {α β γ δ : Type} (l : List α) (f : α → β) (g : α → γ) (h : α → δ) :
    (l.map fun p => (f p, g p, h p)).map (fun v => v.1) = l.map f := by
  rw [List.map_map]; rfl

theorem map_triple_snd {α β γ δ : Type} (l : List α) (f : α → β) (g : α → γ) (h : α → δ) :
    (l.map fun p => (f p, g p, h p)).map (fun v => v.2.1) = l.map g := by
  rw [List.map_map]; rfl

/-- `lanczosOne` without the error type, with NaN. -/
def lanczosAt (im : Img ℚ) : Option (ℚ × ℚ) → ℚ × Bool
  | none => (0, true)
  | some (y, x) => (lanczosSum im 3 y x,
      outOfBounds im.ncol im.nrow (⌊x⌋ - 3 + 1) (⌊x⌋ + 3) (⌊y⌋ - 3 + 1) (⌊y⌋ + 3))

theorem lanczosNan_eq (im : Img ℚ) (pos : List (Option (ℚ × ℚ))) :
    lanczosNan im pos = .ok (pos.map (lanczosAt im)) := by
  refine mapM_ok _ _ _ fun p _ => ?_
  rcases p with _ | ⟨y, x⟩
  · rfl
  · exact lanczosOne_eq im 3 y x

theorem lanczosNan2_eq (im1 im2 : Img ℚ) (hr : im1.nrow = im2.nrow) (hc : im1.ncol = im2.ncol)
    (pos : List (Option (ℚ × ℚ))) :
    lanczosNan2 im1 im2 pos =
      .ok (pos.map fun p => ((lanczosAt im1 p).1, (lanczosAt im2 p).1, (lanczosAt im1 p).2)) := by
  refine mapM_ok _ _ _ fun p _ => ?_
  rcases p with _ | ⟨y, x⟩
  · rfl
  · exact lanczosOne2_eq im1 im2 hr hc 3 y x

theorem divArea_ok {a b : Img ℚ} {area : Nat → Nat → ℚ} {box : Nat} :
    divArea a area box = .ok b ↔ (a.nrow = box ∧ a.ncol = box) ∧
      (⟨box, box, fun r c => a.px r c / area r c⟩ : Img ℚ) = b := by
  unfold divArea; split <;> simp_all

/-- `timesArea` at a pixel. -/
theorem timesArea_px (n : Nat) (f g : Nat → Nat → ℚ) {r c : Nat} (hr : r < n) (hc : c < n) :
    (timesArea n (gridList n f) (gridList n g)).px r c = f r c * g r c := by
  unfold timesArea
  rw [gridList_zipWith, reshape_gridList _ _ hr hc]

/-- The image divided by its pixel areas. -/
def perArea (a : Img ℚ) (areaSe : Nat → Nat → ℚ) (box : Nat) : Img ℚ :=
  ⟨box, box, fun r c => a.px r c / areaSe r c⟩

theorem resampleOne_ok {a : Img ℚ} {areaSe : Nat → Nat → ℚ} {selfBox box : Nat}
    {p : Nat → Nat → Option (ℚ × ℚ)} {ac : Nat → Nat → ℚ} {out : Img ℚ × Img Bool}
    (h : resampleOne a areaSe selfBox (gridList box p) (gridList box ac) box = .ok out) :
    a.nrow = selfBox ∧ a.ncol = selfBox ∧ out.1.nrow = box ∧ out.1.ncol = box ∧
      ∀ r < box, ∀ c < box,
        out.1.px r c = (lanczosAt (perArea a areaSe selfBox) (p r c)).1 * ac r c ∧
        out.2.px r c = (lanczosAt (perArea a areaSe selfBox) (p r c)).2 := by
  unfold resampleOne at h
  simp only [bind_eq_ok, divArea_ok, lanczosNan_eq, pure_eq_ok, Except.ok.injEq] at h
  obtain ⟨b, ⟨⟨h1, h2⟩, rfl⟩, rs, rfl, rfl⟩ := h
  refine ⟨h1, h2, rfl, rfl, fun r hr c hc => ?_⟩
  simp only [gridList_map, timesArea_px _ _ _ hr hc, reshape_gridList _ _ hr hc, perArea, and_self]

theorem resampleOne_total (a : Img ℚ) (areaSe : Nat → Nat → ℚ) (selfBox box : Nat)
    (pos : List (Option (ℚ × ℚ))) (ac : List ℚ) (h1 : a.nrow = selfBox) (h2 : a.ncol = selfBox) :
    ∃ out, resampleOne a areaSe selfBox pos ac box = .ok out := by
  simp [resampleOne, divArea, h1, h2, ok_bind, lanczosNan_eq, pure, Except.pure]

theorem mapM_ok_inv {α β : Type} {l : List α} {f : α → Except Err β} {out : List β}
    (h : l.mapM f = .ok out) :
    out.length = l.length ∧ ∀ (i : Nat) (a : α), l[i]? = some a → ∃ b, out[i]? = some b ∧ f a = .ok b := by
  induction l generalizing out with
  | nil =>
    simp [List.mapM_nil, pure, Except.pure] at h
    subst h; simp
  | cons x l ih =>
    rw [List.mapM_cons] at h
    simp only [bind_eq_ok, pure_eq_ok] at h
    obtain ⟨b, hb, bs, hbs, rfl⟩ := h
    obtain ⟨hl, hi⟩ := ih hbs
    refine ⟨by simp [hl], ?_⟩
    intro i a hia
    cases i with
    | zero => simp at hia; subst hia; exact ⟨b, by simp, hb⟩
    | succ i => simpa using hi i a (by simpa using hia)

/-- Everything a successful `resample` says about its inputs and outputs. -/
structure ResampleFacts (o : SEObj) (w : Lookups) (xStart yStart : ℚ) (box : Nat)
    (psfXStart psfYStart : ℚ) (psfBox : Nat) (out : Resampling)
    (selfBox : ℤ) (sx sy : ℤ) (image iom frac : Img ℚ) (noises : List (Img ℚ))
    (bm pm : Img (BitVec 32)) : Prop where
  hbox : o.boxSize = some selfBox
  hx : o.xStart = some sx
  hy : o.yStart = some sy
  himage : o.image = some image
  hiom : o.interpOnlyImage = some iom
  hfrac : o.interpFrac = some frac
  hnoises : o.noises = some noises
  hbm : o.bmask = some bm
  hpm : o.pmask = some pm
  shape : image.nrow = selfBox.toNat ∧ image.ncol = selfBox.toNat
  shapeIom : iom.nrow = selfBox.toNat ∧ iom.ncol = selfBox.toNat
  shapeFrac : frac.nrow = selfBox.toNat ∧ frac.ncol = selfBox.toNat
  psf : o.resamplePsf w psfXStart psfYStart psfBox 0 0 = .ok out.psf
  dims : out.bmask.nrow = box ∧ out.bmask.ncol = box ∧ out.pmask.nrow = box ∧ out.pmask.ncol = box ∧
    out.image.nrow = box ∧ out.image.ncol = box
  lenNoises : out.noises.length = noises.length
  px : ∀ r < box, ∀ c < box,
    let p := localPos w xStart yStart sx sy r c
    let ac := w.areaCoadd ((c : ℚ) + xStart) ((r : ℚ) + yStart)
    let pa := fun a => perArea a (fun r c => w.areaSe ((c : ℚ) + sx) ((r : ℚ) + sy)) selfBox.toNat
    out.image.px r c = (lanczosAt (pa image) p).1 * ac ∧
    out.edge.px r c = (lanczosAt (pa image) p).2 ∧
    out.interpOnlyImage.px r c = (lanczosAt (pa iom) p).1 * ac ∧
    out.interpFrac.px r c = (lanczosAt (pa frac) p).1 * ac ∧
    out.bmask.px r c = nearVal bm p bm.nrow bm.ncol ∧
    out.pmask.px r c = (if out.edge.px r c then nearVal pm p bm.nrow bm.ncol ||| BMASK_RESAMPLE_BOUNDS
      else nearVal pm p bm.nrow bm.ncol) ∧
    (nearIn p bm.nrow bm.ncol = true → nearIn p pm.nrow pm.ncol = true)
  noisePx : ∀ (i : Nat) (n rn : Img ℚ), noises[i]? = some n → out.noises[i]? = some rn →
    n.nrow = selfBox.toNat ∧ n.ncol = selfBox.toNat ∧ rn.nrow = box ∧ rn.ncol = box ∧
    ∀ r < box, ∀ c < box, rn.px r c =
      (lanczosAt (perArea n (fun r c => w.areaSe ((c : ℚ) + sx) ((r : ℚ) + sy)) selfBox.toNat)
        (localPos w xStart yStart sx sy r c)).1 * w.areaCoadd ((c : ℚ) + xStart) ((r : ℚ) + yStart)

theorem resample_facts {o : SEObj} {w : Lookups} {xStart yStart : ℚ} {box : Nat}
    {psfXStart psfYStart : ℚ} {psfBox : Nat} {out : Resampling}
    (h : o.resample w xStart yStart box psfXStart psfYStart psfBox = .ok out) :
    ∃ selfBox sx sy image iom frac noises bm pm,
      ResampleFacts o w xStart yStart box psfXStart psfYStart psfBox out selfBox sx sy image iom frac
        noises bm pm := by
  unfold SEObj.resample at h
  split at h
  · cases h
  rename_i selfBox hbox
  split at h
  · cases h
  split at h
  · cases h
  rename_i pm hpm
  unfold SEObj.resampleGo at h
  simp only [bind_eq_ok, attr_ok, divArea_ok] at h
  obtain ⟨psf, hpsf, sx, hsx, sy, hsy, image, himage, rim, hrim, noises, hnoises, rns, hrns, iom,
    hiom, iom', ⟨⟨hi1, hi2⟩, rfl⟩, frac, hfrac, frac', ⟨⟨hf1, hf2⟩, rfl⟩, two, htwo, bm, hbm, h⟩ := h
  rw [lanczosNan2_eq _ _ (by rfl) (by rfl), Except.ok.injEq] at htwo
  subst htwo
  split at h
  · cases h
  rename_i hidx
  rw [pure_eq_ok] at h
  subst h
  obtain ⟨s1, s2, d1, d2, hpx⟩ := resampleOne_ok hrim
  obtain ⟨hlen, hn⟩ := mapM_ok_inv hrns
  refine ⟨selfBox, sx, sy, image, iom, frac, noises, bm, pm, hbox, hsx, hsy, himage, hiom, hfrac, hnoises,
    hbm, hpm, ⟨s1, s2⟩, ⟨hi1, hi2⟩, ⟨hf1, hf2⟩, hpsf, ⟨rfl, rfl, rfl, rfl, d1, d2⟩, by simpa using hlen, ?_, ?_⟩
  · intro r hr c hc
    obtain ⟨h1, h2⟩ := hpx r hr c hc
    refine ⟨h1, h2, ?_, ?_, rfl, rfl, ?_⟩
    · dsimp only
      rw [map_triple_fst, gridList_map, timesArea_px _ _ _ hr hc, perArea]
    · dsimp only
      rw [map_triple_snd, gridList_map, timesArea_px _ _ _ hr hc, perArea]
    · intro hin
      by_contra hout
      apply hidx
      rw [anyPix_iff]
      exact ⟨r, hr, c, hc, by simp [hin, hout]⟩
  · intro i n rn hi hri
    obtain ⟨b, hb, hone⟩ := hn i n hi
    simp only [List.getElem?_map, hb, Option.map_some, Option.some.injEq] at hri
    subst hri
    obtain ⟨s1, s2, d1, d2, hp⟩ := resampleOne_ok hone
    exact ⟨s1, s2, d1, d2, fun r hr c hc => (hp r hr c hc).1⟩

end Pizza
