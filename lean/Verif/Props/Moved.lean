import Verif.Lemmas.Moved
import Verif.Props.Locate
import Verif.Props.Process
import Verif.Props.WcsGrid

/-! C157: a slice does not depend on where the pixels of the coadd are numbered from. -/

namespace Pizza

section
variable {A σ S P : Type} {dx dy o : ℤ}

/-- **C157** The same patch of the sky gives the same slice on another tile: images, noise images, masks, weights, PSF and the epochs
information, or the same error.  Only the number of the slice is different. -/
theorem C157_slice (v v' : SliceEnv A σ S) (h : MovedTile dx dy o v v') (i i' : Nat) (row row' : ObjRow)
    (hi : v.objects[i]? = some row) (hi' : v'.objects[i']? = some row') (hr : MovedRow dx dy row row') (seed : Nat) :
    coaddSingleSlice v' i' seed = (coaddSingleSlice v i seed).map fun r =>
      { r with i := i', epochs := r.epochs.map fun e => { e with id := row'.id } } := by
  have e1 : v'.ext = v.ext := by rw [h.rest]
  have e2 : v'.seeded = v.seeded := by rw [h.rest]
  have e3 : v'.nExtra = v.nExtra := by rw [h.rest]
  unfold coaddSingleSlice objRow
  rw [hi, hi']
  simp only [ok_bind]
  rw [hr.ra, hr.dec, hr.psfBoxSize, layout_moved h]
  cases coaddPsfLayout v.fwd v.inv row.ra row.dec row.psfBoxSize v.offset with
  | error e => rfl
  | ok lay =>
  simp only [Except.map, ok_bind]
  rw [gaiaFor_moved h hr]
  cases gaiaFor v row with
  | error e => rfl
  | ok g =>
  simp only [ok_bind]
  rw [cfgFor_moved h hr, e1, e2]
  have h1 := buildSliceInputs_moved (x := v.ext) (rng := v.seeded seed) (cfgFor v row g) (h.sources row.ra row.dec lay.raPsf lay.decPsf)
  generalize buildSliceInputs v.ext (cfgFor v row g) (v.sources row.ra row.dec lay.raPsf lay.decPsf) (v.seeded seed) = a at h1
  generalize buildSliceInputs v.ext ((cfgFor v row g).moved dx dy) (v'.sources row.ra row.dec lay.raPsf lay.decPsf) (v.seeded seed) = a' at h1
  cases h1 with
  | error e => rfl
  | ok a a' h1 =>
  exact coaddChosen_moved h hr i i' lay _ rfl rfl h1

theorem inverse_moved {w : ProcWorld A σ S P} {t t' : Tile A S P} (h : MovedFiles dx dy o w t t') (hf : Fit.Moves w.fit) (se : SEWcs)
    (nrow ncol : Nat) : BothOk (fun a a' => (∀ x y, pairUp (a'.2.call x y) = (pairUp (a.2.call x y)).map fun q => (q.1 + (dx : ℚ), q.2 + (dy : ℚ))) ∧
      ∀ u v : ℚ, pairUp (a'.1.call (u + dx) (v + dy)) = pairUp (a.1.call u v))
      (getWcsInverse w.fit t.inv t.offset se nrow ncol t.seDelta) (getWcsInverse w.fit t'.inv t'.offset se nrow ncol t'.seDelta) := by
  have hd : t'.seDelta = t.seDelta := by rw [h.rest]
  unfold getWcsInverse
  rw [hd]
  cases mgridAxis nrow t.seDelta with
  | error e => exact .error e
  | ok ys =>
  cases mgridAxis ncol t.seDelta with
  | error e => exact .error e
  | ok xs =>
  simp only [ok_bind]
  cases se.image2sky (.arr ((gridPts ys xs).map Prod.snd)) (.arr ((gridPts ys xs).map Prod.fst)) with
  | error e => exact .error e
  | ok sky =>
  simp only [ok_bind]
  have ei : t'.inv = fun ra dec => ((t.inv ra dec).1 + ((dx : ℚ) + o), (t.inv ra dec).2 + ((dy : ℚ) + o)) :=
    funext₂ fun ra dec => h.inv ra dec
  have ez : List.zipWith t'.inv sky.1.flat sky.2.flat = (List.zipWith t.inv sky.1.flat sky.2.flat).map fun p =>
      (p.1 + ((dx : ℚ) + o), p.2 + ((dy : ℚ) + o)) := by
    rw [ei, List.map_zipWith]
  rw [ez, h.offset]
  generalize List.zipWith t.inv sky.1.flat sky.2.flat = co
  have ex : ((co.map fun p => (p.1 + ((dx : ℚ) + o), p.2 + ((dy : ℚ) + o))).map fun p => p.1 - (t.offset + o)) =
      (co.map fun p => p.1 - t.offset).map (· + (dx : ℚ)) := by
    rw [List.map_map, List.map_map]
    exact List.map_congr_left fun p _ => by simp only [Function.comp]; ring
  have ey : ((co.map fun p => (p.1 + ((dx : ℚ) + o), p.2 + ((dy : ℚ) + o))).map fun p => p.2 - (t.offset + o)) =
      (co.map fun p => p.2 - t.offset).map (· + (dy : ℚ)) := by
    rw [List.map_map, List.map_map]
    exact List.map_congr_left fun p _ => by simp only [Function.comp]; ring
  rw [ex, ey]
  generalize (co.map fun p => p.1 - t.offset) = xCo
  generalize (co.map fun p => p.2 - t.offset) = yCo
  unfold InvInterp.make
  have ep : List.zip (yCo.map (· + (dy : ℚ))) (xCo.map (· + (dx : ℚ))) = (List.zip yCo xCo).map fun q => (q.1 + (dy : ℚ), q.2 + (dx : ℚ)) := by
    rw [List.zip_map]
    rfl
  simp only [ep, hf.pts, hf.vals]
  cases w.fit (List.zip yCo xCo) ((gridPts ys xs).map Prod.snd) with
  | error e => exact .error e
  | ok f1 =>
  cases w.fit (List.zip yCo xCo) ((gridPts ys xs).map Prod.fst) with
  | error e => exact .error e
  | ok f2 =>
  cases w.fit (List.zip ((gridPts ys xs).map Prod.fst) ((gridPts ys xs).map Prod.snd)) xCo with
  | error e => exact .error e
  | ok f3 =>
  cases w.fit (List.zip ((gridPts ys xs).map Prod.fst) ((gridPts ys xs).map Prod.snd)) yCo with
  | error e => exact .error e
  | ok f4 =>
    refine .ok _ _ ⟨fun x y => ?_, fun u v => ?_⟩
    · show pairUp ((f3 (y, x)).map (· + (dx : ℚ)), (f4 (y, x)).map (· + (dy : ℚ))) = (pairUp (f3 (y, x), f4 (y, x))).map _
      cases f3 (y, x) with
      | none => rfl
      | some a => cases f4 (y, x) <;> rfl
    · show pairUp (f1 (v + dy - dy, u + dx - dx), f2 (v + dy - dy, u + dx - dx)) = pairUp (f1 (v, u), f2 (v, u))
      rw [add_sub_cancel_right, add_sub_cancel_right]

theorem freshEnv_moved {w : ProcWorld A σ S P} {t t' : Tile A S P} (h : MovedFiles dx dy o w t t') (hf : Fit.Moves w.fit) :
    MovedTile dx dy o (freshEnv w t) (freshEnv w t') := by
  have c1 : t'.cfg = t.cfg := by rw [h.rest]
  have c2 : t'.gaiaPath = t.gaiaPath := by rw [h.rest]
  have c3 : t'.gaiaCfg = t.gaiaCfg := by rw [h.rest]
  have c4 : t'.nExtra = t.nExtra := by rw [h.rest]
  have c5 : t'.entries = t.entries := by rw [h.rest]
  have c6 : t'.wcs = t.wcs := by rw [h.rest]
  have c7 : t'.psf = t.psf := by rw [h.rest]
  have c8 : t'.kwargs = t.kwargs := by rw [h.rest]
  have c9 : t'.seDelta = t.seDelta := by rw [h.rest]
  have c10 : ∀ e, freshReads w t' e = freshReads w t e := by
    intro e
    rw [h.rest]
    rfl
  have c11 : ∀ e p, freshFlag w t' e p = freshFlag w t e p := by
    intro e p
    rw [h.rest]
    rfl
  refine ⟨?_, h.offset, h.fwd, h.inv, fun ra dec raPsf decPsf => ?_⟩
  · unfold freshEnv
    rw [c1, c2, c3, c4]
  · show List.Forall₂ _ (t.entries.map _) (t'.entries.map _)
    rw [c5, List.forall₂_map_left_iff, List.forall₂_map_right_iff, List.forall₂_same]
    intro e _
    unfold freshSrc
    rw [c6, c7]
    cases (seInit w.disk e.src e.offset t.wcs t.psf).out with
    | error x => exact ⟨rfl, .error _, .error _⟩
    | ok con =>
      simp only [c8, c10, c11]
      have hi := inverse_moved h hf ⟨con.wcs.fwd, con.wcs.inv, e.offset⟩ con.shape.1 con.shape.2
      refine ⟨rfl, ?_, ?_⟩
      · show BothOk _ ((getWcsInverse w.fit t.inv t.offset _ con.shape.1 con.shape.2 t.seDelta).map _)
          ((getWcsInverse w.fit t'.inv t'.offset _ con.shape.1 con.shape.2 t'.seDelta).map _)
        generalize getWcsInverse w.fit t.inv t.offset _ con.shape.1 con.shape.2 t.seDelta = a at hi
        generalize getWcsInverse w.fit t'.inv t'.offset _ con.shape.1 con.shape.2 t'.seDelta = a' at hi
        cases hi with
        | error e => exact .error e
        | ok a a' hi => exact .ok _ _ hi.1
      · show BothOk _ (buildLookups w.fit w.spl _ t.seDelta t.coaddDelta) (buildLookups w.fit w.spl _ t'.seDelta t'.coaddDelta)
        unfold buildLookups
        simp only
        generalize getWcsInverse w.fit t.inv t.offset _ con.shape.1 con.shape.2 t.seDelta = a at hi
        generalize getWcsInverse w.fit t'.inv t'.offset _ con.shape.1 con.shape.2 t'.seDelta = a' at hi
        cases hi with
        | error e => exact .error e
        | ok a a' hi =>
        simp only [ok_bind]
        rw [c9]
        cases getWcsAreaInterp w.spl con.wcs.isCelestial (SEWcs.fwd0 ⟨con.wcs.fwd, con.wcs.inv, e.offset⟩) w.cosd con.shape.1 con.shape.2
            t.seDelta 0 with
        | error e => exact .error e
        | ok sa =>
        simp only [ok_bind]
        have ha := h.area
        generalize getWcsAreaInterp w.spl t.celestial t.fwd w.cosd t.shape.1 t.shape.2 t.coaddDelta t.offset = b at ha
        generalize getWcsAreaInterp w.spl t'.celestial t'.fwd w.cosd t'.shape.1 t'.shape.2 t'.coaddDelta t'.offset = b' at ha
        cases ha with
        | error e => exact .error e
        | ok b b' ha => exact .ok _ _ ⟨rfl, hi.2, ha⟩

/-- **C157** The same for slices that are computed from the files. -/
theorem C157_tile (w : ProcWorld A σ S P) (t t' : Tile A S P) (h : MovedFiles dx dy o w t t') (hf : Fit.Moves w.fit) (i i' : Nat)
    (row row' : ObjRow) (hi : t.objects[i]? = some row) (hi' : t'.objects[i']? = some row') (hr : MovedRow dx dy row row') (seed : Nat) :
    coaddSingleSlice (freshEnv w t') i' seed = (coaddSingleSlice (freshEnv w t) i seed).map fun r =>
      { r with i := i', epochs := r.epochs.map fun e => { e with id := row'.id } } :=
  C157_slice _ _ (freshEnv_moved h hf) i i' row row' hi hi' hr seed

/-- **C157** The same in processes that have done anything before, also if one process computes both. -/
theorem C157_process {U U' : Tile A S P → Prop} (w : ProcWorld A σ S P) (t t' : Tile A S P) (h : MovedFiles dx dy o w t t')
    (hf : Fit.Moves w.fit) (ho : Orderly w U) (ho' : Orderly w U') (hU : U t) (hU' : U' t') (sizes sizes' : CacheId → Nat) (count count' : Nat)
    (ops ops' : List (ProcOp A S P)) (hops : OpsIn U ops) (hops' : OpsIn U' ops') (i i' : Nat) (row row' : ObjRow)
    (hi : t.objects[i]? = some row) (hi' : t'.objects[i']? = some row') (hr : MovedRow dx dy row row') (seed : Nat) :
    (coaddSingleSliceP w t' i' seed (procRun w (Proc.fresh sizes' w.arrays count') ops')).1 =
      (coaddSingleSliceP w t i seed (procRun w (Proc.fresh sizes w.arrays count) ops)).1.map fun r =>
        { r with i := i', epochs := r.epochs.map fun e => { e with id := row'.id } } := by
  rw [C113_slice ho sizes count ops hops t hU, C113_slice ho' sizes' count' ops' hops' t' hU']
  exact C157_tile w t t' h hf i i' row row' hi hi' hr seed

/-- **C157** The condition on the pixel areas holds for affine coadd WCSs, whatever the sizes of the tiles and the distances of the nodes at which areas
are computed. -/
theorem C157_affine_area (w : ProcWorld A σ S P) (hs : SplineSpec w.spl) (t t' : Tile A S P) (hc : t.celestial = false)
    (hc' : t'.celestial = false) (hd : 0 < t.coaddDelta) (hd' : 0 < t'.coaddDelta)
    (hn : 2 * t.coaddDelta < t.shape.1 ∧ 2 * t.coaddDelta < t.shape.2)
    (hn' : 2 * t'.coaddDelta < t'.shape.1 ∧ 2 * t'.coaddDelta < t'.shape.2) (a b c d e f : ℚ)
    (ha : ∀ x y, t.fwd x y = (a * x + b * y + e, c * x + d * y + f))
    (hf : ∀ x y, t'.fwd (x + (dx + o)) (y + (dy + o)) = t.fwd x y) :
    BothOk (fun f f' => ∀ u v, f' (u + dx) (v + dy) = f u v)
      (getWcsAreaInterp w.spl t.celestial t.fwd w.cosd t.shape.1 t.shape.2 t.coaddDelta t.offset)
      (getWcsAreaInterp w.spl t'.celestial t'.fwd w.cosd t'.shape.1 t'.shape.2 t'.coaddDelta t'.offset) := by
  have ha' : ∀ x y, t'.fwd x y = (a * x + b * y + (e - a * (dx + o) - b * (dy + o)), c * x + d * y + (f - c * (dx + o) - d * (dy + o))) := by
    intro x y
    have := hf (x - (dx + o)) (y - (dy + o))
    rw [sub_add_cancel, sub_add_cancel] at this
    rw [this, ha]
    congr 1 <;> ring
  obtain ⟨F, h1, h2⟩ := C99_constant_area_partial w.spl hs t.fwd w.cosd t.shape.1 t.shape.2 t.coaddDelta t.offset hd hn.1 hn.2 a b c d e f ha
  obtain ⟨F', h1', h2'⟩ := C99_constant_area_partial w.spl hs t'.fwd w.cosd t'.shape.1 t'.shape.2 t'.coaddDelta t'.offset hd' hn'.1 hn'.2
    a b c d _ _ ha'
  rw [hc, hc', h1, h1']
  exact .ok _ _ fun u v => by rw [h2, h2']

end

/-- **C157** A tile that is cut out of a larger one, `m` slices from its first row and `k` slices from its first column: each slice of the smaller
tile is also a slice of the larger one, for the same patch of the sky and with the same local WCS. -/
theorem C157_objects (c b width width' p : ℤ) (hc : 0 < c) (n n' m k : Nat) (hn : width - 2 * b = c * n) (hn' : width' - 2 * b = c * n')
    (hm : m + n ≤ n') (hk : k + n ≤ n') (fwd fwd' : ℚ → ℚ → ℚ × ℚ) (jac jac' : ℚ → ℚ → ℚ × ℚ × ℚ × ℚ) (off : ℚ) (o : ℤ)
    (hf : ∀ x y, fwd' (x + (((k * c : ℤ) : ℚ) + o)) (y + (((m * c : ℤ) : ℚ) + o)) = fwd x y)
    (hj : ∀ x y, jac' (x + (((k * c : ℤ) : ℚ) + o)) (y + (((m * c : ℤ) : ℚ) + o)) = jac x y) :
    ∃ rows rows', buildObjectData c b width p fwd jac off = .ok rows ∧ buildObjectData c b width' p fwd' jac' (off + o) = .ok rows' ∧
      rows.length = n * n ∧ rows'.length = n' * n' ∧ ∀ i < n, ∀ j < n, ∃ row row', rows[i * n + j]? = some row ∧
        rows'[(i + m) * n' + (j + k)]? = some row' ∧ MovedRow (k * c) (m * c) row row' ∧
        row'.dudcol = row.dudcol ∧ row'.dudrow = row.dudrow ∧ row'.dvdcol = row.dvdcol ∧ row'.dvdrow = row.dvdrow := by
  obtain ⟨l, h1, h2, h3⟩ := C11_layout c b width n hc hn
  obtain ⟨l', h1', h2', h3'⟩ := C11_layout c b width' n' hc hn'
  unfold buildObjectData
  rw [h1, h1']
  refine ⟨_, _, rfl, rfl, by rw [List.length_mapIdx, h2], by rw [List.length_mapIdx, h2'], fun i hi j hj' => ?_⟩
  have g := h3 i hi j hj'
  have g' := h3' (i + m) (by omega) (j + k) (by omega)
  have a1 : ((b : ℚ) + ((j + k : Nat) : ℚ) * c + ((c : ℚ) - 1) / 2 + (off + (o : ℚ))) =
      (b : ℚ) + (j : ℚ) * c + ((c : ℚ) - 1) / 2 + off + (((k * c : ℤ) : ℚ) + o) := by
    push_cast
    ring
  have a2 : ((b : ℚ) + ((i + m : Nat) : ℚ) * c + ((c : ℚ) - 1) / 2 + (off + (o : ℚ))) =
      (b : ℚ) + (i : ℚ) * c + ((c : ℚ) - 1) / 2 + off + (((m * c : ℤ) : ℚ) + o) := by
    push_cast
    ring
  simp only [List.getElem?_mapIdx, g, g', Option.map_some]
  refine ⟨_, _, rfl, rfl, ⟨?_, ?_, rfl, rfl, ?_, ?_⟩, ?_, ?_, ?_, ?_⟩
  · simp only [a1, a2, hf]
  · simp only [a1, a2, hf]
  · push_cast
    ring
  · push_cast
    ring
  all_goals simp only [a1, a2, hj]

end Pizza
