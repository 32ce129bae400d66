import Verif.Model.Fits

/-!
The layout of the cutout extensions, stated without the functions that write them.
-/

namespace Pizza

/-- The data that a slice has for the extension of the given name.  Nothing is ever stored in the
segmentation map. -/
inductive Provides {V : Type} (p : SlicePix V) : String → List V → Prop
  | image : Provides p "image_cutouts" p.image
  | weight : Provides p "weight_cutouts" p.weight
  | bmask : Provides p "bmask_cutouts" p.bmask
  | ormask : Provides p "ormask_cutouts" p.ormask
  | mfrac : Provides p "mfrac_cutouts" p.mfrac
  | psf : Provides p "psf" p.psf
  | noise (d : List V) : p.noises[0]? = some d → Provides p "noise_cutouts" d
  | extra (k : Nat) (d : List V) (n : String) : 1 ≤ k → p.noises[k]? = some d →
      n.toList = "noise".toList ++ decimal k ++ "_cutouts".toList → Provides p n d

/-- Pixels per slice in an extension. -/
def perSlice (npix npixPsf : Nat) (name : String) : Nat := if name = "psf" then npixPsf else npix

/-- The pixel data of a slice are complete, have the right size and no negative weight or masked
fraction (as stored). -/
structure GoodPix {V : Type} (ops : PixelOps V) (npix npixPsf nExtra : Nat) (p : SlicePix V) : Prop where
  size : ∀ name d, Provides p name d → d.length = perSlice npix npixPsf name
  noises : p.noises.length = nExtra + 1
  weight : ∀ v ∈ p.weight, ops.isNeg (ops.cast .f4 v) = false
  mfrac : ∀ v ∈ p.mfrac, ops.isNeg (ops.cast .f4 v) = false

/-- A result that can be stored: it belongs to one of the `n` slices and has its pixel data if it has
epochs. -/
structure GoodRes {V E : Type} (ops : PixelOps V) (n npix npixPsf nExtra : Nat) (r : SliceRes V E) :
    Prop where
  index : r.i < n
  pix : r.weights ≠ [] → ∃ p, r.pix = some p ∧ GoodPix ops npix npixPsf nExtra p

/-- The row of `object_data` of a slice after it has been processed. -/
def rowAfter {V E : Type} (npix npixPsf : Nat) (eff : List ℚ → ℚ) (old : RunRow) (r : SliceRes V E) :
    RunRow :=
  match r.weights, r.pix with
  | _ :: _, some p => ⟨1, r.weights.length, eff r.weights, p.psfSigma, r.i * npix, r.i * npixPsf⟩
  | _, _ => { old with nepoch := 0, nepochEff := 0 }

/-- What the file and the tables must be once the results in `done` have been processed:
every slice is stored in its own range, everything else is zero or as it was. -/
structure Holds {V E : Type} (ops : PixelOps V) (n npix npixPsf : Nat) (reserved : List (Hdu V))
    (rows0 : List RunRow) (done : List (SliceRes V E)) (o : Out V E) : Prop where
  shape : List.Forall₂ (fun a b : Hdu V =>
    a.name = b.name ∧ a.dtype = b.dtype ∧ a.dims = b.dims ∧ a.header = b.header) o.fits reserved
  stored : ∀ h ∈ o.fits, ∀ r ∈ done, r.weights ≠ [] → ∀ p, r.pix = some p → ∀ d, Provides p h.name d →
    ∀ k (hk : k < d.length), h.px (r.i * perSlice npix npixPsf h.name + k) = ops.cast h.dtype d[k]
  zero : ∀ h ∈ o.fits, ∀ k,
    (∀ r ∈ done, r.weights ≠ [] → k / perSlice npix npixPsf h.name = r.i →
      perSlice npix npixPsf h.name ≠ 0 → h.name = "seg_cutouts") → h.px k = ops.zero
  rowsLen : o.rows.length = rows0.length
  rowsDone : ∀ r ∈ done, ∀ old, rows0[r.i]? = some old →
    o.rows[r.i]? = some (rowAfter npix npixPsf nepochEff old r)
  rowsRest : ∀ i, (∀ r ∈ done, r.i ≠ i) → o.rows[i]? = rows0[i]?
  epochs : o.epochs = done.map (·.epochs)

end Pizza
