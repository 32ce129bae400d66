import Verif.Model.CliRun

/-!
`pizza_cutter/gsutils.py`: a galsim WCS from a dictionary of header entries.
-/

namespace Pizza
variable {V W : Type}

/-- One entry of the dictionary comprehension; a header comment has the key None (gsutils.py:21). -/
def gsStep (d : Dict V) (x : Option PyStr × V) : Dict V :=
  match x.1 with
  | some k => d.set (pyUpper k) x.2
  | none => d

/-- The header handed to galsim (gsutils.py:21).  The argument lists the entries of the dictionary in their order; all
keys are texts or None. -/
def gsHeader (d : List (Option PyStr × V)) : Dict V := d.foldl gsStep []

/-- `get_gs_fits_wcs_from_dict` (gsutils.py:4-24).  `fitsWcs` is `galsim.FitsWCS`, with the flag whether the object is
a `GSFitsWCS`. -/
def gsFitsWcs (fitsWcs : Dict V → Except Err (W × Bool)) (d : List (Option PyStr × V)) : Except Err W := do
  let w ← fitsWcs (gsHeader d)
  if w.2 then return w.1 else throw .assertionError

end Pizza
