import Verif.Model.Basic
import Verif.Model.CheckInfo

/-!
`load_objects_into_info` and `_munge_fits_header`
(pizza_cutter/des_pizza_cutter/_load_info.py:18-219).

The file formats are parameters: headers, WCS and PSF objects come from the `World`, whose functions may
raise.  Environment variables in paths are expanded by the `World`.  Messages and the work-around for
the pixmappy origin are left out.
-/

namespace Pizza

/-- A Python dictionary with string keys, in insertion order. -/
abbrev Dict (V : Type) := List (PyStr × V)

/-- `d[k] = v`: in place for a known key, else at the end. -/
def Dict.set {V : Type} : Dict V → PyStr → V → Dict V
  | [], k, v => [(k, v)]
  | (k', v') :: l, k, v => if k' = k then (k', v) :: l else (k', v') :: Dict.set l k v

/-- `d.get(k)`. -/
def Dict.get {V : Type} (d : Dict V) (k : PyStr) : Option V := (d.find? fun x => x.1 == k).map Prod.snd

/-- A header as read by fitsio: its keys, and the value of a key or an exception. -/
structure Header (V : Type) where
  keys : List PyStr
  value : PyStr → Except Err V

/-- `k.lower()` (ASCII). -/
def pyLower (k : PyStr) : PyStr := k.map Char.toLower

/-- One step of the loop (_load_info.py:214-218). -/
def mungeStep {V : Type} (h : Header V) (d : Dict V) (k : PyStr) : Dict V :=
  match h.value k with
  | .ok v => d.set (pyLower k) v
  | .error _ => d

/-- `_munge_fits_header` (_load_info.py:212-219). -/
def mungeHeader {V : Type} (h : Header V) : Dict V := h.keys.foldl (mungeStep h) []

/-- `if key in im_hdr: hdr[key] = im_hdr[key]` (_load_info.py:154-155). -/
def copyKey {V : Type} (im d : Dict V) (k : PyStr) : Dict V :=
  match im.get k with
  | some v => d.set k v
  | none => d

/-- The loop over the size keys (_load_info.py:153-155). -/
def mergeSizes {V : Type} (im hdr : Dict V) : Dict V :=
  ["naxis1".toList, "naxis2".toList, "znaxis1".toList, "znaxis2".toList].foldl (copyKey im) hdr

/-- What is read from files: headers, SCAMP heads, WCS objects, affine WCS, galsim objects (from
`BuildGSObject` and `ParseValue`, with the flag whether they can be used again), PSFEx and
Piff models (the last with their WCS and, if that is from pixmappy, again the WCS). -/
structure World (V W P A : Type) where
  readHeader : PyStr → PyStr → Except Err (Header V)
  readScamp : PyStr → Except Err (Header V)
  mkWcs : Dict V → Except Err W
  affine : A → Except Err W
  buildGs : A → Except Err (P × Bool)
  parseGs : A → Except Err (P × Bool)
  psfex : PyStr → Except Err P
  piff : PyStr → ℤ → Except Err (P × W × Option W)

/-- An entry of `src_info`: what is read, what is added (`none` for a missing key, `some none` for the
value None), and the rest. -/
structure LoadSrc (W P A R : Type) where
  path : Option PyStr
  filename : Option PyStr
  imagePath : Option PyStr
  imageExt : Option PyStr
  headPath : Option PyStr
  ccdnum : Option ℤ
  affineCfg : Option A
  galsimCfg : Option A
  psfexPath : Option (Option PyStr)
  piffPath : Option (Option PyStr)
  imageShape : Option (List ℤ)
  rest : R
  imageId : Option ℤ
  affineWcs : Option W
  galsimPsf : Option P
  imageWcs : Option (Option W)
  headWcs : Option (Option W)
  psfexPsf : Option (Option P)
  piffPsf : Option (Option P)
  piffWcs : Option (Option W)
  pixmappyWcs : Option (Option W)
  deriving DecidableEq

variable {V W P A R : Type}

/-- Reading the WCS of the image (_load_info.py:72-74, 129-132). -/
def imageWcsOf (w : World V W P A) (ii : LoadSrc W P A R) : Except Err W := do
  let p ← lookup ii.imagePath
  let e ← lookup ii.imageExt
  let h ← w.readHeader p e
  w.mkWcs (mungeHeader h)

/-- Reading the WCS of the head file (_load_info.py:145-157). -/
def headWcsOf (w : World V W P A) (ii : LoadSrc W P A R) : Except Err W := do
  let p ← lookup ii.imagePath
  let e ← lookup ii.imageExt
  let im ← w.readHeader p e
  let hp ← lookup ii.headPath
  let h ← w.readScamp hp
  w.mkWcs (mergeSizes (mungeHeader im) (mungeHeader h))

/-- `except Exception as e`: raise unless an affine WCS is configured, then None
(_load_info.py:75-84, 133-142, 158-167). -/
def orNone (ii : LoadSrc W P A R) (r : Except Err W) : Except Err (Option W) :=
  match r with
  | .ok x => .ok (some x)
  | .error e =>
    match ii.affineCfg with
    | none => .error e
    | some _ => .ok none

/-- The affine WCS (_load_info.py:86-87, 114-115). -/
def loadAffine (w : World V W P A) (ii : LoadSrc W P A R) : Except Err (LoadSrc W P A R) :=
  match ii.affineCfg with
  | none => .ok ii
  | some c => do
    let x ← w.affine c
    pure { ii with affineWcs := some x }

/-- `_build_gsobject` (_load_info.py:222-235): as an object, else as a value, else RuntimeError; an object that cannot
be used again is refused.  The configuration is copied before, so that it is not changed. -/
def buildGsobject (w : World V W P A) (c : A) : Except Err P := do
  let (psf, safe) ← match w.buildGs c with
    | .ok r => .ok r
    | .error _ =>
      match w.parseGs c with
      | .ok r => .ok r
      | .error _ => .error .runtimeError
  if safe = true then pure psf else .error .assertionError

/-- The galsim PSF (_load_info.py:117-118). -/
def loadGalsim (w : World V W P A) (ii : LoadSrc W P A R) : Except Err (LoadSrc W P A R) :=
  match ii.galsimCfg with
  | none => .ok ii
  | some c => do
    let x ← buildGsobject w c
    pure { ii with galsimPsf := some x }

/-- The PSFEx model (_load_info.py:170-177): errors give None. -/
def loadPsfex (w : World V W P A) (ii : LoadSrc W P A R) : LoadSrc W P A R :=
  match ii.psfexPath with
  | some (some p) => { ii with psfexPsf := some (w.psfex p).toOption }
  | _ => ii

/-- The Piff model (_load_info.py:180-207): any error, also a missing CCD, gives None for all. -/
def loadPiff (w : World V W P A) (ii : LoadSrc W P A R) : LoadSrc W P A R :=
  match ii.piffPath with
  | some (some p) =>
    match (lookup ii.ccdnum >>= fun c => w.piff p c) with
    | .ok (psf, wcs, pix) =>
      { ii with piffPsf := some (some psf), piffWcs := some (some wcs), pixmappyWcs := some pix }
    | .error _ => { ii with piffPsf := some none, piffWcs := some none, pixmappyWcs := some none }
  | _ => ii

/-- The part for `not skip_se` (_load_info.py:120-207): the message needs `path` and `filename`. -/
def loadProducts (w : World V W P A) (ii : LoadSrc W P A R) : Except Err (LoadSrc W P A R) := do
  let _ ← lookup ii.path
  let _ ← lookup ii.filename
  let a ← orNone ii (imageWcsOf w ii)
  let b ← orNone ii (headWcsOf w ii)
  pure (loadPiff w (loadPsfex w { ii with imageWcs := some a, headWcs := some b }))

/-- The body of the loop (_load_info.py:104-207). Lists and tuples of `image_shape` are not told
apart. -/
def loadOne (w : World V W P A) (skipSe : Bool) (index : Nat) (ii : LoadSrc W P A R) :
    Except Err (LoadSrc W P A R) := do
  let ii ← loadAffine w { ii with imageId := some ((index : ℤ) + 1) }
  let ii ← loadGalsim w ii
  if skipSe = true then pure ii else loadProducts w ii

/-- The loop (_load_info.py:104-207). -/
def loadLoop (w : World V W P A) (skipSe : Bool) :
    Nat → List (LoadSrc W P A R) → Except Err (List (LoadSrc W P A R))
  | _, [] => .ok []
  | i, ii :: l => do
    let jj ← loadOne w skipSe i ii
    let m ← loadLoop w skipSe (i + 1) l
    pure (jj :: m)

/-- The part for the coadd (_load_info.py:70-94); the coadd has the same kind of entries. -/
def loadCoadd (w : World V W P A) (c : LoadSrc W P A R) : Except Err (LoadSrc W P A R) := do
  let _ ← lookup c.path
  let _ ← lookup c.filename
  let a ← orNone c (imageWcsOf w c)
  let c ← loadAffine w { c with imageWcs := some a }
  pure { c with imageId := some 0 }

/-- `load_objects_into_info` (_load_info.py:18-209): the coadd entries and the sources.  When an
exception is raised, the entries that were already changed are not modelled. -/
def loadObjects (w : World V W P A) (skipSe : Bool) (c : LoadSrc W P A R) (l : List (LoadSrc W P A R)) :
    Except Err (LoadSrc W P A R × List (LoadSrc W P A R)) := do
  let c ← loadCoadd w c
  let l ← loadLoop w skipSe 0 l
  pure (c, l)

end Pizza
