import Verif.Model.TileGeom
import Verif.Spec.PrepTile

/-! What is asked of `make_coaddtile_geom_fits`. -/

namespace Pizza
variable {D : Type}

/-- A step that leaves everything outside a directory alone, at all times. -/
def OnlyUnder {α : Type} (T : FPath) (m : FM D α) : Prop :=
  ∀ fs, (∀ st ∈ (m fs).fs :: (m fs).trace, ∀ q, ¬ T <+: q → st.files q = fs.files q ∧ st.dirs q = fs.dirs q)

/-- A word names a path seen from a directory: an absolute path or one below the directory. -/
def NamesPath (cwd : FPath) (w : PyStr) (p : FPath) : Prop :=
  p ≠ [] ∧ (PlainPath p ∧ w = pathText p ∨ ∃ r, r ≠ [] ∧ PlainPath r ∧ '/' :: w = pathText r ∧ p = cwd ++ r)

/-- Characters without a meaning to the shell: letters, digits and a few more. -/
def Ordinary (w : PyStr) : Prop :=
  ∀ c ∈ w, c.isAlphanum = true ∨ c = '/' ∨ c = '.' ∨ c = '_' ∨ c = '-' ∨ c = '+' ∨ c = ':' ∨ c = ',' ∨ c = '@'

/-- One word for the shell that is not an option. -/
def OneWord (w : PyStr) : Prop := w ≠ [] ∧ Ordinary w ∧ w.head? ≠ some '-'

/-- The temporary directory is new, has a name of ordinary characters, and easyaccess works in it only. -/
structure GeomEnv.Sound (g : GeomEnv D) (fs : FS D) (T : FPath) : Prop where
  root : T ≠ []
  plain : PlainPath T
  text : g.tmpdir = pathText T
  ordinary : Ordinary g.tmpdir
  newFiles : ∀ q, T <+: q → fs.files q = none
  newDirs : ∀ q, T <+: q → fs.dirs q = false
  only : OnlyUnder T (g.easyaccess T)
  ends : ∀ st, ∃ ok, (g.easyaccess T st).out = .ok ok

/-- The query for a tile: the columns, the table, the tile by its name, the file for the answer. -/
def IsGeomQuery (tilename : PyStr) (T : FPath) (s : PyStr) : Prop :=
  ∃ a, s = a ++ "\nFROM coaddtile_geom\n    WHERE tilename='".toList ++ tilename ++ "';>".toList ++
      pathText T ++ "/ctg.fits\n".toList ∧
    a.filter (fun c => c ≠ ' ' ∧ c ≠ '\n') = ("SELECTID,PIXELSCALE,NAXIS1,NAXIS2,RA_CENT,DEC_CENT,RA_SIZE,DEC_SIZE," ++
      "RAC1,RAC2,RAC3,RAC4,DECC1,DECC2,DECC3,DECC4,RACMIN,RACMAX,DECCMIN,DECCMAX,CROSSRA0").toList

/-- What easyaccess is started on: the files there were, and the query in the new directory. -/
def GeomStart (g : GeomEnv D) (fs : FS D) (T : FPath) (tilename : PyStr) (st : FS D) : Prop :=
  (∃ s, IsGeomQuery tilename T s ∧ st.files (T ++ ["sql.txt"]) = some (g.text s)) ∧
  (∀ q, q ≠ T ++ ["sql.txt"] → st.files q = fs.files q) ∧
  ∀ q, st.dirs q = true ↔ q = T ∨ fs.dirs q = true

/-- The same files and directories. -/
def SameFs (a b : FS D) : Prop := (∀ q, a.files q = b.files q) ∧ ∀ q, a.dirs q = b.dirs q

end Pizza
