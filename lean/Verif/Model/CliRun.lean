import Verif.Model.Publish
import Verif.Model.LoadInfo

/-!
The temporary directory and the options of the command line program `bin/des-pizza-cutter`.

What `go` does before `make_des_pizza_slices` (lines 23-72: reading the configuration and the description,
checks, the output name) changes no file; it is a parameter, the exception it raises if any.  The path
`meds` is the expanded output name (`Model/Cli.medsPath`).
-/

namespace Pizza
variable {D : Type}

/-- `str.upper` on ASCII text. -/
def pyUpper (k : PyStr) : PyStr := k.map Char.toUpper

/-- The value of `remove_fits_file` (bin/des-pizza-cutter:89-93). -/
def cliRemoveFits (logLevel : PyStr) (tmpdir : Option FPath) : Bool :=
  if pyUpper logLevel = "DEBUG".toList ∧ tmpdir = none then false else true

/-- `go` (bin/des-pizza-cutter:19-94): `pre` is the exception raised before `make_des_pizza_slices`. -/
def cliGo (env : FsEnv D) (meds : FPath) (logLevel : PyStr) (pre : Option Err) (c : Compute D)
    (pk : Fpack D) (valid : D → Bool) (tmpdir : Option FPath) : FM D Unit := do
  raiseIf pre
  publishRun env meds tmpdir c pk (cliRemoveFits logLevel tmpdir) valid

/-- `shutil.rmtree`: everything at and below the path is removed (the single removals are not modelled as
states of their own). -/
def rmTree (t : FPath) : FM D Unit := do
  let fs ← FM.get
  FM.put ⟨fun q => if t <+: q then none else fs.files q, fun q => if t <+: q then false else fs.dirs q⟩

/-- `with tempfile.TemporaryDirectory(dir=parent) as t: m(t)`: a new directory in `parent`, which must be
a directory, removed with its contents in any case.  `name` is the name chosen by `mkdtemp`, which tries
names until one is free. -/
def withTempDir (parent : FPath) (name : String) (m : FPath → FM D Unit) : FM D Unit := do
  let fs ← FM.get
  if fs.dirs parent = true ∧ fs.exists (parent ++ [name]) = false then do
    FM.put { fs with dirs := fun q => fs.dirs q || decide (q = parent ++ [name]) }
    FM.always (m (parent ++ [name])) (rmTree (parent ++ [name]))
  else FM.raise .ioError

/-- `main` (bin/des-pizza-cutter:154-172): `dflt` is the directory for temporary files of the system
(`tempfile.gettempdir()`). -/
def cliMain (env : FsEnv D) (meds : FPath) (logLevel : PyStr) (useTmp : Bool) (tmpdir : Option FPath)
    (dflt : FPath) (name : String) (pre : Option Err) (c : Compute D) (pk : Fpack D)
    (valid : D → Bool) : FM D Unit :=
  if useTmp = true ∨ tmpdir.isSome = true then
    withTempDir (tmpdir.getD dflt) name fun t => cliGo env meds logLevel pre c pk valid (some t)
  else cliGo env meds logLevel pre c pk valid none

end Pizza
