import Verif.Model.Files

/-!
How `make_des_pizza_slices` writes, compresses and publishes its output
(pizza_cutter/des_pizza_cutter/_pizza_cutter.py:175-238).

The computation is a parameter: the content of the FITS file, or what is left of it and the exception.
So is `fpack`: its exit status and the file it leaves.  `meds` is the expanded path of the FITS file;
its compressed twin is assumed not to be a symbolic link, so that it expands to the same name with `.fz`.
Tile name and band are assumed to be in the info (lines 222-224).
-/

namespace Pizza
variable {D : Type}

/-- `path + '.fz'`. -/
def FPath.addFz (p : FPath) : FPath := p.dropLast ++ (p.getLast?.toList.map fun s => s ++ ".fz")

/-- `path[:-3]` for a path whose last component has at least 3 characters (_pizza_cutter.py:184). -/
def FPath.chop3 (p : FPath) : FPath :=
  p.dropLast ++ (p.getLast?.toList.map fun s => String.ofList (s.toList.take (s.toList.length - 3)))

/-- What the computation inside `with fitsio.FITS(...)` gives (_pizza_cutter.py:186-215): the content of
the closed file, and the exception if there is one. -/
structure Compute (D : Type) where
  content : D
  raised : Option Err

/-- A run of `fpack` (_pizza_cutter.py:228-231): success, and the `.fz` file it leaves. -/
structure Fpack (D : Type) where
  ok : Bool
  left : Option D

/-- Creating or overwriting a file, `clobber=True` (_pizza_cutter.py:186). -/
def writeFile (p : FPath) (x : D) : FM D Unit := do
  let fs ← FM.get
  if fs.dirs p.dir = true ∧ fs.dirs p = false then FM.put (fs.set p (some x)) else FM.raise .ioError

/-- `raise` if there is an exception. -/
def raiseIf (o : Option Err) : FM D Unit :=
  match o with
  | none => pure ()
  | some e => FM.raise e

/-- `try: os.remove(p) except FileNotFoundError: pass` (_pizza_cutter.py:218-221): a directory raises. -/
def removeIfPresent (p : FPath) : FM D Unit := do
  let fs ← FM.get
  if fs.exists p = true then osRemove p else pure ()

/-- `fpack` leaving its output. -/
def runFpack (p : FPath) (left : Option D) : FM D Unit := do
  let fs ← FM.get
  match left with
  | none => pure ()
  | some x => FM.put (fs.set p (some x))

/-- The body of the `with StagedOutFile` block (_pizza_cutter.py:184-234). -/
def publishBody (c : Compute D) (pk : Fpack D) (removeFits : Bool) (path : FPath) : FM D Unit := do
  writeFile path.chop3 c.content
  raiseIf c.raised
  removeIfPresent path.chop3.addFz
  runFpack path.chop3.addFz pk.left
  FM.cond (pk.ok && removeFits) (osRemove path.chop3) (pure ())

/-- `with`: the exit handler runs in any case, its exception replaces that of the body
(files.py:143-144). -/
def FM.always {α : Type} (m : FM D Unit) (fin : FM D α) : FM D Unit := fun fs =>
  ⟨(m fs).trace ++ (fin (m fs).fs).trace, (fin (m fs).fs).fs,
    match (fin (m fs).fs).out with
    | .error e => .error e
    | .ok _ => (m fs).out⟩

/-- `validate_meds` (_pizza_cutter.py:238): the file must exist and pass the checks. -/
def validateFile (valid : D → Bool) (p : FPath) : FM D Unit := do
  let fs ← FM.get
  match fs.files p with
  | none => FM.raise .ioError
  | some x => if valid x = true then pure () else FM.raise .runtimeError

/-- `make_des_pizza_slices` from line 175 on (_pizza_cutter.py:175-238). -/
def publishRun (env : FsEnv D) (meds : FPath) (tmpdir : Option FPath) (c : Compute D) (pk : Fpack D)
    (removeFits : Bool) (valid : D → Bool) : FM D Unit := do
  makedirFromfile env meds
  let s ← StagedOut.init env meds.addFz tmpdir false
  FM.always (publishBody c pk removeFits s.path) (s.stageOut env)
  validateFile valid meds.addFz

end Pizza
