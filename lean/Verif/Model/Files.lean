import Verif.Model.Basic

/-!
Staging files in and out (pizza_cutter/files.py).

Paths are what `expandpath` returns (files.py:29-36): absolute and without symbolic links, so a path is
the list of its components.  A file has content of an abstract type `D`.  Every system call that changes
the file system adds the state it leaves to the trace, so the trace has all states that a crash can
leave behind.  No other process is active during a call.
-/

namespace Pizza

/-- An absolute path without `.`, `..` and links (files.py:29-36); `[]` is the root. -/
abbrev FPath := List String

/-- `os.path.dirname` of such a path. -/
def FPath.dir (p : FPath) : FPath := p.dropLast

/-- `os.path.basename` of such a path; the root has the empty name. -/
def FPath.base (p : FPath) : FPath := p.getLast?.toList

/-- `os.path.join(d, os.path.basename(p))`. -/
def FPath.join (d b : FPath) : FPath := d ++ b

/-- A file system: regular files and directories. -/
structure FS (D : Type) where
  files : FPath → Option D
  dirs : FPath → Bool

/-- What the file system allows in a run: whether a directory may be made, whether a rename works (same
device), the contents that a reader may see of a file while it is being copied, and whether a copy
runs to its end. -/
structure FsEnv (D : Type) where
  mayMake : FPath → Bool
  sameDevice : FPath → FPath → Bool
  partials : D → List D
  copyOk : FPath → FPath → Bool

/-- A file operation: all states it goes through, the state it leaves, the value or exception. -/
structure FRes (D α : Type) where
  trace : List (FS D)
  fs : FS D
  out : Except Err α

/-- Programs acting on the file system. -/
def FM (D α : Type) := FS D → FRes D α

instance {D : Type} : Monad (FM D) where
  pure a := fun fs => ⟨[], fs, .ok a⟩
  bind m f := fun fs =>
    match (m fs).out with
    | .error e => ⟨(m fs).trace, (m fs).fs, .error e⟩
    | .ok a => ⟨(m fs).trace ++ (f a (m fs).fs).trace, (f a (m fs).fs).fs, (f a (m fs).fs).out⟩

namespace FM
variable {D : Type}

/-- `raise`. -/
def raise {α : Type} (e : Err) : FM D α := fun fs => ⟨[], fs, .error e⟩

/-- A system call that succeeds and leaves the given state. -/
def put (fs' : FS D) : FM D Unit := fun _ => ⟨[fs'], fs', .ok ()⟩

/-- Look at the state. -/
def get : FM D (FS D) := fun fs => ⟨[], fs, .ok fs⟩

/-- `if c: m else: m'` as a statement. -/
def cond (c : Bool) (m m' : FM D Unit) : FM D Unit := if c = true then m else m'

/-- `try: m except Exception: pass` (files.py:48-53). -/
def swallow (m : FM D Unit) : FM D Unit := fun fs => ⟨(m fs).trace, (m fs).fs, .ok ()⟩

end FM

variable {D : Type}

/-- `os.path.exists` (files.py:47,101,121,128,207,210,222). -/
def FS.exists (fs : FS D) (p : FPath) : Bool := (fs.files p).isSome || fs.dirs p

/-- The state with a file replaced, made or (`none`) removed. -/
def FS.set (fs : FS D) (p : FPath) (d : Option D) : FS D :=
  { fs with files := fun q => if q = p then d else fs.files q }

/-- `os.remove` (files.py:130,212,224): only for files. -/
def osRemove (p : FPath) : FM D Unit := do
  let fs ← FM.get
  if (fs.files p).isSome then FM.put (fs.set p none) else FM.raise .ioError

/-- `os.makedirs` (files.py:50,102): makes all missing directories above too; fails if the path exists,
if a file is in the way, or if not allowed. -/
def osMakedirs (env : FsEnv D) (d : FPath) : FM D Unit := do
  let fs ← FM.get
  if fs.exists d = true ∨ (d.inits.any fun q => (fs.files q).isSome) = true ∨ env.mayMake d = false then
    FM.raise .ioError
  else FM.put { fs with dirs := fun q => fs.dirs q || decide (q <+: d) }

/-- `try_makedir` (files.py:45-53). -/
def tryMakedir (env : FsEnv D) (d : FPath) : FM D Unit := do
  let fs ← FM.get
  if fs.exists d = true then pure () else FM.swallow (osMakedirs env d)

/-- `makedir_fromfile` (files.py:39-42). -/
def makedirFromfile (env : FsEnv D) (p : FPath) : FM D Unit := tryMakedir env p.dir

/-- Writing a file at `p` piece by piece. -/
def writeAt (p : FPath) : List D → FM D Unit
  | [] => pure ()
  | x :: l => do
    let fs ← FM.get
    FM.put (fs.set p (some x))
    writeAt p l

/-- `shutil.copy` and the copy inside `shutil.move` to a path that is not a directory
(files.py:136,217): FileNotFoundError without source or destination directory; a copy that fails (no
space) leaves a partial file. -/
def shCopy (env : FsEnv D) (src dst : FPath) : FM D Unit := do
  let fs ← FM.get
  match fs.files src with
  | none => FM.raise .ioError
  | some d =>
    if fs.dirs dst.dir = true then do
      writeAt dst (env.partials d)
      FM.cond (env.copyOk src dst) (writeAt dst [d]) (FM.raise .ioError)
    else FM.raise .ioError

/-- The part of `shutil.move` after the destination is known: rename, or copy and remove if the rename
fails.  Moving a directory is not modelled (an exception here). -/
def shMoveTo (env : FsEnv D) (src dst : FPath) : FM D Unit := do
  let fs ← FM.get
  match fs.files src with
  | none => FM.raise .ioError
  | some d =>
    if env.sameDevice src dst = true ∧ fs.dirs dst.dir = true ∧ fs.dirs dst = false then
      FM.put ((fs.set src none).set dst (some d))
    else do
      shCopy env src dst
      osRemove src

/-- `shutil.move` (files.py:136): into `dst` if that is a directory (error if there is such an entry
already), else to `dst`. -/
def shMove (env : FsEnv D) (src dst : FPath) : FM D Unit := do
  let fs ← FM.get
  if fs.dirs dst = true then
    if fs.exists (dst.join src.base) = true then FM.raise .ioError else shMoveTo env src (dst.join src.base)
  else shMoveTo env src dst

/-! ### StagedOutFile -/

/-- A `StagedOutFile` (files.py:56-112). -/
structure StagedOut where
  finalPath : FPath
  path : FPath
  isTemp : Bool
  mustExist : Bool
  wasStagedOut : Bool
  deriving DecidableEq

/-- `StagedOutFile.__init__` and `_set_paths` (files.py:80-112), with the expanded paths. -/
def StagedOut.init (env : FsEnv D) (fname : FPath) (tmpdir : Option FPath) (mustExist : Bool) :
    FM D StagedOut :=
  match tmpdir with
  | none => pure ⟨fname, fname, false, mustExist, false⟩
  | some t => do
    let fs ← FM.get
    FM.cond (fs.exists t) (pure ()) (osMakedirs env t)
    pure ⟨fname, t.join fname.base, decide (t ≠ fname.dir), mustExist, false⟩

/-- The lines of `stage_out` that act on files (files.py:128-136). -/
def StagedOut.publish (env : FsEnv D) (s : StagedOut) : FM D Unit := do
  let fs ← FM.get
  FM.cond (fs.exists s.finalPath) (osRemove s.finalPath) (pure ())
  makedirFromfile env s.finalPath
  shMove env s.path s.finalPath

/-- `StagedOutFile.stage_out` (files.py:114-138), also `__exit__` (files.py:143-144).  The result is the
object afterwards; it is unchanged when an exception is raised. -/
def StagedOut.stageOut (env : FsEnv D) (s : StagedOut) : FM D StagedOut := do
  let fs ← FM.get
  if s.isTemp = true ∧ s.wasStagedOut = false then
    if fs.exists s.path = true then do
      s.publish env
      pure { s with wasStagedOut := true }
    else if s.mustExist = true then FM.raise .ioError
    else pure s
  else pure { s with wasStagedOut := true }

/-! ### StagedInFile -/

/-- A `StagedInFile` (files.py:147-198). -/
structure StagedIn where
  originalPath : FPath
  path : FPath
  doStage : Bool
  wasStagedIn : Bool
  deriving DecidableEq

/-- `StagedInFile._set_paths` (files.py:174-198). -/
def StagedIn.setPaths (fname : FPath) (tmpdir : Option FPath) : StagedIn :=
  match tmpdir with
  | none => ⟨fname, fname, false, false⟩
  | some t => ⟨fname, t.join fname.base, decide (t ≠ fname.dir), false⟩

/-- `StagedInFile.stage_in` (files.py:200-219). -/
def StagedIn.stageIn (env : FsEnv D) (s : StagedIn) : FM D StagedIn := do
  let fs ← FM.get
  if s.doStage = true then
    if fs.exists s.originalPath = true then do
      FM.cond (fs.exists s.path) (osRemove s.path) (makedirFromfile env s.path)
      shCopy env s.originalPath s.path
      pure { s with wasStagedIn := true }
    else FM.raise .ioError
  else pure s

/-- `StagedInFile.__init__` (files.py:169-172). -/
def StagedIn.init (env : FsEnv D) (fname : FPath) (tmpdir : Option FPath) : FM D StagedIn :=
  (StagedIn.setPaths fname tmpdir).stageIn env

/-- `StagedInFile.cleanup` (files.py:221-225), also `__exit__` (files.py:230-231). -/
def StagedIn.cleanup (s : StagedIn) : FM D StagedIn := do
  let fs ← FM.get
  if s.wasStagedIn = true ∧ fs.exists s.path = true then do
    osRemove s.path
    pure { s with wasStagedIn := false }
  else pure s

end Pizza
