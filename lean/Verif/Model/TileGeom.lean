import Verif.Model.PrepTile

/-!
`make_coaddtile_geom_fits` (pizza_cutter/des_pizza_cutter/_des_info.py:316-349): the geometry of a tile is
asked for with the program easyaccess in a temporary directory and the answer is copied by a shell.

easyaccess is a parameter.  Of the shell, the splitting of a line of ordinary characters at blanks is
modelled, and of the commands `cp` without options; any other line is a parameter too.
-/

namespace Pizza

/-- A character that stands for itself in a word of a shell (POSIX shell, quoting and token recognition);
some other characters do too. -/
def shPlain (c : Char) : Bool := c.isAlphanum || ['/', '.', '_', '-', '+', ':', ',', '@'].contains c

/-- Pieces of a line between blanks, with empty ones. -/
def splitBlank : PyStr → List PyStr
  | [] => [[]]
  | c :: l =>
    if c = ' ' then [] :: splitBlank l
    else
      match splitBlank l with
      | [] => [[c]]
      | a :: t => (c :: a) :: t

/-- The words of a line made of ordinary characters and blanks; `none` for any other line. -/
def shWords (s : PyStr) : Option (List PyStr) :=
  if s.all (fun c => shPlain c || c == ' ') then some ((splitBlank s).filter (· ≠ [])) else none

/-- A path in a command, seen from the working directory. -/
def shPath (cwd : FPath) (w : PyStr) : FPath :=
  if w.head? = some '/' then splitPath w else cwd ++ splitPath w

variable {D : Type}

/-- The exit status of a step that may fail: `true` is success. -/
def FM.status (m : FM D Unit) : FM D Bool := fun fs =>
  ⟨(m fs).trace, (m fs).fs, .ok (match (m fs).out with | .ok _ => true | .error _ => false)⟩

/-- `cp f… d` for a directory `d`: each file is copied into it; the status is failure if any copy failed. -/
def cpInto (env : FsEnv D) (dst : FPath) : List FPath → FM D Bool
  | [] => pure true
  | f :: l => do
    let fs ← FM.get
    let ok ← FM.status (if fs.dirs (dst.join f.base) = true then FM.raise .ioError
      else shCopy env f (dst.join f.base))
    let oks ← cpInto env dst l
    pure (ok && oks)

/-- `cp` without options: into a directory, else one file to a path that does not end in a slash. -/
def shCp (env : FsEnv D) (cwd : FPath) (srcs : List PyStr) (dst : PyStr) : FM D Bool := do
  let fs ← FM.get
  if fs.dirs (shPath cwd dst) = true then cpInto env (shPath cwd dst) (srcs.map (shPath cwd))
  else
    match srcs with
    | [src] =>
      if dst.getLast? = some '/' then pure false
      else FM.status (shCopy env (shPath cwd src) (shPath cwd dst))
    | _ => pure false

/-- `subprocess.run(line, shell=True)`: the exit status. -/
def runShell (env : FsEnv D) (other : PyStr → FM D Bool) (cwd : FPath) (line : PyStr) : FM D Bool :=
  match shWords line with
  | some (c :: a :: b :: l) =>
    if c = "cp".toList ∧ ((a :: b :: l).all fun w => w.head? ≠ some '-') = true then
      shCp env cwd ((a :: b :: l).dropLast) ((b :: l).getLast (by simp))
    else other line
  | _ => other line

/-- The query (_des_info.py:327-337), in a formatted string. -/
def geomQuery (tilename tmpdir : PyStr) : PyStr :=
  "\nSELECT ID, PIXELSCALE, NAXIS1, NAXIS2,\n    RA_CENT, DEC_CENT,\n    RA_SIZE,DEC_SIZE,\n    RAC1, RAC2, RAC3, RAC4,\n    DECC1, DECC2, DECC3, DECC4,\n    RACMIN,RACMAX,DECCMIN,DECCMAX,\n    CROSSRA0\nFROM coaddtile_geom\n    WHERE tilename='".toList
    ++ tilename ++ "';>".toList ++ tmpdir ++ "/ctg.fits\n".toList

/-- What the call depends on: the temporary directory that will be made, the working directory, the
program easyaccess as a step in a directory with its exit status (_des_info.py:338-343), the shell
commands that are not modelled, the bytes of a text. -/
structure GeomEnv (D : Type) where
  env : FsEnv D
  tmpdir : PyStr
  cwd : FPath
  easyaccess : FPath → FM D Bool
  other : PyStr → FM D Bool
  text : PyStr → D

/-- Removal of a directory with everything in it. -/
def removeTree (p : FPath) : FM D Unit := do
  let fs ← FM.get
  FM.put ⟨fun q => if p <+: q then none else fs.files q, fun q => !(decide (p <+: q)) && fs.dirs q⟩

/-- `try: m finally: c`, where `c` does not fail. -/
def FM.afterwards (m c : FM D Unit) : FM D Unit := fun fs =>
  ⟨(m fs).trace ++ (c (m fs).fs).trace, (c (m fs).fs).fs, (m fs).out⟩

/-- `with tempfile.TemporaryDirectory() as tmpdir: m` (_des_info.py:325): the directory is made, and removed
in the end, also after an exception.  Making and removing it does not fail here. -/
def inTempDir (p : FPath) (m : FM D Unit) : FM D Unit := do
  let fs ← FM.get
  FM.put { fs with dirs := fun q => decide (q = p) || fs.dirs q }
  FM.afterwards m (removeTree p)

/-- `check=True`: CalledProcessError for a status other than success (here a RuntimeError). -/
def checked (m : FM D Bool) : FM D Unit := do
  let ok ← m
  FM.cond ok (pure ()) (FM.raise .runtimeError)

/-- `make_coaddtile_geom_fits` (_des_info.py:316-349). -/
def makeCoaddtileGeomFits (g : GeomEnv D) (tilename ofile : PyStr) : FM D Unit :=
  inTempDir (splitPath g.tmpdir) do
    writeAt (splitPath (pyJoin g.tmpdir "sql.txt".toList)) [g.text (geomQuery tilename g.tmpdir)]
    checked (g.easyaccess (splitPath g.tmpdir))
    checked (runShell g.env g.other g.cwd
      ("cp ".toList ++ g.tmpdir ++ "/ctg.fits ".toList ++ ofile))

end Pizza
