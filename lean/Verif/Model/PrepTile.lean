import Verif.Model.DesTile
import Verif.Model.CliRun
import Verif.Model.Cli

/-!
The command line program `bin/des-pizza-cutter-prep-tile`, with `get_gaia_path` and `download_archive_file`
(pizza_cutter/des_pizza_cutter/_des_info.py:413-488) and `get_des_info_file` (pizza_cutter/files.py:8-26).

What desmeds does is a parameter: the directory of a tile, the download of the images, the removal of the
source files, the description it makes.  So are the tables of the data base and the file archive.  The
messages that are printed are not modelled.  Everything that can raise before the first query (the log
level, reading the configuration and its keys, the objects of desmeds, lines 52-90) is one parameter.
Paths are absolute, without `.`, `..`, links and variables; for the shell command of the download they are
assumed to be single words.
-/

namespace Pizza

/-- `s like pattern` of SQL without escape character: `%` is any text, `_` any character. -/
def sqlLike : PyStr → PyStr → Bool
  | [], [] => true
  | [], _ :: _ => false
  | '%' :: p, [] => sqlLike p []
  | '%' :: p, c :: s => sqlLike p (c :: s) || sqlLike ('%' :: p) s
  | _ :: _, [] => false
  | a :: p, c :: s => (a == '_' || a == c) && sqlLike p s
  termination_by p s => p.length + s.length

/-- A row of `desfile d, file_archive_info fai where d.filename = fai.filename` (_des_info.py:434-441). -/
structure ArchiveRow where
  filetype : PyStr
  path : PyStr
  filename : PyStr

/-- `get_gaia_path` (_des_info.py:413-446). -/
def getGaiaPath (table : List ArchiveRow) (tilename version : PyStr) : Except Err PyStr :=
  match table.filter fun r => r.filetype == "cat_tile_gaia".toList &&
      sqlLike (tilename ++ '%' :: version ++ ".fits".toList) r.filename with
  | [] => .error .runtimeError
  | r :: _ => .ok (pyJoin r.path r.filename)

/-- `s.split('/')`. -/
def splitSlash : PyStr → List PyStr
  | [] => [[]]
  | c :: l =>
    if c = '/' then [] :: splitSlash l
    else
      match splitSlash l with
      | [] => [[c]]
      | a :: t => (c :: a) :: t

/-- An absolute path as the list of its components (empty ones do not count). -/
def splitPath (s : PyStr) : FPath := ((splitSlash s).filter (· ≠ [])).map String.ofList

/-- `os.path.dirname` of a path: what comes before the last slash (a trailing slash of the result has no
effect on its components). -/
def pyDirname (p : PyStr) : PyStr := (p.reverse.dropWhile (· ≠ '/')).reverse

/-- The exception or value of a computation that does not act on files. -/
def FM.lift {D α : Type} (x : Except Err α) : FM D α := fun fs => ⟨[], fs, x⟩

/-- `os.makedirs(d, exist_ok=True)` (_des_info.py:470). -/
def osMakedirsOk {D : Type} (env : FsEnv D) (d : FPath) : FM D Unit := do
  let fs ← FM.get
  FM.cond (fs.dirs d) (pure ()) (osMakedirs env d)

/-- A file written by another program or through an open file: the directory must exist; the contents it
goes through; whether it ends well. -/
def writeSlow {D : Type} (env : FsEnv D) (p : FPath) (d : D) (ok : Bool) : FM D Unit := do
  let fs ← FM.get
  if fs.dirs p.dir = true ∧ fs.dirs p = false then do
    writeAt p (env.partials d)
    FM.cond ok (writeAt p [d]) (FM.raise .ioError)
  else FM.raise .ioError

/-- `download_archive_file` (_des_info.py:449-488): `archive` has the contents of the files of the archive,
`netOk` says whether rsync ends without error. -/
def downloadArchiveFile {D : Type} (env : FsEnv D) (archive : PyStr → Option D) (netOk : Bool)
    (archivePath sourceDir : PyStr) : FM D Unit := do
  osMakedirsOk env (splitPath (pyDirname (pyJoin sourceDir archivePath)))
  match archive archivePath with
  | none => FM.raise .runtimeError
  | some d => writeSlow env (splitPath (sourceDir ++ '/' :: archivePath)) d netOk

/-- `get_des_info_file` (files.py:8-26); `medsDir` is `os.environ['MEDS_DIR']`. -/
def getDesInfoFile (medsDir medsconf tilename band : PyStr) : PyStr :=
  pyJoin (pyJoin (pyJoin medsDir medsconf) "pizza_cutter_info".toList)
    (tilename ++ '_' :: band ++ "_pizza_cutter_info.yaml".toList)

/-- What a run of the program depends on. -/
structure Prep (A D : Type) where
  tilename : PyStr
  band : PyStr
  /-- `--config` -/
  config : PyStr
  /-- `--clean` -/
  clean : Bool
  /-- the exception raised in lines 52-90, if any -/
  pre : Option Err
  /-- `os.environ['MEDS_DIR']` -/
  medsDir : PyStr
  /-- `desmeds.files.get_meds_dir` -/
  tileDir : PyStr → PyStr → PyStr
  /-- `cfg["des_data"]["piff_campaign"]` -/
  piffCampaign : Option PyStr
  table : List ArchiveRow
  archive : PyStr → Option D
  netOk : Bool
  /-- `coadd.clean()` -/
  cleanUp : FM D Unit
  /-- `coadd.download()` -/
  download : FM D Unit
  /-- `coadd.get_info()`, the coadd and its sources -/
  getInfo : Except Err (TDict A × List (TDict A))
  db : TileDb A
  /-- `yaml.dump`, and whether it ends without error -/
  dump : TDict A × List (TDict A) → D
  dumpOk : Bool

variable {A D : Type}

/-- `medsconf` (bin/des-pizza-cutter-prep-tile:65). -/
def Prep.medsconf (p : Prep A D) : PyStr := removeYaml (pyBasename p.config)

/-- `source_dir` (bin/des-pizza-cutter-prep-tile:68-71). -/
def Prep.sourceDir (p : Prep A D) : PyStr :=
  pyJoin (p.tileDir p.medsconf p.tilename) ("sources-".toList ++ p.band)

/-- `output_path` (bin/des-pizza-cutter-prep-tile:115-119). -/
def Prep.output (p : Prep A D) : PyStr := getDesInfoFile p.medsDir p.medsconf p.tilename p.band

/-- A value of a dict as a path: text or None. -/
def viewPath (v : Option (TVal A)) : Option (Option PyStr) :=
  match v with
  | some (.str s) => some (some s)
  | some .none => some none
  | _ => none

/-- A value of a dict as text. -/
def viewStr (v : Option (TVal A)) : Option PyStr :=
  match v with
  | some (.str s) => some s
  | _ => none

/-- A value of a dict as a natural number. -/
def viewNat (v : Option (TVal A)) : Option Nat :=
  match v with
  | some (.nat n) => some n
  | _ => none

/-- What `check_info` sees of a source (_des_info.py:228-301). -/
def checkSrcView (d : TDict A) : CheckSrc :=
  { paths := fun k => viewPath (d k), band := viewStr (d "band"), tilename := viewStr (d "tilename"),
    expnum := viewNat (d "expnum"), ccdnum := viewNat (d "ccdnum") }

open Classical in
/-- What `check_info` sees of the description (_des_info.py:194-313); of the scale it matters only whether
it is one. -/
noncomputable def checkView (d : TDict A) (src : List (TDict A)) : CheckInfo :=
  { paths := fun k => viewPath (d k)
    scale := match d "scale" with
      | some (.num x) => if x = 1 then some 1 else some 0
      | some (.nat n) => some n
      | _ => none
    band := viewStr (d "band")
    srcs := src.map checkSrcView }

/-- The values that `check_info` looks at have the modelled types, or are missing.  Others: simplified to
an exception (bin/des-pizza-cutter-prep-tile:112). -/
def typedDict (paths strs nats : List String) (d : TDict A) : Bool :=
  (paths.all fun k => (d k).isNone || (viewPath (d k)).isSome) &&
  (strs.all fun k => (d k).isNone || (viewStr (d k)).isSome) &&
  (nats.all fun k => (d k).isNone || (viewNat (d k)).isSome)

/-- `check_info(info=info)` (bin/des-pizza-cutter-prep-tile:112). -/
noncomputable def checkDescription (d : TDict A) (src : List (TDict A)) : Except Err Unit :=
  if (typedDict (coaddKeys ++ ["cat_path"]) ["band"] [] d &&
      src.all (typedDict (seKeys ++ ["head_path"]) ["band", "tilename"] ["expnum", "ccdnum"])) = true then
    checkInfo (checkView d src)
  else .error .typeError

/-- `cfg["des_data"]["piff_campaign"].upper()` (bin/des-pizza-cutter-prep-tile:108). -/
def campaignUpper (c : Option PyStr) : Except Err PyStr :=
  match c with
  | none => .error .attributeError
  | some s => .ok (pyUpper s)

/-- The description of the tile (bin/des-pizza-cutter-prep-tile:103-113). -/
noncomputable def prepInfo (p : Prep A D) (gaia : PyStr) : Except Err (TDict A × List (TDict A)) := do
  let i ← p.getInfo
  let info := i.1.put "gaia_stars_file" (.str (pyJoin p.sourceDir gaia))
  let camp ← campaignUpper p.piffCampaign
  let d ← addExtraTileInfo p.db (some camp) info i.2
  checkDescription d.1 d.2
  pure d

/-- The end of the program (bin/des-pizza-cutter-prep-tile:115-124). -/
def dumpInfo (env : FsEnv D) (p : Prep A D) (d : TDict A × List (TDict A)) : FM D Unit := do
  makedirFromfile env (splitPath p.output)
  writeSlow env (splitPath p.output) (p.dump d) p.dumpOk

/-- The part of the program for a run without `--clean` (bin/des-pizza-cutter-prep-tile:99-124). -/
noncomputable def prepMake (env : FsEnv D) (p : Prep A D) (gaia : PyStr) : FM D Unit := do
  downloadArchiveFile env p.archive p.netOk gaia p.sourceDir
  p.download
  let d ← FM.lift (prepInfo p gaia)
  dumpInfo env p d

/-- `main` (bin/des-pizza-cutter-prep-tile:48-124). -/
noncomputable def prepTile (env : FsEnv D) (p : Prep A D) : FM D Unit := do
  raiseIf p.pre
  let gaia ← FM.lift (getGaiaPath p.table p.tilename "v1".toList)
  if p.clean = true then p.cleanUp else prepMake env p gaia

end Pizza
