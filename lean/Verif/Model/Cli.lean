import Verif.Model.CheckInfo
import Verif.Model.SliceRange

/-!
The name of the output file (bin/des-pizza-cutter:48-73) and `addLoggingLevel`
(pizza_cutter/__init__.py:15-63).
-/

namespace Pizza

/-- `"%04d" % n`: the sign counts for the width (bin/des-pizza-cutter:59). -/
def pad4 (n : ℤ) : PyStr := if n < 0 then '-' :: decimalPad 3 n.natAbs else decimalPad 4 n.natAbs

/-- `s.replace('.yaml', '')` (bin/des-pizza-cutter:62). -/
def removeYaml : PyStr → PyStr
  | '.' :: 'y' :: 'a' :: 'm' :: 'l' :: l => removeYaml l
  | c :: l => c :: removeYaml l
  | [] => []

/-- `os.path.join(a, b)`. -/
def pyJoin (a b : PyStr) : PyStr :=
  if pyStartsWith b ['/'] = true then b
  else if a = [] ∨ pyEndsWith a ['/'] = true then a ++ b
  else a ++ '/' :: b

/-- `rend` (bin/des-pizza-cutter:54-61). -/
def rangeEnd (sliceRange : Option PyStr) : Except Err PyStr :=
  match sliceRange with
  | none => .ok []
  | some s =>
    match splitColon s with
    | [a, b] => do
      let start ← pyInt a
      let stop ← pyInt b
      pure ("-range".toList ++ pad4 start ++ '-' :: pad4 stop)
    | _ => .error .assertionError

/-- `sname` (bin/des-pizza-cutter:62-64). -/
def shortName (config : PyStr) (tag : Option PyStr) : PyStr :=
  match tag with
  | none => removeYaml (pyBasename config)
  | some t => removeYaml (pyBasename config) ++ '-' :: t

/-- The options and the entries of the info that the name depends on. -/
structure NameArgs where
  output : PyStr
  config : PyStr
  tag : Option PyStr
  sliceRange : Option PyStr
  tilename : PyStr
  band : PyStr

/-- `meds_path` (bin/des-pizza-cutter:48-73). -/
def medsPath (a : NameArgs) : Except Err PyStr :=
  if pyEndsWith a.output ".fits".toList = true then .ok a.output
  else if pyEndsWith a.output ".fits.fz".toList = true then .ok (a.output.take (a.output.length - 3))
  else do
    let rend ← rangeEnd a.sliceRange
    pure (pyJoin a.output (a.tilename ++ '_' :: a.band ++ '_' :: shortName a.config a.tag ++
      "_meds-pizza-slices".toList ++ rend ++ ".fits".toList))

/-- What an attribute of the logging module or of the logger class is. -/
inductive LogAttr where
  | level (n : ℤ)
  | forLevel (n : ℤ)
  | toRoot (n : ℤ)
  | other
  deriving DecidableEq

/-- The attributes of the module `logging`, of the logger class (also inherited ones), and the two
tables that `addLevelName` changes. -/
structure Logging where
  attrs : PyStr → Option LogAttr
  cls : PyStr → Option LogAttr
  levelToName : ℤ → Option PyStr
  nameToLevel : PyStr → Option ℤ

/-- A function changed at one point. -/
def setAt {α β : Type} [DecidableEq α] (f : α → Option β) (a : α) (b : β) : α → Option β :=
  fun x => if x = a then some b else f x

/-- The name of the method (pizza_cutter/__init__.py:40-41; ASCII). -/
def methodNameOf (levelName : PyStr) (methodName : Option PyStr) : PyStr :=
  match methodName with
  | none => levelName.map Char.toLower
  | some [] => levelName.map Char.toLower
  | some (c :: l) => c :: l

/-- `addLoggingLevel` (pizza_cutter/__init__.py:15-63): the state afterwards and the exception. -/
def addLoggingLevel (s : Logging) (levelName : PyStr) (levelNum : ℤ) (methodName : Option PyStr) :
    Logging × Option Err :=
  let m := methodNameOf levelName methodName
  if (s.attrs levelName).isSome = true then (s, some .attributeError)
  else if (s.attrs m).isSome = true then (s, some .attributeError)
  else if (s.cls m).isSome = true then (s, some .attributeError)
  else
    let s := { s with
      levelToName := setAt s.levelToName levelNum levelName
      nameToLevel := setAt s.nameToLevel levelName levelNum }
    let s := { s with attrs := setAt s.attrs levelName (.level levelNum) }
    let s := { s with cls := setAt s.cls m (.forLevel levelNum) }
    let s := { s with attrs := setAt s.attrs m (.toRoot levelNum) }
    (s, none)

end Pizza
