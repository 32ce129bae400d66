import Verif.Model.Files

/-!
What staging must do, in terms of the contents of the file system.
-/

namespace Pizza
variable {D : Type}

/-- A proper file system: the root is a directory, nothing is both a file and a directory, everything is
in a directory. -/
structure FS.WF (fs : FS D) : Prop where
  root : fs.dirs [] = true
  disjoint : ∀ p, (fs.files p).isSome = true → fs.dirs p = false
  parents : ∀ p, (fs.files p).isSome = true ∨ fs.dirs p = true → fs.dirs p.dropLast = true

/-- All states that a call goes through, with the one it starts in and the one it leaves: a crash at any
time leaves one of these. -/
def crashStates {α : Type} (m : FM D α) (fs : FS D) : List (FS D) := fs :: (m fs).trace ++ [(m fs).fs]

/-- The files of two states agree except at the paths `l`. -/
def SameFilesExcept (l : List FPath) (a b : FS D) : Prop := ∀ q, q ∉ l → a.files q = b.files q

/-- What happens between construction and the end of the life of a `StagedInFile`. -/
inductive InOp (D : Type) where
  | cleanup
  | stageIn
  | other (g : FS D → FS D)

/-- A history; an exception of a call is caught by the caller, the object keeps its state. -/
def runIn (env : FsEnv D) : StagedIn → FS D → List (InOp D) → StagedIn × FS D
  | s, fs, [] => (s, fs)
  | s, fs, .other g :: l => runIn env s (g fs) l
  | s, fs, .cleanup :: l =>
    match (s.cleanup fs).out with
    | .ok s' => runIn env s' (s.cleanup fs).fs l
    | .error _ => runIn env s (s.cleanup fs).fs l
  | s, fs, .stageIn :: l =>
    match (s.stageIn env fs).out with
    | .ok s' => runIn env s' (s.stageIn env fs).fs l
    | .error _ => runIn env s (s.stageIn env fs).fs l

/-- The states before and after each call of `stage_out` in a history in which the file system changes
in any way between the calls. -/
def runOut (env : FsEnv D) : StagedOut → FS D → List (FS D → FS D) → List (FS D × FS D)
  | _, _, [] => []
  | s, fs, g :: l =>
    match (s.stageOut env (g fs)).out with
    | .ok s' => (g fs, (s.stageOut env (g fs)).fs) :: runOut env s' (s.stageOut env (g fs)).fs l
    | .error _ => (g fs, (s.stageOut env (g fs)).fs) :: runOut env s (s.stageOut env (g fs)).fs l

end Pizza
