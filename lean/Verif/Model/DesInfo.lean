import Verif.Model.Constants
import Verif.Model.Basic

/-!
Flagging of input images: `compute_piff_flags` (pizza_cutter/des_pizza_cutter/_piff_tools.py:88-152)
and `flag_data_in_info` (pizza_cutter/des_pizza_cutter/_des_info.py:11,16-69).

Statistics are rationals or NaN (`none`).  All entries of the QA record are assumed to be there.
-/

namespace Pizza

/-- A statistic: a finite number or NaN. -/
abbrev Stat := Option ℚ

/-- `a >= b`: false with a NaN. -/
def Stat.ge (a b : Stat) : Bool :=
  match a, b with
  | some x, some y => decide (y ≤ x)
  | _, _ => false

/-- `a * b`. -/
def Stat.mul (a b : Stat) : Stat :=
  match a, b with
  | some x, some y => some (x * y)
  | _, _ => none

/-- `np.abs(a - b)`. -/
def Stat.absSub (a b : Stat) : Stat :=
  match a, b with
  | some x, some y => some |x - y|
  | _, _ => none

/-- The QA record of a CCD (_piff_tools.py:73-83). -/
structure PiffInfo where
  desdmFlags : ℤ
  fwhmCen : Stat
  starTStd : Stat
  starTMean : Stat
  nstar : ℤ
  expStarTMean : Stat
  expStarTStd : Stat

/-- The cuts (_piff_tools.py:88-90); `none` switches a cut off. -/
structure PiffCuts where
  maxFwhmCen : Option ℚ
  minNstar : Option ℤ
  maxExpTMeanFac : Option ℚ
  maxCcdTStdFac : Option ℚ

/-- `if cond: flags |= bit`. -/
def orIf (c : Bool) (bit flags : Nat) : Nat := if c = true then flags ||| bit else flags

/-- `max_fwhm_cen is not None and fwhm_cen >= max_fwhm_cen` (_piff_tools.py:131). -/
def cutFwhm (c : PiffCuts) (p : PiffInfo) : Bool :=
  match c.maxFwhmCen with
  | none => false
  | some m => p.fwhmCen.ge (some m)

/-- (_piff_tools.py:134-137). -/
def cutStd (c : PiffCuts) (p : PiffInfo) : Bool :=
  match c.maxCcdTStdFac with
  | none => false
  | some f => p.starTStd.ge (Stat.mul (some f) p.starTMean)

/-- (_piff_tools.py:140). -/
def cutNstar (c : PiffCuts) (p : PiffInfo) : Bool :=
  match c.minNstar with
  | none => false
  | some n => decide (p.nstar < n)

/-- (_piff_tools.py:143-149). -/
def cutMean (c : PiffCuts) (p : PiffInfo) : Bool :=
  match c.maxExpTMeanFac with
  | none => false
  | some f => (Stat.absSub p.starTMean p.expStarTMean).ge (Stat.mul (some f) p.expStarTStd)

/-- `compute_piff_flags` (_piff_tools.py:126-152). -/
def computePiffFlags (c : PiffCuts) (p : PiffInfo) : Nat :=
  let flags := 0
  let flags := orIf (decide (p.desdmFlags ≠ 0)) (2 ^ 0) flags
  let flags := orIf (cutFwhm c p) (2 ^ 1) flags
  let flags := orIf (cutStd c p) (2 ^ 2) flags
  let flags := orIf (cutNstar c p) (2 ^ 3) flags
  orIf (cutMean c p) (2 ^ 4) flags

/-- An entry of `src_info`, as far as `flag_data_in_info` looks at it; `rest` is everything else. -/
structure FlagSrc (R : Type) where
  imageFlags : Nat
  piffInfo : Option PiffInfo
  ccdnum : ℤ
  hasPath : Bool
  hasFilename : Bool
  rest : R

/-- `config["single_epoch"]` (_des_info.py:51-69). -/
structure FlagCfg where
  piffCuts : Option PiffCuts
  ignoredCcds : Option (List ℤ)

/-- The flags from the Piff cuts of a source, if there are cuts and a QA record
(_des_info.py:51-57). -/
def piffFlagsOf {R : Type} (cfg : FlagCfg) (ii : FlagSrc R) : Option Nat :=
  match cfg.piffCuts, ii.piffInfo with
  | some c, some p => some (computePiffFlags c p)
  | _, _ => none

/-- The Piff part of the loop body (_des_info.py:51-65): the message needs `path` and `filename`, a
KeyError comes after the flags are set. -/
def flagPiff {R : Type} (cfg : FlagCfg) (ii : FlagSrc R) : FlagSrc R × Option Err :=
  match piffFlagsOf cfg ii with
  | none => (ii, none)
  | some f =>
    ({ ii with imageFlags := ii.imageFlags ||| f },
      if f ≠ 0 ∧ ¬ (ii.hasPath = true ∧ ii.hasFilename = true) then some .keyError else none)

/-- The CCD part (_des_info.py:67-69). -/
def flagCcd {R : Type} (cfg : FlagCfg) (ii : FlagSrc R) : FlagSrc R :=
  match cfg.ignoredCcds with
  | none => ii
  | some l => if ii.ccdnum ∈ l then { ii with imageFlags := ii.imageFlags ||| IGNORED_CCD.toNat } else ii

/-- The loop body: KeyError without `single_epoch` (_des_info.py:67). -/
def flagOne {R : Type} (cfg : Option FlagCfg) (ii : FlagSrc R) : FlagSrc R × Option Err :=
  match cfg with
  | none => (ii, some .keyError)
  | some c =>
    match flagPiff c ii with
    | (jj, some e) => (jj, some e)
    | (jj, none) => (flagCcd c jj, none)

/-- `flag_data_in_info` (_des_info.py:16-69): the entries afterwards and the exception, if any; the loop
stops there. -/
def flagDataInInfo {R : Type} (cfg : Option FlagCfg) : List (FlagSrc R) → List (FlagSrc R) × Option Err
  | [] => ([], none)
  | ii :: l =>
    match flagOne cfg ii with
    | (jj, some e) => (jj :: l, some e)
    | (jj, none) => (jj :: (flagDataInInfo cfg l).1, (flagDataInInfo cfg l).2)

end Pizza
