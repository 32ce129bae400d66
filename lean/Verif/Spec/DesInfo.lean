import Verif.Model.DesInfo

/-!
The documented meaning of the image flags.
-/

namespace Pizza

/-- Cut number `k` is switched on and violated by finite statistics (_piff_tools.py:120-124). -/
inductive Violates (c : PiffCuts) (p : PiffInfo) : Nat → Prop
  | desdm : p.desdmFlags ≠ 0 → Violates c p 0
  | fwhm (m x : ℚ) : c.maxFwhmCen = some m → p.fwhmCen = some x → m ≤ x → Violates c p 1
  | std (f s m : ℚ) : c.maxCcdTStdFac = some f → p.starTStd = some s → p.starTMean = some m →
      f * m ≤ s → Violates c p 2
  | nstar (n : ℤ) : c.minNstar = some n → p.nstar < n → Violates c p 3
  | mean (f m e s : ℚ) : c.maxExpTMeanFac = some f → p.starTMean = some m → p.expStarTMean = some e →
      p.expStarTStd = some s → f * s ≤ |m - e| → Violates c p 4

/-- A limit is looser: switched off, or not smaller. -/
def LooserMax (a b : Option ℚ) : Prop := b = none ∨ ∃ x y, a = some x ∧ b = some y ∧ x ≤ y

/-- A minimum is looser: switched off, or not larger. -/
def LooserMin (a b : Option ℤ) : Prop := b = none ∨ ∃ x y, a = some x ∧ b = some y ∧ y ≤ x

/-- All limits of `b` are looser than (or the same as) those of `a`. -/
structure Looser (a b : PiffCuts) : Prop where
  fwhm : LooserMax a.maxFwhmCen b.maxFwhmCen
  std : LooserMax a.maxCcdTStdFac b.maxCcdTStdFac
  mean : LooserMax a.maxExpTMeanFac b.maxExpTMeanFac
  nstar : LooserMin a.minNstar b.minNstar

/-- Bit `k` must be added to the flags of a source. -/
inductive Adds {R : Type} (cfg : FlagCfg) (ii : FlagSrc R) : Nat → Prop
  | piff (c : PiffCuts) (p : PiffInfo) (k : Nat) : cfg.piffCuts = some c → ii.piffInfo = some p →
      Violates c p k → Adds cfg ii k
  | ccd (l : List ℤ) : cfg.ignoredCcds = some l → ii.ccdnum ∈ l → Adds cfg ii 30

/-- The same entry up to the flags. -/
structure SameButFlags {R : Type} (a b : FlagSrc R) : Prop where
  piffInfo : a.piffInfo = b.piffInfo
  ccdnum : a.ccdnum = b.ccdnum
  hasPath : a.hasPath = b.hasPath
  hasFilename : a.hasFilename = b.hasFilename
  rest : a.rest = b.rest

end Pizza
