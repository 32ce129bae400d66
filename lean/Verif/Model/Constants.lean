import Verif.Model.Basic

/-!
Constants.  Models pizza_cutter/des_pizza_cutter/_constants.py,
pizza_cutter/slice_utils/procflags.py and pizza_cutter/des_pizza_cutter/_des_info.py:11.
-/

namespace Pizza

/-- `BMASK_EDGE = 2**29` (_constants.py:2). -/
def BMASK_EDGE : BitVec 32 := BitVec.twoPow 32 29
/-- `BMASK_NOISE_INTERP = 2**28` (_constants.py:3). -/
def BMASK_NOISE_INTERP : BitVec 32 := BitVec.twoPow 32 28
/-- `BMASK_SPLINE_INTERP = 2**27` (_constants.py:4). -/
def BMASK_SPLINE_INTERP : BitVec 32 := BitVec.twoPow 32 27
/-- `BMASK_RESAMPLE_BOUNDS = 2**26` (_constants.py:7). -/
def BMASK_RESAMPLE_BOUNDS : BitVec 32 := BitVec.twoPow 32 26
/-- `BMASK_GAIA_STAR = 2**25` (_constants.py:10). -/
def BMASK_GAIA_STAR : BitVec 32 := BitVec.twoPow 32 25
/-- `BMASK_EXPAND_GAIA_STAR = 2**24` (_constants.py:11). -/
def BMASK_EXPAND_GAIA_STAR : BitVec 32 := BitVec.twoPow 32 24
/-- `BMASK_SLICE_APODIZED = 2**23` (_constants.py:14). -/
def BMASK_SLICE_APODIZED : BitVec 32 := BitVec.twoPow 32 23

/-- `FULL_EDGE_MASKED = 2**0` (procflags.py:2). -/
def FULL_EDGE_MASKED : BitVec 32 := BitVec.twoPow 32 0
/-- `SLICE_HAS_FLAGS = 2**1` (procflags.py:5). -/
def SLICE_HAS_FLAGS : BitVec 32 := BitVec.twoPow 32 1
/-- `HIGH_MASKED_FRAC = 2**2` (procflags.py:8). -/
def HIGH_MASKED_FRAC : BitVec 32 := BitVec.twoPow 32 2
/-- `HIGH_INTERP_MASKED_FRAC = 2**4` (procflags.py:11). -/
def HIGH_INTERP_MASKED_FRAC : BitVec 32 := BitVec.twoPow 32 4
/-- `BAD_PSF_MODEL = 2**5` (procflags.py:14). -/
def BAD_PSF_MODEL : BitVec 32 := BitVec.twoPow 32 5

/-- `IGNORED_CCD = 2**30` (_des_info.py:11). -/
def IGNORED_CCD : BitVec 32 := BitVec.twoPow 32 30

/-- The mask flags of _constants.py:2-14, in file order. -/
def maskFlags : List (BitVec 32) :=
  [BMASK_EDGE, BMASK_NOISE_INTERP, BMASK_SPLINE_INTERP, BMASK_RESAMPLE_BOUNDS, BMASK_GAIA_STAR,
   BMASK_EXPAND_GAIA_STAR, BMASK_SLICE_APODIZED]

/-- The rejection flags of procflags.py:2-14, in file order. -/
def procFlags : List (BitVec 32) :=
  [FULL_EDGE_MASKED, SLICE_HAS_FLAGS, HIGH_MASKED_FRAC, HIGH_INTERP_MASKED_FRAC, BAD_PSF_MODEL]

/-- `sum(single_epoch_config['noise_interp_flags'])` and the like
(pizza_cutter/des_pizza_cutter/_pizza_cutter.py:351-354). -/
def flagSum (flags : List Nat) : Nat := flags.foldl (· + ·) 0

/-- `(bmask & flags) != 0` at one pixel (pizza_cutter/des_pizza_cutter/_coadd_slices.py:418 and
others), for a mask value that is not negative. -/
def pixelHas (v : BitVec 32) (flags : Nat) : Bool := v.toNat &&& flags ≠ 0

end Pizza
