# Formal model of pizza-cutter: design

The source in `/repo` is read as text only.  The model is Lean 4 (4.33.0) with single
Mathlib modules.  It is a shallow model: every modelled Python function becomes a total
Lean function with the same branches, exceptions become values (`Except Err α`), in-place
array updates become functions returning the new array, external calls become parameters.

## Layout

* `lean/Verif/Model/*.lean` – definitions that model the code. Each one cites file and lines.
* `lean/Verif/Spec/*.lean` – small independent vocabulary used only to state properties
  (geometry of a rectangle, "congruent mod 360", "rotated pixel", ...).
* `lean/Verif/Lemmas/*.lean` – helper lemmas.
* `lean/Verif/Props/*.lean` – one theorem (or a few) per property, named `Cnn_…`, each followed
  by `example`s that show a concrete non-trivial case meets the hypotheses.  Where the code
  violates the property the file holds the proved negation with a concrete witness
  (`Cnn_…_fails`) and the strongest true statement (`Cnn_…_partial`).

## Modelling conventions (the trusted reading)

* Floating point numbers are exact rationals `ℚ` (or reals where square roots occur).
  Rounding, overflow and signed zeros are not modelled.  NaN/inf are `none`/separate
  constructors only where the code branches on them.
* `bmask`, `pmask`, flag words are `BitVec 32` (numpy int32 bit patterns) or `Nat`
  (python ints) when the code uses python integers.
* A 2-D array is `Img α` = number of rows, number of columns, and a pixel function
  `Nat → Nat → α`; only pixels in range matter and all statements quantify over pixels in
  range.  Where the code could index outside the array (compiled numba code, python slices,
  negative indices) reads are explicit `Option`/`Except` operations so that
  "never out of range" is a provable statement and not an artefact of the total function.
* External functions are parameters: WCS evaluation (`image2sky`, `sky2image`), the
  CloughTocher interpolator, `scipy.ndimage.rotate`, PSF rendering, random numbers, `sha1`,
  the Hilbert curve, FITS readers and writers, `fpack`, `meds.util.reject_outliers`,
  star mask rasterisation.  No property of them is assumed unless it is an explicit
  hypothesis of the theorem.
* Multiprocessing is a transition system (workers, bounded queue, parent); a crash is a
  prefix of the list of atomic file-system steps.

## Trusted base

* Lean's kernel.  `vcheck` rebuilds everything and replays it.
* The axioms `propext`, `Classical.choice`, `Quot.sound`.  `AXIOMS.md` lists the axioms of each
  theorem of MANIFEST.json; it is made by `tools/axioms.sh` with `#print axioms`.  There is no
  other axiom, no `sorry`, no `native_decide`, no `bv_decide`.  Mathlib is used only through
  kernel-checked lemmas.
* The faithfulness of the model to the cited source lines (checked by reading only; the code
  was not run).
* The conventions above.

## What is modelled

`tools/coverage.py` lists each function of `/repo` with the share of its lines cited by the model.

| source | model module | not modelled |
|--------|--------------|--------------|
| `__init__.py` | `Cli` | |
| `bin/des-pizza-cutter` | `Cli` (output name), `CliRun`, `Program` (a whole run) | argument parsing by click |
| `config_files/*.yaml` and all lookups of options | `ConfigFiles`, `Config` | options of the wrong type (TypeError here) |
| `coadding/_lanczos.py` | `Lanczos` | compilation by numba |
| `coadding/_sinc.py` | `Lanczos` (`sincPade`), `SincDirect` (`sinc`, not used by the code) | compilation by numba with `fastmath` |
| `coadding/_wcs_utils.py` | `WcsGrid` | the scipy interpolators (parameters; `FitSpec`, `SplineSpec`, `FitStable` and `SplineStable` are what is assumed of them) |
| `_affine_wcs.py` | `Wcs`, `WcsIdentity` | float formatting and the string hash (parameters) |
| `_coadd_slices.py` | `BuildInputs`, `Coadd`, `Flags` | `meds.util.reject_outliers`, `metadetect` foreground masks (parameters) |
| `_constants.py`, `meds` flag values | `Constants`, `TapeBumps` | |
| `bin/des-pizza-cutter-prep-tile` | `PrepTile` | argument parsing, desmeds (parameters) |
| `_des_info.py` | `DesInfo`, `CheckInfo`, `DesTile`, `PrepTile`, `TileGeom` | the contents of the data base and archive (parameters), easyaccess, shell syntax beyond words and blanks |
| `_load_info.py` | `LoadInfo` | what galsim makes of a configuration (parameters) |
| `_piff_tools.py` | `DesInfo` (`compute_piff_flags`), `DesTile` (QA table) | reading of piff and FITS files |
| `_pizza_cutter.py` | `Make` (the whole call), `MakeProc` (the same with caches), `Process`, `ProcessRun`, `Schedule`, `SliceRange`, `Run`, `Slice`, `Fits`, `EpochsInfo`, `ImageInfo`, `Publish`, `Gaia`, `SEGeom`, `Numerals` | timing, logging, memory, YAML dumping |
| `_se_image.py` | `Process` (all caches together), `SEInit`, `SEGeom`, `SEObject`, `Wcs`, `WcsGrid`, `WcsIdentity`, `Cache`, `NoiseImage`, `PiffMask`, `SliceMask`, `TapeBumps` | PSF models; for WCSs that are not affine the accuracy of the interpolated WCS is relative to the stability of the two interpolators on the nodes in use (`FitStable`, `SplineStable`; C142 to C145) |
| `_sky_bounds.py` | `SEGeom`, `SkyBounds`, `DoubleSky` | `radec_to_uv` and the cosine are parameters |
| `files.py` | `Files`, `PrepTile` | links, `.`/`..`, variables in paths |
| `memmappednoise.py` | `Noise` | the memory map itself |
| `slice_utils/*.py` | `Flags`, `Interp`, `Locate`, `Measure`, `Symmetrize` | `CloughTocher2DInterpolator`, `scipy.ndimage.rotate`, `erf`, moments (parameters) |
| `wcs.py` | `Wcs`, `WcsSearch` | header parsing, the root finder (esutil, scipy) |
| `gsutils.py` | `GsUtils` | galsim (parameter) |
| `scripts/`, `integration_test/` | | all |

`Process` and `ProcessRun` read the life of a process as follows.  Workers are forked, so that they start with the caches
of the parent.  The arguments of a chunk are pickled, so that a worker gets new copies of arrays in memory for each chunk.
`clear_image_and_wcs_caches` leaves the cache of star catalogs.  The hash of an SE image object is that of its text, which
can contain addresses of other objects; it is a parameter that may depend on the number of objects constructed before.
`Orderly` (`Spec/Process`) says which tiles one process may work on: without collisions of hashes and without mixed
settings for tape bumps.

`Program` reads both input files as values of `Yaml`.  Everything is looked up before anything is written, as an SE image
object looks up its entries later than the model does: a run in which an option is missing fails in both cases, and the
statements about failing runs (`C117_plain`, `C117_tmpdir`) say only that the output is as before.  `GoodRequest` collects
what is assumed of the inputs (masks in files of their own, hashes of SE images without collisions, texts that do not end in
NUL, sizes that can be used, arrays with the shape of their image).

C118 composes `PrepTile` and `Program`.  What `yaml.dump` writes and `yaml.safe_load` reads is the relation `ReadsInfo` with a
parameter for the rounding of numbers; that the library satisfies it is assumed.  What desmeds has to supply is `SuppliedCoadd`
and `SuppliedSrc`.

Not modelled at all: YAML/JSON parsing (the values of the shipped files are read by `tools/gen_configs.py`, which is trusted for them; `tools/check_tables.py` compares the tables of configurations, tape bumps and flags with /repo), the FITS format and compression, `galsim`/`piff`/
`psfex` PSF models beyond their returned values, the DES database and download tools,
plotting and logging output, `meds` library internals (`meds.MEDS` validation,
`meds.maskbits`), timing, memory use.

Rounding: the model computes exactly (numbers are `ℚ`), except in `Double*`, where every floating point operation of
`wrap_ra_diff`, of the pixel geometry, of the weights and weighted sums, of `sinc_pade` and `lanczos_resample`, of `AffineWCS`, of the zero point scaling and of the
PSF normalisation is rounded to `p` digits (C129 to C140, C142).  There the exponent is not limited (no overflow or underflow) and the rule for ties is left
open.  For the two functions compiled with `fastmath=True` (C132) the model has every order of evaluation that comes from
reordering and rebracketing sums and products, taking out common factors, contracting to fused multiply-adds and dividing
by multiplying with a reciprocal; other rewritings that LLVM's flags permit (of the polynomials, or that assume there are no
NaNs) are not modelled.  Rounding in the evaluation of other WCSs and in the interpolation is not modelled.

## Properties and how they are proved

| id | what is modelled | how proved |
|----|------------------|-----------|
| C01 | `wrap_ra_diff` scalar loops as well-founded recursion over ℚ | termination measure, functional induction; result characterised |
| C02 | array loops over lists of `Option ℚ` with shared loop condition | each loop = map of the scalar loop, by induction on the loop measure |
| C03 | `AffineWCS` | field arithmetic |
| C04 | `image2sky`/`sky2image` of `SEImageSlice` with offset and array forms | rewriting, list induction |
| C05 | `get_jacobian` stencil, `_compute_wcs_area` | uses C01 uniqueness of wrapped representative |
| C06 | `get_rough_sky_bounds` (non celestial), `ccd_contains_radec` | min/max over grid contain the corners; affine function on a rectangle is bounded by corners |
| C07 | `compute_slice_bounds` | floor and parity arithmetic |
| C08 | `ccd_contains_bounds`, `set_slice` with Python slice semantics | slice clamping lemmas |
| C09 | `_compute_psf_stamp_bounds`, `_build_coadd_psf_layout` | floor arithmetic |
| C10 | `get_psf_image` normalisation and shape checks, `set_psf` | sum of quotients |
| C11 | `build_slice_locations` with numpy float division and `int(nobj) != nobj` | arithmetic, counting, exists-unique |
| C12 | `_build_object_data` | arithmetic |
| C13 C14 C15 | `flag.py` | `List.all`/`Finset` characterisations |
| C16 C17 C18 | `symmetrize.py` without angle | pixel-wise characterisation, iteration |
| C19 | angle-list loop of `_build_slice_inputs`, bit loop of `symmetrize_bmask` | fold/bit induction with the rotation as parameter |
| C20 | `_get_nearby_good_pixels` as nested loops with explicit buffers and bounds | loop invariants |
| C21 C22 C23 C24 | `interpolate.py` with the interpolator as parameter | non-interference through the point list handed to the interpolator; grid connectivity |
| C25 | `copy_masked_edges_image_and_noise`, four sequential updates | shows that sources are never overwritten |
| C26 | `measure_fwhm` over ℝ, `erf` a parameter | sums over permutations |
| C27 | `MemMappedNoiseImage` chunk loops | exists-unique chunk for each pixel |
| C28–C32, C34 | `lanczos_resample(_two)` with checked reads | loop = finite sum; interval arithmetic |
| C33 | `sinc_pade` with the literal coefficients | sum-of-squares style positivity |
| C35 | LRU cache state machine | invariant over histories |
| C36 C37 | cache + in-place tape-bump mask state machine | invariant over histories; negation for C37 |
| C38 | full table generated from the source | `decide +kernel` over the whole table lifted; negation for indexing |
| C39 C40 C41 | `set_interp_image_noise_pmask`, `map_image_by_nearest_pixel`, mask part of `resample` | pixel-wise |
| C42 | protocol state machine of `SEImageSlice` attributes | induction on histories |
| C43 C44 | `resample`, `resample_psf` composed with the lanczos model | uses C32, sums |
| C45 | `_compute_bad_piff_model_delta_flag` | list reasoning |
| C46–C53 | `_build_slice_inputs` as a fold over candidates with an explicit random stream | fold invariants, two-run comparison |
| C54–C56 | `_coadd_slice_inputs` fold | fold invariants, weighted mean algebra |
| C57–C61, C71, C72 | `_coadd_and_write_images` : range, ordering, chunks, seeds, transition system | permutation reasoning, invariants, termination measure |
| C62 C63 | reserved extension + writes | address arithmetic, list reasoning |
| C64–C69 | record builders | list reasoning |
| C70 | `_hash_to_int` for any digest | arithmetic |
| C73–C77 | file system as map path → content, step lists | case analysis of all prefixes |
| C78 | `check_info` on strings as lists of characters | equivalence with an independent predicate |
| C79–C84 | flags, loaders, constants | case analysis, bit reasoning |
| C85 | output path of the CLI | string lemmas |
| C86 | `addLoggingLevel` | case analysis |
| C87 | gaia star helpers | list filter/map |
| C88 | `Run` | a slice result is a function of its own index and seed |
| C89 | `Lanczos` | loop = finite sum over the kernel window |
| C90 | `Cache` | number of reads counted along a history |
| C91 | `Publish` | all outcomes of the step list; negation for a failing body |
| C92 | `LoadInfo` | case analysis |
| C93 C94 | `Slice` over `BuildInputs`, `Coadd`, `SEObject` | composition; sound environments as explicit hypotheses |
| C95 | `Slice` + `Run` + `Fits` | composition with C60 and C62 |
| C96 C97 | `sincPade` and `Lanczos` against the real sine | Taylor bounds (`Lemmas/SincSeries`) and a verified checker of polynomial positivity (`Lemmas/PolyBound`) |
| C98 C99 | `WcsGrid`: node grids of the lookups, interpolators with explicit assumptions and a witness | grid arithmetic, convexity; negation for C99 |
| C100 | `SEObject` over `WcsGrid` | composition of C98, C99, C43, C44 |
| C101 | `NoiseImage` over `Noise` | refinement of C27, Mathlib probability for the law |
| C102 | `DesTile` | equivalence with an independent description of the completed dict |
| C103 | `WcsIdentity` over `Cache` | parsing argument for the representation, C35, pigeonhole for the negation |
| C104 | `BuildInputs` | chain of generator positions through `processAll` (`Lemmas/NoiseFill`) |
| C105 | `Files`, `Publish` | frame reasoning over the file system operations of `publishRun`, in all crash states |
| C106 | `CliRun` over `Publish` | invariant over all states of the run, frame, clean-up of the temporary directory |
| C107 | `SEInit` | equivalence with an independent description, log of reads |
| C108 | `SEInit` over `Wcs` | algebra of the two finite difference formulas |
| C109 | `SkyBounds` | every position lies in a cell of the grid; a function that is almost affine on the cell is bounded by its corners |
| C110 | `Make` over `Schedule`, `SliceRange`, `Run`, `Slice`, `Fits`, `ImageInfo`, `Publish` | composition: uniqueness of what a run has written, outcome of complete runs, refinement to the publication |
| C111 | `Make` | the same; the two violations for all inputs |
| C112 | `PrepTile` over `DesTile`, `CheckInfo`, `Files` | trace invariant of the file operations; the query as a predicate on names; refinement of the checks to C78 and C102 |
| C113 | `Process` over `SEInit`, `BuildInputs`, `Coadd`, `Slice` | refinement: a relation between computations with caches and computations that read everything anew, closed under bind; invariant of all caches and arrays over histories |
| C114 | `ProcessRun` over `Process`, `Run` | forward simulation of the pool with processes by the pool without, and back for the end of a run; C60, C61 and C95 carry over |
| C115 | `Config`, `ConfigFiles` (all files of config_files, written by `tools/gen_configs.py`) | equivalence of the readers with an independent relation `At` of paths and values, for all configurations; computation over the table of files; link to `SoundEnv` |
| C116 | `MakeProc` over `Make`, `Process`, `ProcessRun` | the invariant of C113 carried through whole calls; every call with caches is simulated by a call of `Make` with sources read anew, so that C110 applies |
| C117 | `Program` over `LoadInfo`, `CheckInfo`, `DesInfo`, `Config`, `CliRun`, `MakeProc`, `Publish` | equivalence of everything the program reads with relations on the entries of the two files (`Spec/Program`); refinement of the call to `MakeProc` and of the file operations to the trace invariants of C75, C76 and C101 |
| C118 | `PrepTile` and `Program` | composition: the finished description (C102, C112) read back entry by entry (`Spec/Pipeline`) meets the relations of C117; flags of the QA table through both programs |
| C119 | `Slice` over `BuildInputs`, `SEObject`, `Lanczos`, `Run` | translation of the interpolation of a cut-out to the frame of the SE file; good pixels are untouched by every repair; composition with C55, C93 and C95 |
| C120 | `Slice` over `BuildInputs`, `SEObject`, `Coadd`, `Run`, `Process`, `MakeProc` | relational: two runs are kept in step through every stage (same error, or results that agree off the masked pixels); the masked pixels are overwritten before resampling; induction over sources and epochs; lifted to files and processes through C113 and C116 |
| C121 | `Process`, `MakeProc` over `Slice`, `SEObject` | two worlds: the slice objects made by `set_slice` and the noise fields are equal (`Lemmas/Calibrated`: everything after the first loop does not look at files and zero point), lifted to processes by C113 and to whole calls by C116 (`Lemmas/MakeSwap`) |
| C122 | `Slice`, `BuildInputs`, `SEObject`, `Resample`, `Process` | `SkyFlux` and `SkyNoise` (Spec/OneSky.lean) give the value of an SE image at a position of the coadd from the files alone; C119 turned into a statement about the files, with the windows and weights of the table of epochs; equality for overlapping slices by uniqueness of the values |
| C123 | `Slice`, `BuildInputs`, `Symmetrize`, `Coadd`, `EpochsInfo`, `Process` | symmetrising adds no flag that no pixel has (C16, C19), so that no random number is drawn; a candidate is then processed on its own, and the loops are maps over the images; sums and bitwise ors do not depend on the order; witness with two images with a flagged pixel each for the necessity of the hypothesis |
| C124 | `Slice`, `BuildInputs`, `Symmetrize`, `Coadd`, `EpochsInfo`, `Process` | by C123 the images may be listed part by part; an image is then selected and weighted, before normalisation, on its own, so that the used images of all are those of the parts; the normalised weights of all are those of the parts times the share of each part; induction over the stack for the sums and the bitwise ors |
| C125 | `BuildInputs`, `Flags`, `Symmetrize`, `Interp`, `Slice`, `Process` | every cut of C47 and C50 is monotone in the masks, symmetrising is too (C16, C17, C19), and the second test of the masked fraction never rejects what passed the first, with or without copied edges; induction over the candidates; witness with copied edges for the necessity of that hypothesis |
| C126 | `BuildInputs`, `SEImage`, `Resample`, `Coadd`, `Slice` | every stage (window, edge copy, interpolation, resampling, mean) is shown to act on image and noise planes by the same operator, fixed by masks, weights and WCSs (`Lemmas/Planes`, `Lemmas/EpochMap`); superposition, independence and equality follow (`Props/Linear`); the interpolation is a parameter, linear by assumption where linearity is claimed: that of scipy is so up to the tolerance of its gradients |
| C127 | `WcsSearch`, `Wcs` | zero set from the wrap specification; nearest representative; affine skies |
| C128 | `TileGeom`, `Files` | the two commands step by step in the file system monad; word splitting of the shell; negations for paths with a blank and for directories |
| C129 | `Double`, `DoubleWrap` | Sterbenz' lemma for the exact part; progress of at least 180 per step below 2^(p+9), a fixed point beyond; loops as big-step relations |
| C130 | `DoubleGeom` (the functions of `Locate` and `SEGeom` with every float operation rounded) | halves of integers are representable; refinement to the exact model; Sterbenz for the sub-pixel offset |
| C131 | `DoubleCoadd` | sums as trees of rounded additions over any permutation; induction over the epochs |
| C132 | `DoubleLanczos` | every run is a tree of roundings: relative errors compose (`Near`), by induction on the tree; then the bounds of C96 and the relative condition of sinc |
| C133 | `DoubleStore`, `DoubleCoadd`, `Fits` | bounds of the variance by induction on the tree of the sum; Bernoulli for the fraction; the ten roundings of the counterexample one by one, from the separation of numbers with 24 digits |
| C134 | `DoubleCut`, `Double`, `DoubleCoadd` | two different fractions with small denominators are further apart than the error of rounding, so the order of the rounded ones is that of the fractions; the effective number of epochs from monotonicity of rounding and the bounds on sums |
| C135 | `DoubleJac`, `DoubleWrap` | the wrapped difference has one rounding of at most 360 / 2^53 and picks the right turn; relative bounds for the products and for the determinant |
| C136 | `AffineWCS` with every operation rounded (`DoubleAffine`) | propagation of rounding errors; an explicit nearly singular matrix for the sharpness of the condition |
| C137 | zero point scaling of images and weights, `psf_im /= np.sum(psf_im)` with every operation rounded (`DoubleScale`) | propagation of rounding errors; sign of rounded values; sums in any order by induction |
| C138 | resampling of the epochs and the weighted sum, composed (`DoubleLanczos`, `DoubleCoadd`) | triangle inequality over the two stages, C132 and C131; monotonicity of the error in the number of epochs |
| C139 | `get_rough_sky_bounds` and `ccd_contains_radec` with every operation rounded, not celestial (`DoubleSky`) | monotone rounding; extremes of affine functions at the corners, which the grid has exactly; propagation of rounding errors |
| C140 | `lanczos_resample` at two positions, exact and rounded, and the coadd of epochs with inexact positions | sinc as an integral of cosines is Lipschitz; the kernel vanishes where it is cut off; C96, C132 and C131 |
| C141 | `get_gs_fits_wcs_from_dict` after `_munge_fits_header` (`GsUtils`, `LoadInfo`) | induction over the entries; upper case undoes lower case |
| C142 | `_get_wcs_inverse` and `WCSInversionInterpolator` for WCSs that are not affine, followed by resampling and coadding | perturbation of the affine map at the nodes and at the position, C140 |
| C143 | `getWcsInverse`, `InvInterp` with maps that are not affine | nodes taken back by the affine map are near the grid, a convex set with points near the corners of a rectangle contains its middle; convex hulls |
| C144 | `SEObj.resample`, `buildLookups` with maps that are not affine | C143 for the position, stability of the area lookups, C96 and C140 for the kernel sum; triangle inequality |
| C145 | `SEObj.resamplePsf`, `buildLookups` with maps that are not affine | bound of C144 for every pixel, C44 for the normalisation, perturbation of a share of a total |
| C146 | `coaddSingleSlice` with `buildLookups`, `resample`, `lanczosResample` | C122 for the pixel, C97 for the Lanczos sum of a constant, mean of values near a number |
| C147 | `coaddSingleSlice`, `buildSliceInputs`, `resample` | coefficients of the linear map of C126 on the finitely many SE pixels, bilinearity of the covariance (Mathlib) |
| C148 | `lanczosResample`; `coaddSingleSlice` | first and second moment and absolute sum of the kernel by polynomial enclosures checked in the kernel, C89 for the value, C122 for the coadd |
| C149 | `coaddSingleSlice`, `SEObj.resamplePsf`, `SEObj.resampleGo`, `coaddPsfLayout`, `psfStampBounds` | sums over the kernel in the frame of the file and of the stamp are the same sum over the integers; C44 for the normalisation, C93 and C119 for the weights; C97 with positions and pixels exchanged for the total |
| C150 | `coaddSingleSlice`, `SEObj.resamplePsf`, `coaddPsfLayout`, `lanczosResample` | exchange of the sums over the pixels of the stamp and of the PSF; the bounds of C148 for the function of position as if it were an image; induction over the epochs for the weighted mean |
| C151 | `coaddSingleSlice`, `SEObj.resampleGo`, `lanczosResample`, `coaddSliceInputs` | the pixel law C119 for the values of the epochs, the moments of C150 for the stamp of the source, the weighted mean of C93; the files by C122, affine WCSs by C100 |
| C152 | `buildSliceInputs`, `buildCoaddWeight`, `coaddSingleSlice` | C49 for the values of the weights, expansion of a sum of squares, bilinearity of the covariance |
| C153 | `buildSliceInputs`, `coaddSingleSlice` | each cut of C45, C47 and C50 is antitone in the looseness, the second test of the masked fraction never rejects (`C47_late`); induction over the sublist of candidates, carrying the weights before normalisation (`Props/Looser`) |
| C154 | `buildSliceInputs`, `SEObj.resample`, `coaddSliceInputs`, `coaddSingleSlice`, `coaddSingleSliceP` | every step commutes with multiplying the fluxes by `k` and dividing the weights by `k^2` (`Lemmas/ZeroPoint`), induction over the candidates and over the epochs that are stacked; external functions are assumed to follow the change of units (`Ext.Follows`, `ProcWorld.NoiseFollows`) (`Props/ZeroPoint`) |
| C155 | `sincDirect`, `sincPade`, `lanczosOne` | Taylor bound on the sine below the threshold, exact above; with the bounds of C96 the triangle inequality gives the differences, summed over the kernel for a resampled value (`Props/SincDirect`) |
| C156 | `gridIndex`, `pointInBadMask`, `pointsInBadMask` | the clipped floor is the unique cell of the spec relation `CellOf` (`Props/PiffMask`) |
| C157 | `buildObjectData`, `SEObj.resample`, `buildSliceInputs`, `coaddSingleSlice`, `getWcsInverse`, `getWcsAreaInterp` | every conversion of a position commutes with the shift (`Lemmas/Moved`), induction over the SE images; the inverse WCS of an SE image and the grid of slices are moved along (`Props/Moved`) |
| C158 | `wrapFin`, `getJacobian`, `computeWcsArea`, `roughSkyBoundsCel`, `seInit`, `getWcsInverse`, `buildObjectData`, `coaddSingleSlice` | a wrapped difference is determined up to whole turns unless it is half a turn; everything else uses right ascensions only through maps that are turned along, and so each SE image is the same value (`freshSrc_turned`, `Props/Turned`) |
| C159 | `lanczosResample`, `SEObj.setSlice`, `SEObj.setPsf`, `SEObj.setInterp`, `SEObj.mapImage`, `SEObj.resample`, `coaddSliceInputs`, `computeSliceBounds`, `computeWcsArea`, `getWcsAreaInterp`, `sliceFullEdgeMasked`, `computeMaskedFraction` | the two sums of the kernel commute; each call takes transposed objects to transposed objects, by induction over the history; the stacks stay transposed by induction over the epochs (`Props/Transposed`) |
| C160 | `copyMaskedEdges`, `interpolateImageAndNoise`, `mungeHeader`, `SEObj.setSlice`, `SEObj.setPsf`, `SEObj.setInterp`, `publishRun` | an edge left unrepaired has a fully unusable second line, which no other edge can repair; interpolation ignores what is stored at bad pixels (C21); the normalised header is rebuilt by induction over its keys; what a run leaves (C77, C105) is the same for every earlier state (`Props/Again`) |
| C161 | `BuildInputs`, `SEObject`, `Resample`, `Coadd`, `Slice` | smaller weight maps with the same image are the same, after `set_slice`, as the old weight maps with a larger zero-point factor and a smaller image (`Lemmas/Calibrated`); the first change is that of C154, the second is the linear map of C126; the weight map follows from the first noise image (C93) (`Props/WeightUnits`); same assumptions on external functions as C154 and C126 |

## Findings (places where the code and a property disagree)

Each of these is a theorem with a concrete witness, unless marked (reading).

* C13 `slice_full_edge_masked` does not see an edge masked partly by weight and partly by flags
  (`C13_mixed_edge_not_detected`).
* C18 one symmetrisation by a quarter turn is not four-fold symmetric.
* C22 `interpolate_image_at_mask` raises when there are no bad pixels (`C22_no_bad_pixels_fails`).
* C24 `interpolate_image_and_noise(fill_isolated_with_noise=True)` raises UnboundLocalError when
  no pixel is isolated (`C24_no_isolated_fails`, `C24_witness_fails`).
* C28 truncated kernels are not flagged although the docstring says so
  (`C28_truncated_not_flagged`); an empty image is never flagged (`C28_empty_image`).
* C33 `sinc_pade(0)` is not 1 (`C33_sinc_pade_zero`).
* C35 the cache key of an SEImageSlice omits `psf_kwargs` (`C35_key_condition_needed`).
* C37 the tape-bump mask is written into the cached array, so turning it off later has no effect.
* C38 one-indexed tape-bump boxes are used as zero-indexed.
* C41 positions strictly between -1.5 and -0.5 are truncated to pixel 0 and not flagged (`C41_strip`,
  `C41_masks_fails`).
* C42 `set_slice` after `set_interp_image_noise_pmask` keeps the old mask
  (`C42_new_slice_keeps_old_mask`); a failing `set_slice` leaves `box_size` set
  (`C42_failed_slice_is_kept`).
* C44 the sign of the offsets of `resample_psf` differs from its docstring (`C44_offsets`).
* C52 the processing mask tests `weight < 0`, the interpolator `weight <= 0` (`C52_interpolated_fails`).
* C53 a candidate rejected late has consumed random numbers (`C53_late_rejection_disturbs`).
* C57 slice ranges with negative or large steps, reversed ranges and lists (`C57_*_fails`).
* C61 a killed worker leaves the parent waiting for ever (`C61_killed_worker_stuck`).
* C65 candidates are dropped from the record when all PSF flags are bad (`C65_recorded_fails`).
* C67 without sources the image info cannot be built (`C67_no_sources`).
* C68 extension names are cut to three characters (`C68_ext_fails`).
* C72 the number of extra noise images changes the primary noise of later images
  (`C72_primary_fails`).
* C75 replacing the destination is not atomic (`C75_atomic_fails`, `C75_partial_content`).
* C77 failure of fpack is not noticed when an old output exists (`C77_fresh_fails`).
* C79 `flag_data_in_info` needs keys it only uses for messages (`C79_returns`).
* C80 NaN statistics pass every cut (`C80_nan_passes`); loosening a cut can add flags when the
  mean is negative (`C80_loosen_negative_mean`).
* C84 configured flags are summed, not ORed (`C84_union_fails`).
* C85 different configurations can have the same output name (`C85_dash_needed`).
* C86 a lower-case level name loses its constant (`C86_defines_fails`).
* C91 staging out happens even when the run raised, so a left-over temporary file is published (`C91_failed_run_fails`).
* C99 the pixel area lookup is built at node - 1/2 and asked at node, a shift of half a pixel (`C99_half_pixel_shift`,
  `C99_area_fails`); images at most two grid steps high or wide raise ValueError (`C99_too_coarse`).
* C101 an image without any positive weight raises ValueError (`C101_no_good_weight`).
* C103 `==` of WCSs and SE images compares hashes of representations (`C103_equal_means_same_fails`).
* C107 the constructor provides for GalSim WCSs that are not celestial, but no image with one can be constructed, since
  `image2sky` asserts a celestial WCS (`C107_euclidean_refused`).
* C109 the grid of `get_rough_sky_bounds` is said to have cells that are about square, but the long side is divided into
  about (long side)/(short side) cells only, so that cells are about `n_grid` times as long as wide (`C109_cells`).
* C111 `image_shape` is optional when the width of the coadd is looked up (with a fallback to its header), but without it
  every run raises KeyError (`C111_shape_fails`); an empty range of slices is accepted, but the run raises after the
  images and `object_data` are written (`C111_empty_range_fails`).
* C115 twelve of the seventeen files in config_files cannot be run by this version: y3, y5 and y6-v1 to v9 have neither
  `mask_piff_failure` nor `psf_kwargs`, v10 has no `mask_piff_failure` (`C115_shipped_fails`: KeyError for every band;
  `C115_older`: with both entries as in the newer files they run);
  no file has keywords of the PSF model for the band Y (`C115_band_fails`).  (reading) the comments in the files offer
  `piff` as a type of WCS, which `SEImageSlice` refuses.
* C113 after a slice with masking of tape bumps, a slice of the same images without it has the bit of tape bumps in its
  masks (`C113_condition_needed`); the same cause as C37, seen in the output.
* C112 (observation, not a violation) `piff_campaign: null` in the configuration makes `des-pizza-cutter-prep-tile` raise
  after all downloads (`C112_no_campaign`), although `add_extra_des_coadd_tile_info` allows None.
* C117 `--seed` has the default -1, which `numpy.random.RandomState` refuses, so that a run without `--seed` always fails
  (`C117_default_seed_fails`).
* C129 `wrap_ra_diff` does not return for finite differences beyond `2 ^ 62` degrees, where adding 360 changes nothing
  (`C129_ends_fails`).
* (reading) the ordering of slices for the cache evaluates `sky2image` with the position offset
  left in; it only affects the order.
* (reading) `sf.path[:-3]` is wrong when the output is a symlink; the fpack command is an
  unquoted shell string.
