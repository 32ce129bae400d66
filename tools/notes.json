{
 "C01": {
  "note": "Exact arithmetic; C129 has the same function in floating point."
 },
 "C02": {
  "note": "Arrays are flattened to lists."
 },
 "C03": {
  "note": "Exact arithmetic."
 },
 "C05": {
  "note": "WCS evaluation and the cosine are parameters; exact arithmetic."
 },
 "C06": {
  "note": "Non-celestial branch of get_rough_sky_bounds; the celestial branch is C109."
 },
 "C10": {
  "note": "The drawn PSF is a parameter of which only the requested size is known."
 },
 "C101": {
  "note": "Weights are real numbers (no NaN or infinity). The normal generator is a parameter; its law is a hypothesis of C101_law only. An image without positive weight raises ValueError (C101_no_good_weight)."
 },
 "C102": {
  "note": "The data base is a parameter. The state of the description after an exception and the YAML round trip are not modelled."
 },
 "C103": {
  "note": "Partial: == compares hashes, so for every hash with finitely many values two different WCSs compare equal (C103_equal_means_same_fails); proved for histories without hash collision. Number formatting, pprint and hash are parameters."
 },
 "C111": {
  "note": "Partial: descriptions without image_shape and empty ranges always raise (negations proved for all inputs); everything else is processed."
 },
 "C115": {
  "note": "Partial: twelve of the seventeen files lack entries that are read, and none has the PSF keywords for band Y; such runs stop with a KeyError (C115_shipped_fails, C115_band_fails). Proved for the other five files in g, r, i and z. The files are tables in the model, checked in full."
 },
 "C117": {
  "note": "Partial only for the default of --seed, with which every run fails (C117_default_seed_fails). YAML parsing, json.dumps, the loaders of WCS and PSF files and fpack are parameters. What is assumed of the inputs is GoodRequest in Spec/Program."
 },
 "C128": {
  "note": "Partial: the path is pasted into a shell command, so a blank in it breaks the call (C128_blank_fails), and cp into a directory is taken for success (C128_directory_fails); proved for paths without characters that mean something to a shell that are no directories. easyaccess is a parameter; cp without options is modelled."
 },
 "C129": {
  "note": "Partial: beyond 2^(p+9) adding or subtracting 360 changes nothing and the loop never ends (C129_ends_fails); everything else is proved. No limits on the exponent."
 },
 "C13": {
  "note": "C13_mixed_edge_not_detected shows the limit of the property: an edge masked by a mixture of zero weight and flags is not an edge for the code."
 },
 "C130": {
  "note": "Rounding to nearest with p digits, any rule for ties, no limits on the exponent."
 },
 "C131": {
  "note": "Rounding to nearest, any rule for ties, any order of the sums, no limits on the exponent."
 },
 "C132": {
  "note": "Rounding to nearest with 53 digits, no limits on the exponent. fastmath is modelled by sums and products in any order, common factors, fused multiply-add and reciprocals; its licence to assume that there are no NaNs is not modelled."
 },
 "C133": {
  "note": "Partial: with single precision images the masked fraction can exceed 1 (C133_above_one_fails); bounded by 1/(1-(n+1)2^-24) (C133_fraction_partial), at most 1 with double precision images. No limits on the exponent."
 },
 "C18": {
  "note": "One call of the symmetrisation is not four-fold symmetric; the theorems say what repeated calls give."
 },
 "C22": {
  "note": "Partial: holds for images with at least one bad pixel. Without bad pixels interpolate_image_at_mask raises, the image/noise version does not (C22_no_bad_pixels_fails)."
 },
 "C24": {
  "note": "Partial: with fill_isolated_with_noise and no isolated pixel interpolate_image_and_noise raises UnboundLocalError (C24_no_isolated_fails, C24_witness_fails). Everything else is proved, and interpolate_image_at_mask has no such defect (C24_at_mask_no_isolated)."
 },
 "C28": {
  "note": "The docstring says that truncated kernels are flagged; the code flags only kernels entirely outside (C28_truncated_not_flagged)."
 },
 "C33": {
  "note": "C33_sinc_pade_zero: the value at 0 is 0.999999999999996, not 1. The error against sin(pi x)/(pi x) is bounded by C96 and C97."
 },
 "C35": {
  "note": "Equality of cache keys must imply equality of the value computed. C35_key_condition_needed: the key of an SEImageSlice omits psf_kwargs."
 },
 "C37": {
  "note": "Partial: true as long as no slice with masking turned on has been set for the same file; the in-place update of the cached array breaks it otherwise (proved negation)."
 },
 "C38": {
  "note": "Partial: the table is checked in full (C38_table), but its one-indexed boxes are used as zero-indexed, so the masked pixels are those of the boxes moved by one row and column (C38_pixels_partial, C38_pixels_fails)."
 },
 "C41": {
  "note": "Partial: false for positions in the open interval (-3/2, -1/2) relative to the slice, where truncation gives pixel 0 without the edge flag (C41_strip, C41_masks_fails); proved elsewhere."
 },
 "C52": {
  "note": "Partial: the interpolator replaces pixels of weight <= 0 but the mask tests weight < 0; a pixel of weight exactly 0 without flags is marked only when its value changed (C52_interpolated_fails)."
 },
 "C57": {
  "note": "Partial: proved for None, strings and ranges of step 1. Ranges counting down are accepted with wrong numbers, some valid ranges of larger step are refused, lists raise AttributeError (C57_*_fails)."
 },
 "C65": {
  "note": "Partial: when all PSF flags are bad the function returns early and the candidates are not recorded (C65_recorded_fails)."
 },
 "C68": {
  "note": "Partial: image extension names longer than three characters are truncated (C68_ext_fails)."
 },
 "C72": {
  "note": "Partial: true of the first image only; the seeds of the second and later images depend on the number of extra noise images (C72_primary_fails)."
 },
 "C75": {
  "note": "Partial: between the removal of the old file and the end of the copy the destination is missing or incomplete (C75_atomic_fails); all prefixes of the step list are characterised."
 },
 "C77": {
  "note": "Partial: with staging, a failing fpack is not noticed when an old output is there (C77_fresh_fails); proved when fpack left a file, without staging, or without old output."
 },
 "C84": {
  "note": "Partial: the configured values are summed, which is the union only when they are disjoint (C84_union_fails)."
 },
 "C86": {
  "note": "Partial: the constant is defined only if the method has another name; with a lower-case level name it is replaced by the function (C86_defines_fails)."
 },
 "C91": {
  "note": "Partial: StagedOutFile stages out also when its body raised, so a left-over file in the temporary directory is published (C91_failed_run_fails); proved without such a file."
 },
 "C98": {
  "note": "The scipy interpolators are parameters, assumed to reproduce the values at their nodes and affine functions between them (explicit hypotheses with a witness)."
 },
 "C99": {
  "note": "Partial: the area lookup is evaluated half a pixel away from the nodes it was built on, so it is exact only where the area is locally constant along the shift; negation with a witness."
 }
}