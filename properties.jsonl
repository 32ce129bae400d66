{"id": "C01", "title": "RA differences are wrapped into [-180, 180]", "statement": "For every finite RA difference wrap_ra_diff terminates and returns the value congruent to it modulo 360 degrees that lies in [-180, 180]; a value already in that range is returned unchanged (so wrapping is idempotent), and a non-finite value is returned as it is.", "quantifier": "all real-valued RA differences, plus NaN and infinities", "why_tests_cant": "the loop runs an input-dependent number of times; tests try six values", "anchors": ["pizza_cutter/wcs.py:wrap_ra_diff"]}
{"id": "C02", "title": "Array RA wrapping is the element-wise scalar wrapping", "statement": "Calling wrap_ra_diff on an array gives, at every position, exactly what the scalar call gives on that element, including arrays that mix finite and non-finite entries.", "quantifier": "all arrays of any length with any mix of finite/non-finite entries", "why_tests_cant": "the array branch loops until no element is out of range, so elements interact through the shared loop; the finite/non-finite mix is combinatorial", "anchors": ["pizza_cutter/wcs.py:wrap_ra_diff"]}
{"id": "C03", "title": "AffineWCS is a bijection between pixels and sky", "statement": "An AffineWCS can be constructed iff its Jacobian determinant is non-zero, and then sky2image(image2sky(x,y)) = (x,y) and image2sky(sky2image(u,v)) = (u,v) for all positions (exact arithmetic); get_jacobian is the constant derivative of image2sky.", "quantifier": "all affine coefficients and origins, all positions", "why_tests_cant": "universally quantified algebraic identity in eight real variables", "anchors": ["pizza_cutter/des_pizza_cutter/_affine_wcs.py:AffineWCS"]}
{"id": "C04", "title": "SE image coordinates are zero-indexed and round-trip", "statement": "For an SE image slice with an invertible WCS and any position offset, sky2image inverts image2sky, image2sky(x,y) is the WCS evaluated at (x+offset, y+offset), and the array form of both calls is the element-wise scalar form. Mismatched or too-deep shapes are rejected.", "quantifier": "all positions, offsets, array lengths and invertible WCS functions", "why_tests_cant": "offset mistakes cancel in simple round-trip tests at offset 0", "anchors": ["pizza_cutter/des_pizza_cutter/_se_image.py:SEImageSlice.image2sky", "pizza_cutter/des_pizza_cutter/_se_image.py:SEImageSlice.sky2image"]}
{"id": "C05", "title": "Finite-difference Jacobians are exact for locally affine skies, including across RA 0/360", "statement": "If the sky position is an affine function of pixel position up to a multiple of 360 in RA, then FastHashingWCS.get_jacobian and the WCS pixel-area computation return the true derivative (times 3600 and -cos(dec) for RA) and |det| at every position and step, no matter where the RA wrap falls, provided the RA change over the stencil is less than 180 degrees.", "quantifier": "all affine coefficients, positions, steps and all placements of the 360-degree wrap", "why_tests_cant": "the wrap can fall between any two stencil points; tests use one header", "anchors": ["pizza_cutter/wcs.py:FastHashingWCS.get_jacobian", "pizza_cutter/des_pizza_cutter/_se_image.py:_compute_wcs_area"]}
{"id": "C06", "title": "Rough sky cut never loses an image that contains the point", "statement": "For a non-celestial affine WCS, ccd_contains_radec accepts every sky position that lies on the CCD pixel rectangle and every position within bounds_buffer_uv (per coordinate) of such a position, for every image shape and every grid size.", "quantifier": "all image shapes, WCS coefficients, buffers, grid sizes and sky positions", "why_tests_cant": "no finite set of points shows absence of false negatives", "anchors": ["pizza_cutter/des_pizza_cutter/_sky_bounds.py:get_rough_sky_bounds", "pizza_cutter/des_pizza_cutter/_se_image.py:SEImageSlice.ccd_contains_radec"]}
{"id": "C07", "title": "Slice bounds are a square of the right parity centred on the target", "statement": "compute_slice_bounds always returns a square box whose side has the same parity as the coadd box and is floor(frac_buffer*box_size) or one more, and whose centre is within half a pixel of the target position in each coordinate.", "quantifier": "all sky positions, box sizes, fractional buffers", "why_tests_cant": "floor/parity boundary cases for all real positions", "anchors": ["pizza_cutter/des_pizza_cutter/_se_image.py:SEImageSlice.compute_slice_bounds"]}
{"id": "C08", "title": "Accepted slices are read exactly, in range, with zero-point scaling", "statement": "If ccd_contains_bounds accepts a square box with a non-negative edge buffer then set_slice reads only in-range pixels, every cutout is exactly box_size x box_size, pixel (i,j) of the image is (image-background)*scale, of the weight is weight/scale^2, and of the mask and noise is the value at (rowmin+i, colmin+j); the original arrays are not modified (tape-bump masking off). Boxes touching the excluded border are refused.", "quantifier": "all image shapes, boxes, buffers and pixel contents", "why_tests_cant": "python slices silently truncate or wrap negative indices, so errors appear only at specific boundaries", "anchors": ["pizza_cutter/des_pizza_cutter/_se_image.py:SEImageSlice.set_slice", "pizza_cutter/des_pizza_cutter/_se_image.py:SEImageSlice.ccd_contains_bounds"]}
{"id": "C09", "title": "PSF stamps are centred on the pixel nearest the requested position", "statement": "For odd stamp sizes the PSF stamp origin computed for an SE image and for the coadd layout puts the stamp centre on the pixel nearest to the requested position (within half a pixel, remaining sub-pixel offset in [-1/2, 1/2)); even sizes are refused; the sky position handed to the PSF is the centre of that pixel.", "quantifier": "all positions, odd stamp sizes, offsets and invertible coadd WCS", "why_tests_cant": "rounding at half-pixel boundaries and offset handling for all reals", "anchors": ["pizza_cutter/des_pizza_cutter/_se_image.py:SEImageSlice._compute_psf_stamp_bounds", "pizza_cutter/des_pizza_cutter/_pizza_cutter.py:_build_coadd_psf_layout", "pizza_cutter/des_pizza_cutter/_se_image.py:SEImageSlice.get_psf_image"]}
{"id": "C10", "title": "PSF images are normalised, square and odd", "statement": "Whenever get_psf_image/set_psf succeed on a drawn stamp with non-zero total flux, the stored PSF sums to one, is square with odd side, and its recorded box size and origin agree with the stamp; stamps of any other shape raise.", "quantifier": "all drawn stamps (any values, sizes) and positions", "why_tests_cant": "The stamps come from external PSF models with arbitrary values, also negative ones and ones that sum to zero; tests draw a few Gaussians.", "anchors": ["pizza_cutter/des_pizza_cutter/_se_image.py:SEImageSlice.get_psf_image", "pizza_cutter/des_pizza_cutter/_se_image.py:SEImageSlice.set_psf"]}
{"id": "C11", "title": "Slices tile the coadd exactly", "statement": "build_slice_locations succeeds iff image_width-2*buffer_size is a multiple of central_size; then the central regions of the slices cover every pixel of the buffered interior exactly once, every slice with its buffer lies inside the image, and slices are numbered row by row.", "quantifier": "all central sizes, buffers and image widths", "why_tests_cant": "Whether every pixel is covered exactly once depends on the divisibility of three sizes; tests check one configuration.", "anchors": ["pizza_cutter/slice_utils/locate.py:build_slice_locations"]}
{"id": "C12", "title": "Object data geometry is self-consistent", "statement": "For every slice, cutout_row/col + orig_start_row/col equals orig_row/col, the recorded ra/dec and Jacobian are those of the WCS at that centre (with the position offset), box_size is central+2*buffer, id is the index, and the PSF centre is (psf_box_size-1)/2.", "quantifier": "all sizes, WCS functions and slices", "why_tests_cant": "An error of one pixel or of the position offset shows only in some slices of some configurations; tests look at one tile with one offset.", "anchors": ["pizza_cutter/des_pizza_cutter/_pizza_cutter.py:_build_object_data"]}
{"id": "C13", "title": "Full-edge test detects exactly fully masked edges", "statement": "slice_full_edge_masked is true iff one of the four edges has only non-positive weights or one of the four edges has a bad flag on every pixel. (An edge whose pixels are all unusable, some by weight and some by flag, is not detected.)", "quantifier": "all weight maps, masks, flags and shapes", "why_tests_cant": "There are exponentially many masks; a test with a few masked rows does not show that a single good pixel on each edge is enough, or that corners count for both edges.", "anchors": ["pizza_cutter/slice_utils/flag.py:slice_full_edge_masked"]}
{"id": "C14", "title": "Bad-image-flag test detects exactly any flagged pixel", "statement": "slice_has_flags is true iff some pixel of the slice carries at least one of the flags; clearing flags elsewhere or adding unrelated bits never changes the answer.", "quantifier": "all masks, shapes and 32 bit flag words", "why_tests_cant": "A wrong mask differs from a right one in a single bit of one of 2^(32 n) masks.", "anchors": ["pizza_cutter/slice_utils/flag.py:slice_has_flags"]}
{"id": "C15", "title": "Masked fraction is a true fraction", "statement": "compute_masked_fraction equals (number of non-ignored pixels with weight<=0 or a bad flag)/(number of non-ignored pixels), is 1 when everything is ignored, is in [0,1], is monotone in the mask, and is 0 / 1 iff no / all non-ignored pixels are masked.", "quantifier": "all weight maps, masks, flags, ignore masks and shapes", "why_tests_cant": "The fraction combines three conditions per pixel (weight, flags, ignore mask); tests cover a few of the exponentially many combinations.", "anchors": ["pizza_cutter/slice_utils/flag.py:compute_masked_fraction"]}
{"id": "C16", "title": "Mask symmetrisation adds exactly the rotated bits", "statement": "With no angle, symmetrize_bmask never clears a bit, and a bit is newly set at (i,j) iff it is one of sym_flags and is set at the pixel that the 90-degree rotation carries to (i,j) and that pixel is not protected by no_sym_mask; non-square masks raise without modification.", "quantifier": "all square masks, flag selections and protection masks", "why_tests_cant": "Which bits of which rotated pixel are added depends on the whole mask and on the protected pixels; tests rotate a few single pixels.", "anchors": ["pizza_cutter/slice_utils/symmetrize.py:symmetrize_bmask"]}
{"id": "C17", "title": "Weight symmetrisation zeroes exactly the rotated zero-weight pixels", "statement": "With no angle, symmetrize_weight sets a weight to zero iff the pixel rotated onto it has exactly zero weight and is unprotected, and leaves every other weight bit-for-bit unchanged; no non-negative weight is ever increased.", "quantifier": "all square weight maps and protection masks", "why_tests_cant": "Which weights become zero depends on the whole map and on the protected pixels; tests rotate a few single pixels.", "anchors": ["pizza_cutter/slice_utils/symmetrize.py:symmetrize_weight"]}
{"id": "C18", "title": "Symmetrisation closes after three quarter turns", "statement": "Applying the 90-degree mask symmetrisation three times gives a mask with exact four-fold symmetry in the selected flags and further applications change nothing; a single application in general does not.", "quantifier": "all square masks, flags and protection masks", "why_tests_cant": "A claim about the fixed point reached from every mask, for every combination of bits.", "anchors": ["pizza_cutter/slice_utils/symmetrize.py:symmetrize_bmask", "pizza_cutter/des_pizza_cutter/_coadd_slices.py:_build_slice_inputs"]}
{"id": "C19", "title": "Angle-list symmetrisation is order independent and only adds masking", "statement": "For any list of angles the slice masks after symmetrisation are the OR over angles of the individually symmetrised originals: independent of the order and repetition of the angles, never clearing a bit, only adding selected flags, and only turning weights to zero.", "quantifier": "all angle lists, masks, and any rotation resampling routine", "why_tests_cant": "Angle lists have any length and the rotation by other angles goes through an external resampling routine.", "anchors": ["pizza_cutter/des_pizza_cutter/_coadd_slices.py:_build_slice_inputs", "pizza_cutter/slice_utils/symmetrize.py:symmetrize_bmask", "pizza_cutter/slice_utils/symmetrize.py:symmetrize_weight"]}
{"id": "C20", "title": "Neighbour search finds exactly the nearby good pixels, without overflow", "statement": "The bad-pixel search used by interpolation lists every bad pixel exactly once in row-major order, lists (after de-duplication) exactly the good pixels within buff of some bad pixel, marks a bad pixel isolated iff there is no good pixel within iso_buff, and never overruns its preallocated buffers nor raises \"good_pix too small\".", "quantifier": "all masks, shapes, buff and iso_buff", "why_tests_cant": "The compiled code writes into buffers of a computed size without bounds checks; that no mask overflows them cannot be shown by trying masks.", "anchors": ["pizza_cutter/slice_utils/interpolate.py:_get_nearby_good_pixels"]}
{"id": "C21", "title": "Interpolation only replaces bad pixels and never reads them", "statement": "interpolate_image_and_noise (default options) leaves every good pixel of the image and of all noise fields unchanged, and its output does not depend on the input values at bad pixels (NaN/garbage there is harmless); image and noise fields are interpolated at the same pixels from the same good pixels. It returns nothing iff all pixels are bad or the bad fraction exceeds maxfrac; without bad pixels it returns equal copies.", "quantifier": "all images, masks, weights, flags, numbers of noise fields and any scattered-data interpolator", "why_tests_cant": "value-independence quantifies over all garbage", "anchors": ["pizza_cutter/slice_utils/interpolate.py:interpolate_image_and_noise", "pizza_cutter/slice_utils/interpolate.py:_interp_one"]}
{"id": "C22", "title": "interpolate_image_at_mask agrees with the image/noise version", "statement": "interpolate_image_at_mask leaves good pixels unchanged, is independent of values at bad pixels, returns nothing iff all pixels are bad or the bad fraction exceeds maxfrac, and equals the image part of interpolate_image_and_noise run with the same mask.", "quantifier": "all images, masks, buffers, interpolators and random streams", "why_tests_cant": "The two functions duplicate their code and can differ for particular masks only (none bad, all isolated).", "anchors": ["pizza_cutter/slice_utils/interpolate.py:interpolate_image_at_mask"]}
{"id": "C23", "title": "The interpolator always has data to work from", "statement": "Whenever interpolation proceeds (some bad pixel, not all bad) the set of good points handed to the interpolator is non-empty, and with iso_buff >= 1 not every bad pixel is isolated, so after noise-filling isolated pixels there is still something to interpolate.", "quantifier": "all masks of all shapes", "why_tests_cant": "A connectivity argument over all masks: some good pixel is always near some bad one; tests use a few masks.", "anchors": ["pizza_cutter/slice_utils/interpolate.py:interpolate_image_and_noise"]}
{"id": "C24", "title": "Noise filling of isolated pixels works whether or not any pixel is isolated", "statement": "With fill_isolated_with_noise=True interpolate_image_and_noise returns an interpolated image for every mask within maxfrac; isolated bad pixels get noise draws and all other bad pixels are interpolated.", "quantifier": "all masks, images, numbers of noise fields, interpolators and random streams", "why_tests_cant": "The failure needs a mask without isolated pixels together with the option for noise; tests use masks with isolated pixels.", "anchors": ["pizza_cutter/slice_utils/interpolate.py:interpolate_image_and_noise"]}
{"id": "C25", "title": "Masked-edge copying moves good neighbours into masked edges consistently", "statement": "copy_masked_edges_image_and_noise changes a pixel only if it lies on a fully bad edge line whose adjacent line is not fully bad and the adjacent pixel is good; it then receives the original image, mask, weight and every noise value of that one adjacent good pixel. All other pixels are unchanged, and such an edge is no longer fully masked afterwards.", "quantifier": "all images, masks, flags and shapes of at least 2x2", "why_tests_cant": "the four edge steps read partially updated arrays; corner interactions", "anchors": ["pizza_cutter/slice_utils/interpolate.py:copy_masked_edges_image_and_noise"]}
{"id": "C26", "title": "FWHM is scale and rotation invariant", "statement": "measure_fwhm is unchanged when the image is multiplied by any positive constant or its pixels are permuted (rotated, flipped), is non-negative and at most 2*sqrt(npix/pi).", "quantifier": "all images with a positive maximum", "why_tests_cant": "Invariance is a relation between runs on all pairs of images; tests compare a few Gaussians within a tolerance.", "anchors": ["pizza_cutter/slice_utils/measure.py:measure_fwhm"]}
{"id": "C27", "title": "The noise image covers every pixel exactly once with the right variance", "statement": "MemMappedNoiseImage fills every pixel exactly once for every image shape and chunk size, with a unit normal draw times sqrt(1/w) where w is the weight, or fill_weight where the weight is non-positive and a fill weight is given; reading any window twice gives equal values.", "quantifier": "all shapes, chunk sizes, weights", "why_tests_cant": "The last chunk is partial for most combinations of shape and chunk size; tests use a few sizes.", "anchors": ["pizza_cutter/memmappednoise.py:MemMappedNoiseImage"]}
{"id": "C28", "title": "Lanczos edge flag is set exactly when no kernel pixel is inside the image", "statement": "lanczos_resample flags a position as edge iff none of the kernel pixels lies inside the image, and then the value is 0. (The documentation says truncated kernels are flagged; a kernel that is only partly outside is not.)", "quantifier": "all non-empty images, all positions, kernel sizes 1 to 3", "why_tests_cant": "Decided by floors of real positions near the borders, and kernels of several sizes; tests try a few positions.", "anchors": ["pizza_cutter/coadding/_lanczos.py:lanczos_resample"]}
{"id": "C29", "title": "Lanczos resampling is memory safe and local", "statement": "lanczos_resample only reads pixels inside the image, and the value at a position depends only on pixels less than a+1 away from it in each coordinate.", "quantifier": "all images, positions and kernel sizes", "why_tests_cant": "compiled code has no bounds checks; must hold for every position", "anchors": ["pizza_cutter/coadding/_lanczos.py:lanczos_resample"]}
{"id": "C30", "title": "Lanczos resampling is linear in the image", "statement": "Resampling a linear combination of images equals the linear combination of the resampled images, at every position.", "quantifier": "all images, scalars and positions", "why_tests_cant": "A relation between runs on all pairs of images and scalars; tests compare a few random images within a tolerance.", "anchors": ["pizza_cutter/coadding/_lanczos.py:lanczos_resample"]}
{"id": "C31", "title": "Two-image resampling equals two single resamplings", "statement": "lanczos_resample_two returns exactly the values and edge flags of lanczos_resample applied to each image.", "quantifier": "all pairs of equal-shape images, positions, kernel sizes up to 3", "why_tests_cant": "duplicated loops can drift apart", "anchors": ["pizza_cutter/coadding/_lanczos.py:lanczos_resample_two"]}
{"id": "C32", "title": "Integer positions reproduce pixel values", "statement": "At an integer position inside the image the resampled value is the pixel value up to a relative error below 2e-14, because the kernel vanishes exactly at all other integer offsets. (It is not exactly the pixel value: the approximate sinc is not exactly 1 at 0.)", "quantifier": "all images, all in-range integer positions, a in 1..3", "why_tests_cant": "A relation for every pixel of every image; the skipped pixels at the border make the edges special, tests look at the interior of one image.", "anchors": ["pizza_cutter/coadding/_lanczos.py:lanczos_resample", "pizza_cutter/coadding/_sinc.py:sinc_pade"]}
{"id": "C33", "title": "The sinc approximation is well defined and even", "statement": "sinc_pade never divides by zero for any real argument, is even, and is exactly zero at +-1, +-2, +-3.", "quantifier": "all real arguments of sinc_pade", "why_tests_cant": "absence of poles on the whole real line", "anchors": ["pizza_cutter/coadding/_sinc.py:sinc_pade"]}
{"id": "C34", "title": "Lanczos resampling commutes with shifts, transposes and flips", "statement": "Shifting the image by whole pixels (zero padded) and shifting the positions by the same amount leaves values unchanged; transposing the image and swapping row/col positions leaves values unchanged; reversing an axis and reflecting positions leaves values unchanged.", "quantifier": "all images, shifts and positions", "why_tests_cant": "A relation between runs on all images, shifts and positions; off-by-one errors at the edges of the kernel cancel for symmetric images.", "anchors": ["pizza_cutter/coadding/_lanczos.py:lanczos_resample"]}
{"id": "C35", "title": "Caches are transparent", "statement": "Every lru_cached reader returns, for every sequence of calls with any cache size and any pattern of hits, misses and evictions, the same value as an uncached call, and never stores more than maxsize entries, provided equal keys mean equal arguments.", "quantifier": "all call histories, cache sizes and pure functions", "why_tests_cant": "histories and eviction patterns are unbounded", "anchors": ["pizza_cutter/des_pizza_cutter/_se_image.py:_read_image_cached", "pizza_cutter/des_pizza_cutter/_se_image.py:_get_wcs_inverse", "pizza_cutter/des_pizza_cutter/_se_image.py:_get_wcs_area_interp", "pizza_cutter/des_pizza_cutter/_se_image.py:_get_noise_image_cached", "pizza_cutter/des_pizza_cutter/_pizza_cutter.py:_read_gaia_stars"]}
{"id": "C36", "title": "Tape-bump masking is applied exactly once in effect", "statement": "With mask_tape_bumps on, every slice read from a CCD sees TAPEBUMP set and SUSPECT cleared exactly inside the tape-bump boxes and all other bits unchanged, no matter how many slices were read before, in which order and with which cache evictions.", "quantifier": "all histories of slice reads and evictions, all masks", "why_tests_cant": "the cached array is modified in place, so correctness depends on history", "anchors": ["pizza_cutter/des_pizza_cutter/_se_image.py:SEImageSlice._set_tape_bump_mask", "pizza_cutter/des_pizza_cutter/_se_image.py:SEImageSlice.set_slice", "pizza_cutter/des_pizza_cutter/_tape_bumps.py:TAPE_BUMPS"]}
{"id": "C37", "title": "Turning tape-bump masking off gives the file mask", "statement": "A slice read with mask_tape_bumps off sees the bit mask as stored in the file, whatever other slices were read before in the same process.", "quantifier": "all histories of slice reads with either setting", "why_tests_cant": "depends on earlier reads through the shared cached array", "anchors": ["pizza_cutter/des_pizza_cutter/_se_image.py:SEImageSlice.set_slice"]}
{"id": "C38", "title": "Tape-bump boxes match the CCD table convention", "statement": "The tape-bump table covers the science CCDs with boxes that are non-empty, inside a 4096x2048 CCD, carry the TAPEBUMP bit and their own CCD number; every CCD has six disjoint boxes, one on each side at the bottom, in the middle and at the top, of 111 to 201 columns and 81 to 191 rows, together less than 1.7 per cent of the CCD; the masked pixels are the pixels of the (one-indexed) boxes.", "quantifier": "all table entries and pixels", "why_tests_cant": "whole-table statement with an indexing convention", "anchors": ["pizza_cutter/des_pizza_cutter/_tape_bumps.py:TAPE_BUMPS", "pizza_cutter/des_pizza_cutter/_se_image.py:SEImageSlice._set_tape_bump_mask"]}
{"id": "C39", "title": "Interpolated flux bookkeeping is consistent", "statement": "After set_interp_image_noise_pmask the interpolated fraction is 1 exactly where the processing mask is non-zero and 0 elsewhere, the interp-only image equals the image there and 0 elsewhere, and the original image is retained.", "quantifier": "all images, masks, weights and flags", "why_tests_cant": "The arrays are related pixel by pixel and updated in place one after the other; a pixel where they disagree needs a particular mask or value (for example a bit above the first).", "anchors": ["pizza_cutter/des_pizza_cutter/_se_image.py:SEImageSlice.set_interp_image_noise_pmask"]}
{"id": "C40", "title": "Nearest-pixel mapping maps each slice pixel to the nearest source pixel or to zero", "statement": "map_image_by_nearest_pixel gives at each slice pixel the value of the source image at the pixel nearest to the mapped position if that is inside the image, else zero; it never indexes out of range.", "quantifier": "all images, mappings (including NaN from the interpolator) and slice positions", "why_tests_cant": "Rounding at half-pixel positions, positions before the first pixel and NaN from the interpolator; tests map a few positions.", "anchors": ["pizza_cutter/des_pizza_cutter/_se_image.py:SEImageSlice.map_image_by_nearest_pixel"]}
{"id": "C41", "title": "Resampled masks come from the nearest SE pixel or are flagged as edge", "statement": "For every coadd pixel the resampled SE mask and processing mask hold the value at the SE pixel nearest to the mapped position if it is inside the slice, and the EDGE flag otherwise; the processing mask additionally has RESAMPLE_BOUNDS iff the interpolation kernel has no pixel inside the slice.", "quantifier": "all masks and mapped positions", "why_tests_cant": "rounding at all real positions, including negative ones", "anchors": ["pizza_cutter/des_pizza_cutter/_se_image.py:SEImageSlice.resample"]}
{"id": "C42", "title": "Resampling refuses incomplete slices", "statement": "For every history of calls on an SE slice, resample succeeds in its precondition check iff set_slice, set_psf and set_interp_image_noise_pmask were all called before, and otherwise raises without returning data; resample_psf needs only set_psf and map_image_by_nearest_pixel only set_slice.", "quantifier": "all histories of calls on an SE image slice", "why_tests_cant": "Depends on the history of calls on the object; tests call the methods in the documented order.", "anchors": ["pizza_cutter/des_pizza_cutter/_se_image.py:SEImageSlice.resample", "pizza_cutter/des_pizza_cutter/_se_image.py:SEImageSlice.resample_psf", "pizza_cutter/des_pizza_cutter/_se_image.py:SEImageSlice.map_image_by_nearest_pixel"]}
{"id": "C43", "title": "Resampling conserves surface brightness under whole-pixel shifts", "statement": "If the coadd grid is a whole-pixel translate of the SE grid with equal pixel areas, the resampled image, noises, interp-only image and interp fraction equal the shifted SE pixels (up to the fixed kernel constant), and the masks equal the shifted masks exactly.", "quantifier": "all slices, shifts and positions", "why_tests_cant": "A relation for all shifts and slices, also partly outside of the image; tests use four shifts.", "anchors": ["pizza_cutter/des_pizza_cutter/_se_image.py:SEImageSlice.resample"]}
{"id": "C44", "title": "Resampled PSF is normalised and free of edge artefacts", "statement": "Whenever the resampled PSF stamp has non-zero sum, the returned PSF sums to one and is zero wherever the kernel has no pixel inside the SE stamp; it scales out any overall factor of the SE PSF and of the pixel areas.", "quantifier": "all stamps and mapped positions", "why_tests_cant": "Artefacts depend on where the mapped positions fall relative to the edges of the stamp; tests look at a few stamps.", "anchors": ["pizza_cutter/des_pizza_cutter/_se_image.py:SEImageSlice.resample_psf"]}
{"id": "C45", "title": "Bad Piff model flag", "statement": "A Piff model is flagged iff some grid value is non-finite or some finite value deviates from the median by more than the threshold.", "quantifier": "all grids of values, thresholds and sizes", "why_tests_cant": "The decision depends on the median of the finite values of a grid in which any values may be infinite or NaN; tests look at one good and one bad model.", "anchors": ["pizza_cutter/des_pizza_cutter/_se_image.py:_compute_bad_piff_model_delta_flag"]}
{"id": "C46", "title": "Every candidate epoch is accounted for exactly once", "statement": "Unless no candidate has a usable PSF, _build_slice_inputs puts every SE image that passed the geometric cuts into exactly one of the used and not-used lists, in the original order, with one flag word per unused image and one weight per used image.", "quantifier": "all source lists, masks and configurations", "why_tests_cant": "There are several early exits per image and any number of images; an image lost or counted twice needs a particular combination.", "anchors": ["pizza_cutter/des_pizza_cutter/_coadd_slices.py:_build_slice_inputs"]}
{"id": "C47", "title": "Rejection flags are faithful", "statement": "Each unused epoch has a non-zero flag word built only from the documented bits; FULL_EDGE_MASKED, SLICE_HAS_FLAGS, HIGH_MASKED_FRAC, BAD_PSF_MODEL and HIGH_INTERP_MASKED_FRAC are set exactly when the corresponding condition caused rejection. The masked fraction that rejects an image is always that of its masks before interpolation: the second test, after it, never rejects what passed the first, so that an image that passed the initial cuts and is not used has just HIGH_INTERP_MASKED_FRAC, or FULL_EDGE_MASKED if masked edges are copied.", "quantifier": "all source lists, masks and configurations", "why_tests_cant": "Every combination of rejection reasons over any number of images; tests look at one reason at a time.", "anchors": ["pizza_cutter/des_pizza_cutter/_coadd_slices.py:_build_slice_inputs", "pizza_cutter/slice_utils/procflags.py"]}
{"id": "C48", "title": "Flagged SE images have no influence", "statement": "SE images with non-zero image_flags are never opened and removing them from the source list does not change any output of _build_slice_inputs.", "quantifier": "all source lists, flags and contents of the flagged images", "why_tests_cant": "noninterference is a two-run property", "anchors": ["pizza_cutter/des_pizza_cutter/_coadd_slices.py:_build_slice_inputs"]}
{"id": "C49", "title": "Coadding weights are positive and sum to one", "statement": "If any epoch is used, the returned weights are all strictly positive and sum to one, and there are as many as used slices; each weight is the largest value of the weight map of its slice (divided by the fourth power of the FWHM of its PSF for the weight type noise-fwhm) divided by the sum of these; an unknown weight type raises.", "quantifier": "all source lists and configurations", "why_tests_cant": "a zero weight would need a specific fully-masked slice reaching the end of the pipeline", "anchors": ["pizza_cutter/des_pizza_cutter/_coadd_slices.py:_build_slice_inputs", "pizza_cutter/des_pizza_cutter/_coadd_slices.py:_build_coadd_weight"]}
{"id": "C50", "title": "Used epochs satisfy every cut", "statement": "Every used epoch has image_flags zero, lies inside the CCD away from the edge buffer, has no bad-image flag, no bad PSF, masked fraction below max_masked_fraction both before and after interpolation, and no fully masked edge in the data that is interpolated.", "quantifier": "all source lists and configurations", "why_tests_cant": "Each cut is applied at a different place in the loop, some before and some after interpolation; that none is bypassed is a claim about all combinations.", "anchors": ["pizza_cutter/des_pizza_cutter/_coadd_slices.py:_build_slice_inputs"]}
{"id": "C51", "title": "Every altered pixel is flagged in the processing mask", "statement": "For a used epoch each pixel whose image or noise value differs from the slice data as read is flagged NOISE_INTERP or SPLINE_INTERP in the processing mask; pixels flagged NOISE_INTERP are exactly those with a noise_interp flag; every pixel with a spline_interp flag (not repaired by edge copying) is flagged.", "quantifier": "all images, masks, weights and interpolators", "why_tests_cant": "A pixel that is altered but not flagged needs a particular combination of interpolation, edge copying and noise filling; tests look at a few masks.", "anchors": ["pizza_cutter/des_pizza_cutter/_coadd_slices.py:_build_slice_inputs"]}
{"id": "C52", "title": "Every interpolated pixel is flagged in the processing mask", "statement": "Every pixel replaced by the interpolator (non-positive weight or spline flag after edge copying) carries SPLINE_INTERP.", "quantifier": "all images and weights", "why_tests_cant": "fails only when an interpolated value coincides with the original", "anchors": ["pizza_cutter/des_pizza_cutter/_coadd_slices.py:_build_slice_inputs"]}
{"id": "C53", "title": "Rejected candidates do not disturb the coadd", "statement": "Without outlier rejection, removing a candidate that is rejected by the initial cuts does not change the used slices, their interpolated data or the weights.", "quantifier": "all source lists, rejected candidates and random streams", "why_tests_cant": "two-run property involving the shared random stream", "anchors": ["pizza_cutter/des_pizza_cutter/_coadd_slices.py:_build_slice_inputs"]}
{"id": "C54", "title": "Coadd masks are the OR of the epoch masks", "statement": "A bit is set in the coadd ormask (bmask) at a pixel iff it is set in the resampled mask (processing mask) of at least one used epoch at that pixel.", "quantifier": "all numbers of epochs and masks", "why_tests_cant": "A bit lost needs a particular order of epochs and masks; tests coadd one or two epochs.", "anchors": ["pizza_cutter/des_pizza_cutter/_coadd_slices.py:_coadd_slice_inputs"]}
{"id": "C55", "title": "The coadd is a normalised weighted mean", "statement": "The coadded image, noise, PSF and masked fraction are the weighted means of the resampled epochs with weights normalised to one: invariant under rescaling all weights, under reordering epochs, equal to the epoch when there is only one, and between the smallest and largest epoch value when weights are positive; non-finite PSF values count as zero.", "quantifier": "all numbers of epochs, weights and data", "why_tests_cant": "Holds for every number of epochs and all weights; tests coadd one or two epochs within a tolerance.", "anchors": ["pizza_cutter/des_pizza_cutter/_coadd_slices.py:_coadd_slice_inputs"]}
{"id": "C56", "title": "Masked fraction map and weight map are valid", "statement": "The coadd masked fraction lies in [0,1] at every pixel and the weight map is constant, non-negative and equal to the inverse noise variance, so writing them never raises the negative-value error; that error is raised for exactly the masked fraction and weight images with a pixel below zero, minus infinity included.", "quantifier": "all epochs, including lanczos ringing outside [0,1]", "why_tests_cant": "Lanczos ringing moves resampled values beyond the limits by amounts that depend on the pixels; tests use smooth images.", "anchors": ["pizza_cutter/des_pizza_cutter/_coadd_slices.py:_coadd_slice_inputs", "pizza_cutter/des_pizza_cutter/_pizza_cutter.py:_write_single_image"]}
{"id": "C57", "title": "Slice ranges", "statement": "A slice range is accepted iff all its indices are valid slice numbers; \"start:end\" selects start..end-1; None selects all.", "quantifier": "all range specifications and numbers of slices", "why_tests_cant": "Ranges are free text: negative steps, empty and degenerate strings; tests use two well-formed ones.", "anchors": ["pizza_cutter/des_pizza_cutter/_pizza_cutter.py:_extract_slice_range"]}
{"id": "C58", "title": "Cache ordering permutes but never drops slices", "statement": "The space-filling-curve ordering processes each requested slice exactly once, for every WCS, range and curve.", "quantifier": "all ranges, numbers of slices and distance functions", "why_tests_cant": "The order depends on all pairwise distances and ties between them; a slice dropped or repeated needs a particular pattern.", "anchors": ["pizza_cutter/des_pizza_cutter/_pizza_cutter.py:_coadd_and_write_images"]}
{"id": "C59", "title": "Job chunks partition the work", "statement": "For every number of slices and every positive number of chunks, the per-chunk job lists are consecutive, disjoint, cover every slice exactly once and carry the seed belonging to the slice id.", "quantifier": "all slice counts and chunk counts", "why_tests_cant": "Divisibility edge cases of two counts, also more chunks than slices; tests use one pair.", "anchors": ["pizza_cutter/des_pizza_cutter/_pizza_cutter.py:_coadd_and_write_images"]}
{"id": "C60", "title": "Output does not depend on parallelism or schedule", "statement": "For every interleaving of workers, every number of jobs and chunks, the pixel data and object data written are those of the sequential run, and epochs_info is the same up to order.", "quantifier": "all schedules, job counts, chunk counts", "why_tests_cant": "schedules cannot be enumerated", "anchors": ["pizza_cutter/des_pizza_cutter/_pizza_cutter.py:_coadd_and_write_images", "pizza_cutter/des_pizza_cutter/_pizza_cutter.py:_process_slice_chunk", "pizza_cutter/des_pizza_cutter/_pizza_cutter.py:_process_results"]}
{"id": "C61", "title": "Worker failures surface and the parent never deadlocks", "statement": "If computing some slice raises an exception, every complete parallel run ends with that error being raised in the parent and never with a normal return; if no slice fails every run ends normally; no reachable state is stuck.", "quantifier": "all schedules and failure sets", "why_tests_cant": "schedules cannot be enumerated", "anchors": ["pizza_cutter/des_pizza_cutter/_pizza_cutter.py:_process_slice_chunk", "pizza_cutter/des_pizza_cutter/_pizza_cutter.py:_coadd_and_write_images"]}
{"id": "C62", "title": "FITS cutout layout is disjoint and readable", "statement": "Each slice occupies its own range of the reserved image of the right size, ranges of different slices never overlap, and after all writes in any order reading box_size^2 pixels at start_row of any completed slice returns its data; slices not processed stay zero.", "quantifier": "all slice counts, box sizes, write orders", "why_tests_cant": "Disjointness is a relation between all pairs of writes in any order; tests read back one small file.", "anchors": ["pizza_cutter/des_pizza_cutter/_pizza_cutter.py:_reserve_images", "pizza_cutter/des_pizza_cutter/_pizza_cutter.py:_write_single_image", "pizza_cutter/des_pizza_cutter/_pizza_cutter.py:_process_results"]}
{"id": "C63", "title": "Everything written was reserved with the right type", "statement": "For every number of extra noise images, every cutout extension written by the slice results was reserved before with matching size and data type, extension names are distinct, and every reserved noise extension gets written.", "quantifier": "all numbers of extra noise images", "why_tests_cant": "universal over the number of noise images", "anchors": ["pizza_cutter/des_pizza_cutter/_pizza_cutter.py:_reserve_images", "pizza_cutter/des_pizza_cutter/_pizza_cutter.py:_process_results"]}
{"id": "C64", "title": "Epoch records list used epochs first with weights that sum to one", "statement": "For every slice the epochs_info rows are one per considered epoch, used ones first with flags 0 and their weight, unused ones with their flags and weight 0, all with the slice id; the recorded weights sum to 1 if there is a used epoch and to 0 otherwise.", "quantifier": "all lists of used and rejected epochs and their weights", "why_tests_cant": "Records are built from two lists of any length; tests look at one slice.", "anchors": ["pizza_cutter/des_pizza_cutter/_pizza_cutter.py:_make_epochs_info"]}
{"id": "C65", "title": "Every considered epoch is recorded", "statement": "Every SE image that passes the geometric cuts for a slice appears in epochs_info for that slice.", "quantifier": "all source lists, PSF flags and configurations", "why_tests_cant": "depends on the combination of PSF flags over all images", "anchors": ["pizza_cutter/des_pizza_cutter/_pizza_cutter.py:_make_epochs_info", "pizza_cutter/des_pizza_cutter/_coadd_slices.py:_build_slice_inputs"]}
{"id": "C66", "title": "Effective epoch number is between one and the number of epochs", "statement": "For a slice with data 1 <= nepoch_eff <= nepoch, with equality on the right iff all weights are equal; slices without data have nepoch = nepoch_eff = ncutout = 0.", "quantifier": "all non-empty vectors of positive weights", "why_tests_cant": "An inequality over all weight vectors of any length.", "anchors": ["pizza_cutter/des_pizza_cutter/_pizza_cutter.py:_process_results"]}
{"id": "C67", "title": "Image info rows match image ids", "statement": "Row k of image_info describes the SE image with image_id k (row 0 the coadd) for every info dict produced by load_objects_into_info, and paths are stored without truncation.", "quantifier": "all source lists and path lengths", "why_tests_cant": "The rows are indexed by ids assigned elsewhere, and string columns have a width taken from all the paths; tests use one tile with short paths.", "anchors": ["pizza_cutter/des_pizza_cutter/_pizza_cutter.py:_build_image_info", "pizza_cutter/des_pizza_cutter/_load_info.py:load_objects_into_info"]}
{"id": "C68", "title": "Extension names are stored without truncation", "statement": "image_info stores the image, weight, mask and background extension names exactly.", "quantifier": "all extension names of any length", "why_tests_cant": "depends on string length", "anchors": ["pizza_cutter/des_pizza_cutter/_pizza_cutter.py:_build_image_info"]}
{"id": "C69", "title": "Metadata stores configuration verbatim", "statement": "The metadata record stores the configuration text, versions and environment paths without truncation for every text, and the tile info bytes decode to the original JSON.", "quantifier": "all texts of configuration and tile description", "why_tests_cant": "Any text may appear in a configuration, also quotes, non-ASCII characters and very long values.", "anchors": ["pizza_cutter/des_pizza_cutter/_pizza_cutter.py:_build_metadata"]}
{"id": "C70", "title": "fpack seeds are valid", "statement": "The fpack dither seed is between 1 and 9999 for every tile name and band.", "quantifier": "all strings the seed may be derived from", "why_tests_cant": "The seed is a hash of an arbitrary string reduced to a range; tests use a few names.", "anchors": ["pizza_cutter/des_pizza_cutter/_pizza_cutter.py:_hash_to_int"]}
{"id": "C71", "title": "Random seeds are tied to slice and image, not to the subset processed", "statement": "The seed of slice i and the noise seeds of SE image k depend only on the main seed, the number of slices in the tile, the number of noise images and the image position, not on slice_range, job or chunk counts.", "quantifier": "all ranges, job counts and random streams", "why_tests_cant": "two-run property", "anchors": ["pizza_cutter/des_pizza_cutter/_pizza_cutter.py:_coadd_and_write_images"]}
{"id": "C72", "title": "Extra noise images do not change the primary noise field", "statement": "Requesting extra noise images leaves the seeds of the primary noise field of every SE image unchanged.", "quantifier": "all numbers of extra noise images and source images", "why_tests_cant": "two-run property", "anchors": ["pizza_cutter/des_pizza_cutter/_pizza_cutter.py:_coadd_and_write_images"]}
{"id": "C73", "title": "Staging out moves the file and only the file", "statement": "After a successful stage_out with a temporary directory the final path holds exactly the temporary content, the temporary file is gone, every other path is unchanged; without temporary directory, or with it equal to the destination directory, nothing is touched; a missing temporary file raises iff must_exist; calling it again does nothing. A directory at the final path is not replaced: stage_out raises an exception and touches nothing.", "quantifier": "all file system states, paths and histories of calls", "why_tests_cant": "The state of the file system before the call is arbitrary (links, directories, existing and missing files, equal paths); tests use an empty directory.", "anchors": ["pizza_cutter/files.py:StagedOutFile"]}
{"id": "C74", "title": "Staging out never loses the new data in a crash", "statement": "At every crash point during stage_out the complete new content exists at the temporary or the final path.", "quantifier": "all crash points and file system states", "why_tests_cant": "crash points are not tested", "anchors": ["pizza_cutter/files.py:StagedOutFile.stage_out"]}
{"id": "C75", "title": "Staging out replaces the destination atomically", "statement": "At every crash point the destination holds either its complete old content or the complete new content.", "quantifier": "all crash points, file contents and file system states", "why_tests_cant": "crash points are not tested", "anchors": ["pizza_cutter/files.py:StagedOutFile.stage_out"]}
{"id": "C76", "title": "Staging in never harms the original", "statement": "For every path combination StagedInFile leaves the original file unchanged through construction and any number of cleanups, the staged copy equals the original, cleanup removes exactly the copy, and when no staging is performed nothing is removed.", "quantifier": "all file system states, paths, histories", "why_tests_cant": "The state of the file system and the history of calls are arbitrary; tests stage one fresh file.", "anchors": ["pizza_cutter/files.py:StagedInFile"]}
{"id": "C77", "title": "A successful run means a fresh output", "statement": "If make_des_pizza_slices returns normally the validated output file contains the results of this run.", "quantifier": "all prior file system states, fpack outcomes and staging options", "why_tests_cant": "depends on stale files and external failures", "anchors": ["pizza_cutter/des_pizza_cutter/_pizza_cutter.py:make_des_pizza_slices", "pizza_cutter/files.py:StagedOutFile"]}
{"id": "C78", "title": "check_info accepts exactly the consistent tile descriptions", "statement": "check_info returns normally iff the coadd scale is 1, all bands agree, all present coadd paths belong to one tile and end with the band-specific suffix, every present SE path starts with the exposure/band/CCD slug, tile names agree, and SCAMP heads carry the tile prefix and band/CCD suffix.", "quantifier": "all info dictionaries with any number of sources", "why_tests_cant": "each of ~20 conditions for every source", "anchors": ["pizza_cutter/des_pizza_cutter/_des_info.py:check_info"]}
{"id": "C79", "title": "Flagging only adds the documented bits", "statement": "flag_data_in_info ORs into each image_flags exactly the Piff cut bits and the IGNORED_CCD bit when applicable, changes nothing else, and is idempotent.", "quantifier": "all info dicts and configurations", "why_tests_cant": "Which bits are set depends on four independent conditions per source and on flags already there; tests look at a few sources.", "anchors": ["pizza_cutter/des_pizza_cutter/_des_info.py:flag_data_in_info"]}
{"id": "C80", "title": "Piff cuts", "statement": "compute_piff_flags sets bit k iff cut k is enabled and violated; the result is zero iff all enabled cuts pass; loosening a threshold never adds bits (for non-negative mean sizes and spreads).", "quantifier": "all statistics and thresholds", "why_tests_cant": "Five cuts that may be absent, with statistics that may be NaN or missing, and comparisons at equality.", "anchors": ["pizza_cutter/des_pizza_cutter/_piff_tools.py:compute_piff_flags"]}
{"id": "C81", "title": "Loading assigns image ids and fails loudly", "statement": "load_objects_into_info gives the coadd id 0 and source k id k+1, raises on an unreadable image WCS unless an affine WCS is configured (then stores nothing for it), and leaves all other entries unchanged. A configured galsim PSF is built as an object, or read as a value if that fails; if both fail, or if the result cannot be used again, the call raises.", "quantifier": "all source lists and read failures", "why_tests_cant": "Failures of reading can happen at any source and file; tests load a complete tile.", "anchors": ["pizza_cutter/des_pizza_cutter/_load_info.py:load_objects_into_info", "pizza_cutter/des_pizza_cutter/_load_info.py:222-235"]}
{"id": "C82", "title": "Header normalisation", "statement": "The normalised FITS header has exactly the lower-cased readable keys, later duplicates win, unreadable entries are skipped.", "quantifier": "all headers: any number of cards with any keys, in any order", "why_tests_cant": "Headers contain keys that differ in case only, duplicates, comments without a key and cards that cannot be parsed; tests use one header.", "anchors": ["pizza_cutter/des_pizza_cutter/_load_info.py:_munge_fits_header"]}
{"id": "C83", "title": "Flag bits are distinct", "statement": "All processing-mask bits are distinct single bits that fit in a signed 32-bit mask, and so are the rejection flags; EDGE defaults therefore cannot be confused with other flags. The mask flags are the bits 29 (EDGE), 28 (NOISE_INTERP), 27 (SPLINE_INTERP), 26 (RESAMPLE_BOUNDS), 25 (GAIA_STAR), 24 (EXPAND_GAIA_STAR) and 23 (SLICE_APODIZED), so a mask that uses the bits 0 to 22 only carries none of them; the rejection flags have the values 1, 2, 4, 16 and 32.", "quantifier": "all pairs of flags, all masks with values below 2^23", "why_tests_cant": "global statement about the constant table", "anchors": ["pizza_cutter/des_pizza_cutter/_constants.py", "pizza_cutter/slice_utils/procflags.py", "pizza_cutter/des_pizza_cutter/_des_info.py:IGNORED_CCD"]}
{"id": "C84", "title": "Configured flag lists act as the union of their flags", "statement": "A list of flags in the configuration masks exactly the pixels carrying at least one of the listed flags.", "quantifier": "all flag lists, with repeated and overlapping flags", "why_tests_cant": "depends on list contents (sum vs or)", "anchors": ["pizza_cutter/des_pizza_cutter/_pizza_cutter.py:_coadd_single_slice"]}
{"id": "C85", "title": "Output path", "statement": "The output file name determined by the CLI depends injectively on tile, band, configuration name, tag and range for names without separators, and an explicit .fits or .fits.fz path is used as given so that the compressed result lands at path.fz / path.", "quantifier": "all option values", "why_tests_cant": "The path is assembled from free text with suffixes that may be present already; tests use one path.", "anchors": ["bin/des-pizza-cutter:go"]}
{"id": "C86", "title": "Adding a log level is all or nothing", "statement": "addLoggingLevel either raises and changes nothing, or defines the level constant, level name and both methods; a second identical call raises.", "quantifier": "all module states and names", "why_tests_cant": "The logging module is global state that may already hold any of the three names; tests add one level once.", "anchors": ["pizza_cutter/__init__.py:addLoggingLevel"]}
{"id": "C87", "title": "GAIA star masks only use bright enough stars and read-only catalog data", "statement": "The star mask of a slice uses exactly the stars with magnitude at most max_g_mag, in slice-local coordinates, with radius 10^poly(mag).", "quantifier": "all catalogs, polynomials and slices", "why_tests_cant": "The radius is a polynomial of a catalogue magnitude that may be NaN, and the catalogue is shared between slices; tests use a small simulated catalogue.", "anchors": ["pizza_cutter/des_pizza_cutter/_pizza_cutter.py:_add_gaia_radius", "pizza_cutter/des_pizza_cutter/_pizza_cutter.py:_build_gaia_star_mask", "pizza_cutter/des_pizza_cutter/_pizza_cutter.py:_read_gaia_stars"]}
{"id": "C88", "title": "A slice result does not depend on the other slices processed", "statement": "The pixels and object data of a slice are the same in a full run and in any run restricted by slice_range that contains it.", "quantifier": "all slices and all slice ranges that contain them", "why_tests_cant": "two-run property", "anchors": ["pizza_cutter/des_pizza_cutter/_pizza_cutter.py:_coadd_and_write_images"]}
{"id": "C89", "title": "Lanczos value is the kernel weighted sum", "statement": "The resampled value at (y, x) is the sum over the image pixels (r, c) with y-a < r <= y+a and x-a < c <= x+a of the pixel value times L(x-c)*L(y-r), with L(d) = S(d)*S(d/a) and S the approximate sinc; pixels outside the image contribute nothing.", "quantifier": "all images, positions and kernel sizes up to 3", "why_tests_cant": "universal over positions; loop bounds and skipped pixels", "anchors": ["pizza_cutter/coadding/_lanczos.py:lanczos_resample"]}
{"id": "C90", "title": "Each file is read once while it fits in the cache", "statement": "If a history of calls to an lru_cached reader uses at most maxsize different keys, the underlying reader is called at most once for each key.", "quantifier": "all call histories and cache sizes", "why_tests_cant": "Depends on the history of requests and on evictions; tests read each file once.", "anchors": ["pizza_cutter/des_pizza_cutter/_se_image.py:_read_image_cached"]}
{"id": "C91", "title": "A failed run does not publish", "statement": "If the computation of make_des_pizza_slices raises, the file at the output path is what it was before the run.", "quantifier": "all file system states, staging options and exceptions", "why_tests_cant": "depends on leftovers of earlier crashes", "anchors": ["pizza_cutter/files.py:StagedOutFile.__exit__", "pizza_cutter/des_pizza_cutter/_pizza_cutter.py:make_des_pizza_slices"]}
{"id": "C92", "title": "Head WCS takes its image size from the image", "statement": "The header from which the SCAMP head WCS is built has the image dimensions (naxis1/2, znaxis1/2) of the image header whenever it has them, and every other entry from the head file.", "quantifier": "all headers and image sizes", "why_tests_cant": "Header keywords for the size may be absent, different or compressed (ZNAXIS); tests use one header.", "anchors": ["pizza_cutter/des_pizza_cutter/_load_info.py:load_objects_into_info"]}
{"id": "C93", "title": "A slice result is the weighted combination of the epochs chosen for its patch and is always storable", "statement": "For every slice of a tile, `_coadd_single_slice` returns the index it was called with, the weights and the epochs table of the inputs chosen by `_build_slice_inputs` for the patch, sky position, PSF layout and seed of that slice. If no epoch is used there are no pixel entries. Otherwise every pixel of image, PSF, masked fraction and each noise image is the weighted mean of the resampled used epochs with positive weights that sum to one, both masks are the OR of the epochs' masks, and the weight map is the inverse variance of the first noise image. All arrays have exactly the size of the slice's range in the output files and no stored weight or masked fraction is negative.", "quantifier": "all tiles, slices, seeds, numbers and contents of SE images, WCS, configurations (with an odd PSF box) and all behaviours of the external functions", "why_tests_cant": "A test runs the function on a few mock images; the claim relates the whole chain of selection, interpolation, resampling and combination for arbitrary numbers of epochs and sizes.", "anchors": ["pizza_cutter/des_pizza_cutter/_pizza_cutter.py:296-414"]}
{"id": "C94", "title": "Once the inputs of a slice are built nothing but building position lookups can fail", "statement": "With an odd PSF box and a PSF measurement that succeeds, `_coadd_single_slice` raises exactly what reading the star catalog, `_build_slice_inputs` or, after that, building the lookup of pixel positions for the first used epoch where that fails raises: making the epochs table, resampling at the looked up positions and combining never fail on the inputs that `_build_slice_inputs` returns. An even PSF box is an AssertionError for every slice; an index beyond the table is an IndexError.", "quantifier": "all tiles, slices, seeds, SE images and configurations", "why_tests_cant": "Absence of late exceptions (after hours of computation) for all combinations of epochs, shapes and masks is not settled by runs on a few images.", "anchors": ["pizza_cutter/des_pizza_cutter/_pizza_cutter.py:296-414", "pizza_cutter/des_pizza_cutter/_coadd_slices.py:560-710"]}
{"id": "C95", "title": "End to end: what a finished parallel run has written", "statement": "When a parallel run returns normally, then for every requested slice, whatever the number of workers, chunks and the interleaving: with the epochs chosen for its patch and seed, if there are none its row has zero epochs and all its pixels in all extensions are zero; otherwise its row has one cutout, the number of used epochs and the effective number, and in every extension its range holds, row by row, the weighted combination of its used epochs (see C93), converted to the type of the extension.", "quantifier": "all tiles, slice lists, seeds, numbers of workers and chunks, queue capacities and interleavings, SE images and configurations", "why_tests_cant": "Tests sample few interleavings and compare files of few tiles; the claim is about all schedules and all contents.", "anchors": ["pizza_cutter/des_pizza_cutter/_pizza_cutter.py:296-504", "pizza_cutter/des_pizza_cutter/_pizza_cutter.py:520-648"]}
{"id": "C96", "title": "The approximate sinc and the Lanczos kernel are as accurate as documented", "statement": "sinc_pade(x) differs from sin(pi x)/(pi x) by at most 6e-15 for |x| <= 1, 2.5e-10 for |x| <= 2 and 1.04e-6 for |x| <= 3; the Lanczos kernel computed from it is within the documented 1.03019e-5 (in fact within 1.05e-6) of the Lanczos kernel everywhere on its support; a resampled value differs from the exact Lanczos sum by at most 2.11e-6 times the sum of the absolute pixel values used.", "quantifier": "all real positions in the support, all images, kernel sizes 1, 2, 3", "why_tests_cant": "a bound over a continuum; tests sample points", "anchors": ["pizza_cutter/coadding/_sinc.py:sinc_pade", "pizza_cutter/coadding/_lanczos.py:lanczos_resample"]}
{"id": "C97", "title": "Resampling keeps a flat field flat", "statement": "Where all pixels in the kernel lie in the image and have the same value c, lanczos_resample with a = 3 returns c to 1.15 per cent and does not flag the position.", "quantifier": "all images, all real positions at least two pixels from the low and three from the high edges, all values c", "why_tests_cant": "a bound over a continuum of sub-pixel positions", "anchors": ["pizza_cutter/coadding/_lanczos.py:lanczos_resample", "pizza_cutter/coadding/_sinc.py:sinc_pade"]}
{"id": "C98", "title": "The position lookups cover the whole SE image and are exact between affine WCSs", "statement": "The tables built by _get_wcs_inverse give a finite coadd position for every position on the SE image, edges included; they are exact at the nodes, which are at most delta apart and enclose every position of the image; a lookup is NaN in both coordinates or in none, and only beyond the last nodes; if the two WCSs are related by an invertible affine map then the SE-to-coadd table is that map and the coadd-to-SE table is its inverse on the whole image. A grid step of zero raises.", "quantifier": "all WCS pairs, image sizes, grid steps and positions, for every interpolator that interpolates its nodes, is NaN exactly outside their convex hull and reproduces affine functions", "why_tests_cant": "a claim about a continuum of positions and all WCSs and grid steps", "anchors": ["pizza_cutter/des_pizza_cutter/_se_image.py:133-167", "pizza_cutter/coadding/_wcs_utils.py:5-82"]}
{"id": "C99", "title": "The pixel area lookups return the pixel area", "statement": "The table built by _get_wcs_area_interp returns at a position the pixel area of the WCS there (up to interpolation between nodes, hence exactly for an affine WCS); it needs an image more than two grid steps high and wide, otherwise ValueError.", "quantifier": "all WCSs, image sizes, grid steps, offsets and positions, for every grid interpolator that interpolates, reproduces bilinear functions, needs four nodes and clamps outside", "why_tests_cant": "a claim about all positions and WCSs; tests compare with loose tolerances", "anchors": ["pizza_cutter/des_pizza_cutter/_se_image.py:193-227", "pizza_cutter/coadding/_wcs_utils.py:85-131"]}
{"id": "C100", "title": "Resampling between affine WCSs", "statement": "With affine SE and destination WCSs, resample puts at every destination pixel whose true position is on the SE image the ratio of the pixel areas times the Lanczos interpolation of the slice at that position, for the image, the noise images, the interp-only image and the interp fraction; beyond the lookup grid it puts zeros and the EDGE flag; resample_psf returns the Lanczos interpolation of the PSF at the true positions divided by its sum.", "quantifier": "all affine WCSs, offsets, grid steps, images and positions", "why_tests_cant": "a claim about all WCS pairs and pixel contents", "anchors": ["pizza_cutter/des_pizza_cutter/_se_image.py:1375-1591", "pizza_cutter/des_pizza_cutter/_se_image.py:1593-1751", "pizza_cutter/des_pizza_cutter/_affine_wcs.py"]}
{"id": "C101", "title": "The noise field of an image has the noise level of the scaled image", "statement": "For an image with at least one positive weight, the noise field that set_slice reads has, at every pixel of positive weight w, a zero-mean normal value of variance scale^2/w, the variance of the zero-point scaled image there; at pixels of weight <= 0 it has the variance of the pixel of largest weight, so it is finite everywhere. Different pixels are independent, and overlapping slices of one image read the same field. An image without a positive weight raises ValueError.", "quantifier": "all image shapes, all weight maps, all zero points, all streams of draws, all boxes inside the image", "why_tests_cant": "The law of the field and the absence of repeated draws across 1024 x 1024 chunks cannot be read off a finite sample.", "anchors": ["pizza_cutter/des_pizza_cutter/_se_image.py:95-130", "pizza_cutter/des_pizza_cutter/_se_image.py:680", "pizza_cutter/des_pizza_cutter/_se_image.py:704-724", "pizza_cutter/memmappednoise.py:24-76"]}
{"id": "C102", "title": "The tile description is completed as documented", "statement": "add_extra_des_coadd_tile_info returns normally iff the coadd and every source have the entries it needs (image path, PSF path, zero point, tile geometry and, when a Piff model and campaign are given, a QA row for that model); then exactly the documented keys are set, with the documented values (scale = 10^(0.4(30-magzp)), weight and mask in the image file, the last QA row of the exposure for the base name of the Piff path), and nothing else changes; a second call changes nothing; and flag_data_in_info then gives each source exactly the flags of its own QA row and CCD.", "quantifier": "all descriptions, all numbers of sources, all data base contents", "why_tests_cant": "The data base is not available to tests and the claim is about every key of every description.", "anchors": ["pizza_cutter/des_pizza_cutter/_des_info.py:72-184", "pizza_cutter/des_pizza_cutter/_des_info.py:352-410", "pizza_cutter/des_pizza_cutter/_piff_tools.py:12-85"]}
{"id": "C103", "title": "Cached WCS lookups belong to the WCS that asks for them", "statement": "The lookup tables of a WCS are cached under the WCS and SE image objects, which compare equal when the hashes of their representations agree. Two AffineWCS objects with the same representation are the same transformation, and in every history of cached calls each call gets the lookup of its own coadd WCS, SE image WCS, offsets and image size.", "quantifier": "for all affine WCSs, SE images, hash functions and histories of calls, with any cache size and evictions", "why_tests_cant": "Wrong reuse needs particular pairs of WCSs and an order of calls; a test tries a few pairs, and no test can search for collisions of the hash that equality is built on.", "anchors": ["pizza_cutter/des_pizza_cutter/_affine_wcs.py:58-77", "pizza_cutter/des_pizza_cutter/_se_image.py:133-167", "pizza_cutter/des_pizza_cutter/_se_image.py:616-651"]}
{"id": "C104", "title": "Pixels filled with noise hold fresh independent draws of the right scale", "statement": "In every epoch that is used, a pixel whose bit mask has a noise-interpolation flag (and that no other step replaces) holds a standard normal draw divided by the square root of the pixel weight, in the image and in each noise field; the draws come from the given generator at or after its position when the epoch is processed, and no draw is used twice: different pixels, fields or epochs use different draws.", "quantifier": "all source lists, masks, weights, numbers of noise fields and generator states", "why_tests_cant": "A test sees one seed and a few pixels; reuse of the generator state for a second field or epoch gives plausible looking noise that is correlated, which no pixel-wise test notices.", "anchors": ["pizza_cutter/des_pizza_cutter/_coadd_slices.py:395-436"]}
{"id": "C105", "title": "Files after a run", "statement": "After a run of make_des_pizza_slices that returns normally the uncompressed FITS file holds the result of this run, unless fpack succeeded and its removal was asked for, when it does not exist; no compressed file is left in the temporary directory; and no file other than these and the output is created, changed or removed. Also at every point of a run, and when it raises or crashes, no other file is touched.", "quantifier": "all file system states, temporary directories, file contents, fpack outcomes and options", "why_tests_cant": "Tests start from an empty directory; the claim is about every state left by earlier or crashed runs, and about every other file.", "anchors": ["pizza_cutter/des_pizza_cutter/_pizza_cutter.py:175-238", "pizza_cutter/files.py:56-146"]}
{"id": "C106", "title": "What the command line program leaves behind", "statement": "With --use-tmpdir or --tmpdir, whatever happens, no file has changed afterwards except the compressed output, and nothing is left of the temporary directory; if anything raises before or during the computation the program fails and an output of an earlier run is unchanged; if it succeeds and fpack left a file, that file is the output and it passed the validation. Without a temporary directory only the FITS file at the output path and the compressed output are ever touched, a failure leaves the output as it was, and after success the uncompressed file is kept exactly if the log level is DEBUG (in any case of letters) or fpack failed.", "quantifier": "all file system states, output names, temporary directories, log levels, exceptions, fpack outcomes and crash points", "why_tests_cant": "Tests run the program in a fresh directory and look at the result of success; the claim is about every earlier content, every exception and every point of a crash.", "anchors": ["bin/des-pizza-cutter:19-94", "bin/des-pizza-cutter:154-172", "pizza_cutter/des_pizza_cutter/_pizza_cutter.py:175-238", "pizza_cutter/files.py:56-146"]}
{"id": "C107", "title": "An SE image holds what was asked for and reads nothing else", "statement": "Constructing an SEImageSlice succeeds exactly if the WCS, the PSF model and the image shape that are asked for can be had, the image is not empty and the WCS is affine, an esutil WCS or a celestial GalSim WCS; the object then holds exactly these, the celestial flag used for the sky bounds agrees with is_celestial(), the sky bounds are those of the WCS with the given position offset and the CCD bounds those of the shape. A pixmappy WCS and a piff PSF come from one load of one file and CCD. Only the files named for WCS, PSF and (without image_shape) shape are read, the PSF not before the WCS is had; an unknown type is a RuntimeError, a missing entry a KeyError, and exceptions of loaders are passed on.", "quantifier": "all source descriptions, requests by name or object, file contents and position offsets", "why_tests_cant": "Tests construct images for a few combinations of types that exist in the test data; the combinations of missing entries, unknown names, failing loaders and unsupported WCS classes are not enumerated.", "anchors": ["pizza_cutter/des_pizza_cutter/_se_image.py:61-67", "pizza_cutter/des_pizza_cutter/_se_image.py:519-614", "pizza_cutter/des_pizza_cutter/_se_image.py:652-659"]}
{"id": "C108", "title": "The pixel area is the determinant of the Jacobian", "statement": "For every affine and every esutil WCS, however distorted, and every position offset, get_wcs_pixel_area at a position is the absolute value of the determinant of get_wcs_jacobian at that position; the Jacobian of an esutil WCS is that of the differences of the sky positions of the pixels on both sides, right ascensions the shorter way round; the offset only moves the position; on arrays the areas are those of the positions one by one; arrays with more than one dimension and mixtures of scalars and arrays are refused, as are Jacobians of more than one position and WCSs of other classes.", "quantifier": "all WCS functions (no linearity assumed), offsets, positions and array lengths", "why_tests_cant": "The two functions are implemented separately with finite differences of their own; a test compares them with a tolerance at a few positions of one WCS.", "anchors": ["pizza_cutter/des_pizza_cutter/_se_image.py:865-942", "pizza_cutter/wcs.py:66-118"]}
{"id": "C109", "title": "The rough cut on the sky loses no position on a distorted celestial image", "statement": "For a celestial WCS let u, v be the tangent plane coordinates about the centre of the CCD. If u and v of image positions are within delta of affine functions on rectangles of the size of a grid cell of get_rough_sky_bounds (at most the short side of the image along the long side, the short side over n_grid along the short side), then ccd_contains_radec accepts every sky position within t of a position on the image, as long as t + 2 delta is at most the buffer; whatever the WCS, it accepts no position that is further than the buffer (in u over the cosine of v) outside of the coordinates of positions on the image. Arrays are tested position by position; arrays with more dimensions and mixtures of scalars and arrays are refused.", "quantifier": "all image shapes, grid sizes, buffers, offsets, WCS functions and sky positions", "why_tests_cant": "Tests check a few positions of one DES WCS; whether a position between the grid points can be lost depends on the distortion between them and on the aspect ratio of the image.", "anchors": ["pizza_cutter/des_pizza_cutter/_sky_bounds.py:6-102", "pizza_cutter/des_pizza_cutter/_se_image.py:944-985"]}
{"id": "C110", "title": "A call that returns has published the complete file of the requested slices, the same for any number of jobs", "statement": "If the block of make_des_pizza_slices that writes the FITS file does not raise, at least one slice was requested, every requested slice has been computed exactly once from its own seed, and the file has exactly, in this order and without repetition: the cutout extensions holding the results at the places of the slices (and nothing else), object_data with a row for every slice of the tile, epochs_info with the epochs of the requested slices, metadata, tile_info, image_info, and gaia_stars if there is a catalog. For any other numbers of jobs and chunks the extensions are the same but for the order of the blocks of epochs_info. With a positive number of chunks the block always comes to an end, and it raises if a requested slice cannot be computed (that it returns if all can is C111). A call that returns leaves at the output path what fpack made of this file in this run, and it is valid (under the conditions of C77).", "quantifier": "all tiles, configurations, ranges of slices, seeds, results of slices, numbers of jobs and chunks, schedules, file systems", "why_tests_cant": "A test makes one small file with one or two jobs; it cannot cover all schedules, ranges, failing slices and states of the file system, and each part is tested separately, not the composition.", "anchors": ["pizza_cutter/des_pizza_cutter/_pizza_cutter.py:78-238", "pizza_cutter/des_pizza_cutter/_pizza_cutter.py:507-648"]}
{"id": "C111", "title": "Every accepted request can be processed", "statement": "If the tables of a tile can be made, the range of slices is accepted by _extract_slice_range and has slice numbers only, every slice of it can be computed, the catalog (if any) can be read and the number of chunks is positive, then the file is written without an exception.", "quantifier": "all tile descriptions with and without image_shape, all ranges, numbers of jobs and chunks", "why_tests_cant": "Tests use descriptions with image_shape and ranges with at least one slice; the width fallback and the empty range are only reached together with the rest of a run.", "anchors": ["pizza_cutter/des_pizza_cutter/_pizza_cutter.py:159-173", "pizza_cutter/des_pizza_cutter/_pizza_cutter.py:519-543", "pizza_cutter/des_pizza_cutter/_pizza_cutter.py:644-648", "pizza_cutter/des_pizza_cutter/_pizza_cutter.py:1034-1058", "pizza_cutter/des_pizza_cutter/_pizza_cutter.py:749-756"]}
{"id": "C112", "title": "Preparing a tile writes a description only after every check has passed", "statement": "At any time during des-pizza-cutter-prep-tile, also if it fails or is killed, the tile description ($MEDS_DIR/<config>/pizza_cutter_info/<tile>_<band>_pizza_cutter_info.yaml) is as it was before, unless a description has been made that is complete (C102), consistent (C78) and for the tile asked for; with --clean it is never touched. A run that returns without --clean has written this description, and the Gaia catalog of the archive is at the path that it names. If downloads and writing work, the program returns exactly if there is such a description; without a Piff campaign in the configuration it never does. Different configurations, tiles and bands have different description files.", "quantifier": "all tiles, bands, configurations, archive tables, data base contents, file systems and moments of a crash", "why_tests_cant": "The program needs the DES data base and file archive; nothing of it is run in tests, and failures at each point cannot be enumerated.", "anchors": ["bin/des-pizza-cutter-prep-tile:48-124", "pizza_cutter/des_pizza_cutter/_des_info.py:413-488", "pizza_cutter/des_pizza_cutter/_des_info.py:125-313", "pizza_cutter/files.py:8-53"]}
{"id": "C113", "title": "What a process has done before does not change a slice", "statement": "The result of _coadd_single_slice, including errors, is what is computed from the files with nothing kept in memory, whatever the process did before: any number of slices and chunks of slices of this and other tiles, with or without errors, and clearing of caches, with caches of any sizes. The same holds for the messages of _process_slice_chunk, which are the results up to the first slice that fails and then the error. This is for tiles of which SE images with a common mask file agree on CCD and masking of tape bumps, and where equal hashes belong to equal WCSs; without the first condition it is false. Arrays in memory that are not used as such masks never change.", "quantifier": "all tiles, files, histories of a process, cache sizes, slices and seeds", "why_tests_cant": "There are twelve caches keyed by paths and hashes, one of whose values is changed in place; whether a slice depends on an earlier one shows only for particular sequences of tiles and evictions, which cannot be enumerated.", "anchors": ["pizza_cutter/des_pizza_cutter/_se_image.py:46-365", "pizza_cutter/des_pizza_cutter/_se_image.py:373-385", "pizza_cutter/des_pizza_cutter/_se_image.py:519-724", "pizza_cutter/des_pizza_cutter/_pizza_cutter.py:296-443", "pizza_cutter/des_pizza_cutter/_pizza_cutter.py:651-683"]}
{"id": "C114", "title": "A run with warm caches in many processes writes what a run without caches writes", "statement": "A parallel run in worker processes that are copies of a parent with any history, each with its own caches and with new copies of the arrays for each chunk, ends, and if it returns it has written the extensions, object data and epochs (up to order) that a sequential run writes that reads everything anew for every slice. It returns if every slice can be computed from the files and raises RuntimeError if one cannot. A sequential run in a process with any history writes or raises exactly what the run without caches does.", "quantifier": "all tiles as in C113, all histories of the parent, numbers of workers and chunks, queue sizes and schedules", "why_tests_cant": "Which worker computes which slices, and so what is in its caches, depends on timing; tests see a few schedules of small tiles.", "anchors": ["pizza_cutter/des_pizza_cutter/_pizza_cutter.py:417-443", "pizza_cutter/des_pizza_cutter/_pizza_cutter.py:562-642", "pizza_cutter/des_pizza_cutter/_se_image.py:46-365"]}
{"id": "C115", "title": "The configuration files in the repository can be run", "statement": "A run takes its options from the configuration exactly when it has every entry that is needed, each of its type (only gaia_star_masks, piff_cuts and ignored_ccds may be left out, the keywords of the PSF model must be given for the band), and each option reaches the processing of slices under its own name. Every file in config_files is complete for the DES bands g, r, i, z and Y: the run gets all its options, slices can be laid out in tiles of 10000 pixels, PSF images are odd, the weighting and the kinds of WCS and PSF are known, and the summed lists of flags select exactly the pixels with one of the listed flags, and the coadd campaign is one of the year in the name of the file. (False for twelve of the seventeen files, which stop with a KeyError at the first slice, and for the band Y with all of them; with the entries mask_piff_failure and psf_kwargs of the newer files the twelve can be run, with only one of the two they cannot.)", "quantifier": "all configurations and bands; all files in config_files", "why_tests_cant": "Tests use small configurations written for them, not the files used in production, and no test can show for arbitrary configurations that nothing but the listed entries decides whether a run gets its options.", "anchors": ["config_files/des-pizza-slices-y6-v15.yaml:1-132", "config_files/des-pizza-slices-y3.yaml:1-87", "bin/des-pizza-cutter:31-92", "bin/des-pizza-cutter-prep-tile:63-108", "pizza_cutter/des_pizza_cutter/_pizza_cutter.py:168-205", "pizza_cutter/des_pizza_cutter/_pizza_cutter.py:314-398", "pizza_cutter/des_pizza_cutter/_des_info.py:51-69"]}
{"id": "C116", "title": "A whole call does not depend on what the process did before", "statement": "A call of make_des_pizza_slices in a process that has made any other calls before, for this or other tiles, with other options, jobs and cache sizes and with or without errors, writes a file whose extensions are computed from the input files with nothing kept in memory, and raises what is raised then. The same call in two such processes, with any numbers of jobs and (non-zero) chunks and any temporary directories, either returns in both or raises in both, and the files have the same extensions in the same order but for the order of the blocks of epochs_info. Every call comes to an end. The conditions on the tiles are those of C113, and the conditions on the inputs of C110 follow from the sizes of the configuration and the shapes of the arrays in the files.", "quantifier": "all tiles as in C113, all histories of processes made of slices, whole calls and clearing of caches, all requests, numbers of jobs and chunks, and schedules", "why_tests_cant": "Tests run one call in a new process; which caches a later call finds filled depends on all earlier calls, and the schedule of the workers on timing.", "anchors": ["pizza_cutter/des_pizza_cutter/_pizza_cutter.py:78-238", "pizza_cutter/des_pizza_cutter/_pizza_cutter.py:507-648", "pizza_cutter/des_pizza_cutter/_pizza_cutter.py:651-683", "pizza_cutter/des_pizza_cutter/_se_image.py:46-365"]}
{"id": "C117", "title": "A run of des-pizza-cutter does what the command line and its two input files ask for", "statement": "A run of des-pizza-cutter comes to the making of slices exactly if the configuration and the description can be read, the sources can be loaded and flagged, the description is consistent and the output has a name; which options are needed, and where they are, is given by a list that does not depend on the order of the lookups. The call that is made is the one asked for: every source with its own files, numbers, flags and identity, the options of the configuration for the band of the description, the seed, range, jobs and temporary directory of the command line. A run that succeeds leaves at the output path what fpack makes of a file computed from the input files alone: its table image_info has a row for each source saying what the description says, with the flags for its PSF model and CCD added; all recorded epochs are of sources without flags; configuration and description are stored as they were. At any time, also when the run is killed, no other files have changed but the FITS file or those in the temporary directory, which is gone at the end. If the request cannot be met the run fails and the output is as before. The numbers of jobs and chunks, the log level and the temporary directory do not change what is written. A run without --seed should work as the default suggests.", "quantifier": "all configurations, descriptions, command lines, states of the file system, points at which the run is killed, worker schedules, and results of the external libraries", "why_tests_cant": "A test runs the program on one tile with one configuration; that nothing is lost or mixed up between two input files of any form and the written file, whatever fails on the way, is a statement about all of them.", "anchors": ["bin/des-pizza-cutter:19-105", "bin/des-pizza-cutter:166-176", "pizza_cutter/des_pizza_cutter/_load_info.py:18-214", "pizza_cutter/des_pizza_cutter/_des_info.py:18-180", "pizza_cutter/des_pizza_cutter/_pizza_cutter.py:78-238"]}
{"id": "C118", "title": "A tile that was prepared can be cut, and the output reports what desmeds supplied", "statement": "The description that des-pizza-cutter-prep-tile writes is one that des-pizza-cutter accepts: if it is read back up to the rounding of numbers, desmeds supplied the names of the files, the header of the coadd can be read and the configuration has the options, then the second program comes to its call with that description, and everything that it looks up is there. The flags that the second program computes for a source are exactly those for which the last QA row of the exposure of the source, in the campaign of the first program, violates a cut of the configuration, and the flag of ignored CCDs; no two sources of different CCDs share a mask, and no mask is another file. If both programs succeed, the output is what fpack makes of a file whose table image_info has one row for each source that desmeds supplied, in order, with that source's zero point, the flux scale 10^(0.4 (30 - magzp)), the offset 1, the paths of desmeds with the extensions of DES files, and those flags; all recorded epochs are of sources without flags; and the star catalog that is used is at the place where the first program put the file of the archive for that tile.", "quantifier": "all tiles, bands, answers of desmeds, QA tables, archives, configurations, states of the file system, worker schedules and roundings of numbers by the YAML library", "why_tests_cant": "The two programs are developed and tested apart; the tests of the second one use descriptions that were written by hand. That every description the first one can write is accepted and reported faithfully by the second one is a statement about all answers of data base and desmeds.", "anchors": ["bin/des-pizza-cutter-prep-tile:16-138", "bin/des-pizza-cutter:19-105", "pizza_cutter/des_pizza_cutter/_load_info.py:18-214", "pizza_cutter/des_pizza_cutter/_des_info.py:18-180"]}
{"id": "C119", "title": "A coadd pixel is the weighted mean of the calibrated SE pixels interpolated at its place", "statement": "Every pixel of a coadded slice, in the result and in the file of a finished run, is the weighted mean over the used epochs (weights positive, summing to 1) of: the area of the coadd pixel times the Lanczos-3 interpolation, at the place of the coadd pixel on the SE image, of the SE pixels divided by their areas. Here the SE pixels are in the coordinates of the SE file, not of the cut-out: outside of the epoch's window they are 0, and at every pixel with a positive weight and without any of the flags to be replaced they are exactly (image - background) x flux scale of the files; the noise images go through the same with their own pixels. Hence a pixel near which (6 x 6 SE pixels around its place) no used epoch has a defect is exactly the weighted mean of the interpolated calibrated files: it depends neither on the random numbers nor on how defects elsewhere are repaired. If the place is not a number the contribution of the epoch is 0.", "quantifier": "all tiles, slices, SE images, backgrounds, noise images, masks, weights, position and area functions, configurations, random streams, and worker schedules", "why_tests_cant": "The value of a pixel passes through reading, cutting out, calibration, star masks, symmetrization, noise filling, copying of edges, spline interpolation, resampling, weighting, stacking and writing. Tests compare single stages on simulated images with tolerances; an offset of the window by one pixel, a position relative to the wrong corner or a calibration applied twice can cancel in symmetric simulations.", "anchors": ["pizza_cutter/des_pizza_cutter/_coadd_slices.py:45-551", "pizza_cutter/des_pizza_cutter/_coadd_slices.py:553-710", "pizza_cutter/des_pizza_cutter/_se_image.py:661-724", "pizza_cutter/des_pizza_cutter/_se_image.py:1375-1591", "pizza_cutter/coadding/_lanczos.py", "pizza_cutter/des_pizza_cutter/_pizza_cutter.py"]}
{"id": "C120", "title": "What is stored under a mask never reaches the coadd", "statement": "Take a slice, and change the image, background or noise values of the SE files at pixels that are outside of the cut-out made for the slice or whose bit mask carries one of the flags of pixels to be replaced (by noise; or by interpolation, unless edges are copied). Then, without outlier rejection, exactly the same result comes out: the same pixels in every plane, weights and record of epochs, or the same error; so do all runs of all slices, for every schedule of the workers. The same holds for the files on disk: with other values in the image and background files (or arrays in memory) at pixels that the mask file, with the tape bumps if these are masked, asks to replace, slices come out the same in processes with any history, and whole calls write the same file with the same errors. If moreover pixels with either kind of flag or without a positive weight are changed, then as long as the same SE images are used the image, the noise images, the PSF, the mask, the weights and the PSF width of the slice are the same; only the bit mask and the masked fraction, which record where interpolation changed a value, can differ. (A change to a good pixel does change the coadd: see the example.)", "quantifier": "all slices, SE images, masks, weights, values in the masked pixels, star masks, symmetrization settings, random streams, interpolation and noise functions, seeds and worker schedules", "why_tests_cant": "It is a statement about two runs with arbitrary contents of bad pixels (saturated stars, NaN-like sentinels, cosmic rays). Each stage has its own mask, and an overlap missed between two of them (a flag that only counts after symmetrization, a pixel copied over an edge) lets a bad value through only for particular combinations of masks.", "anchors": ["pizza_cutter/des_pizza_cutter/_coadd_slices.py:45-551", "pizza_cutter/des_pizza_cutter/_se_image.py:1375-1591", "pizza_cutter/slice_utils/interpolate.py", "pizza_cutter/slice_utils/symmetrize.py"]}
{"id": "C121", "title": "Only calibrated fluxes, calibrated weights and masks matter", "statement": "Describe a tile in two ways, with other files or arrays in memory and other zero points for its SE images, such that for every SE image the background-subtracted image times the zero-point factor, the weight divided by the square of that factor and the mask are the same, and reads fail alike. Then every slice is the same, with or without outlier rejection: the same pixels in every plane including the noise images, the same weights, record of epochs and errors; this holds in processes with any history and caches of any sizes, and whole calls write the same files but for the extensions that describe the inputs (metadata, tile_info, image_info). In particular adding the same array to an image and to its background changes nothing, nor does giving an image in other units with weights and zero point in these units (zero point larger by 2.5 log10 of the factor). With the zero point left as it was, other pixels come out.", "quantifier": "all tiles, files, arrays, zero points with factor not 0, factors, background arrays, configurations, external functions, seeds, process histories and cache sizes", "why_tests_cant": "It relates two runs over arbitrary images and units; a forgotten factor (a weight not divided by the square, noise made from uncalibrated weights, a cut applied before scaling) shows only for images whose zero point differs from 30, and caches keyed without the zero point only in processes that see both.", "anchors": ["pizza_cutter/des_pizza_cutter/_se_image.py:95-131", "pizza_cutter/des_pizza_cutter/_se_image.py:661-724", "pizza_cutter/des_pizza_cutter/_coadd_slices.py:45-551", "pizza_cutter/des_pizza_cutter/_pizza_cutter.py:296-414"]}
{"id": "C122", "title": "One sky for all slices", "statement": "With symmetrisation of masks and rejection of outliers off, consider a pixel of a slice at the position (u, v) of the coadd. If in every used SE image the pixels within the Lanczos kernel around the place of (u, v) lie in the window recorded in the table of epochs, have a positive weight in the weight file and carry no flag of pixels to be replaced, then the pixel of the image is the sum of the weights in the table of epochs times the values that the SE images have at (u, v). The value of an SE image at (u, v) is determined by its image, background and zero point, by the two WCSs and by (u, v): it does not depend on the number, the place or the size of the slice, on the seed, on the objects of the tile or on the configuration. The noise images are made in the same way from the noise fields. Consequently two slices that cover the same position of the coadd - of one tile or of two tiles with the same WCSs and SE images - have equal pixels there whenever they use the same images with the same weights and there are no defects nearby; if one image is used its weight is 1 in every slice.", "quantifier": "all files, WCSs, tiles with the same grid, slices, sizes, seeds, configurations, pixels", "why_tests_cant": "Tests look at one slice of one size; that overlapping slices agree, and that a pixel is a function of its position alone, is a statement about all pairs of slices.", "anchors": ["pizza_cutter/des_pizza_cutter/_pizza_cutter.py:296-414", "pizza_cutter/des_pizza_cutter/_pizza_cutter.py:759-829", "pizza_cutter/des_pizza_cutter/_coadd_slices.py:45-710", "pizza_cutter/des_pizza_cutter/_se_image.py:661-724", "pizza_cutter/des_pizza_cutter/_se_image.py:1375-1591"]}
{"id": "C123", "title": "The order of the SE images and the seed do not matter unless noise is filled in", "statement": "If no pixel of the bit masks of the SE images carries a flag of noise_interp_flags and rejection of outliers is off, then a slice does not depend on the order in which the SE images are listed, nor on its seed: computed with the images in any other order, each with its own noise seeds, and with any other seed, it succeeds in the same cases, has the same pixels in all images, masks, noise images, PSF and weight, and the same rows in the table of epochs and the same weights up to their order. With pixels to be filled with noise this is not so: the random numbers are drawn from one generator for all images of the slice, so that both the order and the seed change the pixels.", "quantifier": "all lists of SE images and their permutations, seeds, slices, files, configurations and external functions", "why_tests_cant": "A test compares a few orders of a few images; that no order and no seed matters for any set of images is a statement about all permutations.", "anchors": ["pizza_cutter/des_pizza_cutter/_coadd_slices.py:214-550", "pizza_cutter/des_pizza_cutter/_coadd_slices.py:553-710", "pizza_cutter/des_pizza_cutter/_pizza_cutter.py:296-414", "pizza_cutter/des_pizza_cutter/_pizza_cutter.py:759-829"]}
{"id": "C124", "title": "The coadd of all SE images is the mean of the coadds of two parts of them", "statement": "If no pixel of the bit masks of the SE images carries a flag of noise_interp_flags and rejection of outliers is off, divide the SE images of a tile in any way into two parts and make a slice from all of them, from the first part and from the second part, each with any seed. If one of the parts has no used image, the slice of all has the same pixels and the same used images with the same weights as the slice of the other part. Otherwise there is a number a between 0 and 1, both excluded, such that every pixel of the image, of the masked fraction, of each noise image and of the PSF of the slice of all is a times that of the first plus 1 - a times that of the second; every pixel of bmask and ormask has exactly the bits of the two; and the used images are those of the first with weights multiplied by a and those of the second with weights multiplied by 1 - a. If the slice of all succeeds then so do those of the parts, unless the width of the PSF of a part cannot be measured.", "quantifier": "all lists of SE images and their divisions into two parts, seeds, slices, files, configurations and external functions", "why_tests_cant": "A test compares a few divisions of a few images; that a selection or weight never depends on which other images are present is a statement about all sets of images.", "anchors": ["pizza_cutter/des_pizza_cutter/_coadd_slices.py:214-550", "pizza_cutter/des_pizza_cutter/_coadd_slices.py:553-710", "pizza_cutter/des_pizza_cutter/_coadd_slices.py:28-42", "pizza_cutter/des_pizza_cutter/_pizza_cutter.py:296-414"]}
{"id": "C125", "title": "Masking more never brings an SE image in", "statement": "Suppose masked edges are not copied and rejection of outliers is off. If the masks of the SE images of a tile are given more flags and some of their weights are set to zero, then every SE image that a slice uses with the new masks it also used with the old ones, in the same order, whatever the pixels, backgrounds and noise fields are before and after, with any seeds and with mask symmetrisation of any kind (for a list of angles provided that rotating more ones gives positive values in more places, as it does with the linear interpolation that is used). With copying of masked edges this is not so: flagging one more pixel can complete a masked edge, which is then replaced by its neighbours and leaves fewer pixels to interpolate, so that an image that was rejected is used. Whether or not edges are copied, with the same masks and weights the same images are used whatever their pixel values are.", "quantifier": "all SE images, masks, weights, pixel values, seeds, slices, configurations (without copying of edges for the comparison of different masks) and external functions", "why_tests_cant": "A test compares a few masks; that no additional flag at all can turn a rejected image into a used one is a statement about all pairs of masks, through symmetrisation, four cuts and the repeated test after interpolation.", "anchors": ["pizza_cutter/des_pizza_cutter/_coadd_slices.py:287-543", "pizza_cutter/slice_utils/flag.py:1-82", "pizza_cutter/slice_utils/symmetrize.py:5-114", "pizza_cutter/slice_utils/interpolate.py:245-380"]}
{"id": "C126", "title": "The image and the noise images of a slice come from the SE images by one and the same linear map", "statement": "For a given slice, a given set of SE images with their masks, weight maps, PSFs and WCSs and a given set of images used, there is one map from planes of pixels, one per SE image, to a plane of pixels such that the image of the slice is its value at the calibrated images ((image - background) times the zero point scale) and each noise image of the slice its value at the noise fields of that number. The map and the coadding weights do not depend on the pixels. If the interpolation over masked pixels is linear in the values interpolated from, the map is linear: the coadd of a sum of fluxes is the sum of the coadds, and noise images have the correlations and the scaling of the noise in the image. Consequently a noise field that holds the calibrated image gives the coadded image, equal noise fields give equal noise images, and the image depends on no noise field nor a noise image on the image or on other noise fields. Which images are used does not depend on the pixels either.", "quantifier": "all tiles, slices, configurations without outlier rejection, masks without noise-fill flags, numbers of SE images and noise fields, all values of the pixels, any seeds, any number of slices, any interpolation (linearity: any linear one)", "why_tests_cant": "The claim is about pairs and triples of runs with arbitrary pixel values, and that one map serves the image and all noise fields; a test compares a few arrays with tolerances and cannot tell a map that differs for one noise field at masked or edge pixels.", "anchors": ["pizza_cutter/des_pizza_cutter/_coadd_slices.py:287-543", "pizza_cutter/des_pizza_cutter/_coadd_slices.py:553-710", "pizza_cutter/des_pizza_cutter/_se_image.py:661-725", "pizza_cutter/des_pizza_cutter/_se_image.py:1285-1592", "pizza_cutter/slice_utils/interpolate.py:116-434", "pizza_cutter/coadding/_lanczos.py:11-90"]}
{"id": "C127", "title": "The search for the pixel of a sky position aims at the right pixel, also across RA 0/360", "statement": "The function whose zero the inversion of a distorted WCS looks for (FastHashingWCS._lonlatdiff) is zero at exactly the pixels whose sky position is the one asked for, right ascensions being equal when they differ by whole turns. Its values are the difference in declination and the difference in right ascension reduced to the representative nearest zero, so at most 180 degrees; they do not change when whole turns are added to the position asked for or to the values of the WCS (unless the two are exactly half a turn apart). Where the sky is affine in the pixel position up to whole turns, the function is the affine one that vanishes at the pixel asked for, so one Newton step leads there from anywhere less than half a turn away, wherever the right ascension starts again. Sky positions that are not finite are handed on.", "quantifier": "for all WCS functions, all sky positions asked for, all pixel positions, all whole turns", "why_tests_cant": "tests invert a few WCSs at a few positions; the jump of right ascension can fall anywhere and the root finder may evaluate the function at any position", "anchors": ["pizza_cutter/wcs.py:120-129", "pizza_cutter/wcs.py:8-41"]}
{"id": "C128", "title": "The tile geometry file arrives at the path asked for", "statement": "make_coaddtile_geom_fits(tilename, ofile) asks easyaccess for the geometry of exactly that tile in a new temporary directory. If easyaccess fails or leaves no answer, or the directory of the output is missing, the call raises and the files are as before; if the copy breaks off it raises and only the output may have changed; otherwise it returns, the output (seen from the working directory of the caller) holds the answer and nothing else has changed. The temporary directory is always removed and at no time does another file change. This should hold for every output path; it does for paths made of characters that mean nothing to a shell, and it fails for paths with a blank: the call raises and there is no output although easyaccess answered. It also fails if the path is a directory: the call returns although no file was made at the path, the answer is in the directory under the name ctg.fits. A path that ends in a slash and is no directory is refused.", "quantifier": "for all tile names, output paths, file systems, answers and failures of easyaccess, and all states on the way", "why_tests_cant": "needs the DES data base; the repository has no test of it; paths and failures are unbounded", "anchors": ["pizza_cutter/des_pizza_cutter/_des_info.py:316-349"]}
{"id": "C129", "title": "RA wrapping in floating point: exact within two turns, ends up to 2^62 degrees, never returns beyond", "statement": "In floating point arithmetic with p digits and rounding to nearest (53 for doubles), wrap_ra_diff gives at most one result. For a representable difference of at most 720 degrees nothing is lost to rounding: the result lies in [-180, 180] and differs from the argument by a whole number of turns. The wrapped difference of two right ascensions in [0, 360] is that of the real numbers modulo 360 within 360/2^p degrees. For representable differences up to 2^(p+9) the loops end with a result in [-180, 180]; beyond that adding 360 changes nothing and the call never returns, so the claim that every finite difference is wrapped fails. An array is wrapped iff each element is, to the same values.", "quantifier": "every precision of at least 6 digits, every rounding to nearest whatever its rule for ties, every representable difference, every array", "why_tests_cant": "Tests try a handful of differences with a tolerance; they cannot show that no rounding error occurs for any double within two turns, nor that the loop ends for every argument up to the bound (a test of the failing case would hang).", "anchors": ["pizza_cutter/wcs.py:8-41", "pizza_cutter/wcs.py:107-108", "pizza_cutter/des_pizza_cutter/_se_image.py:180-181"]}
{"id": "C130", "title": "Pixel geometry computed in floating point is exact, or within stated rounding", "statement": "In floating point arithmetic with p digits and rounding to nearest, for sizes and positions up to 2^(p-3): build_slice_locations gives the same locations as exact arithmetic and refuses the same tiles (the rounded quotient is an integer only if the quotient is); the PSF stamp corners of SE images and of the coadd are the nearest pixel less half of the stamp, and even stamps are refused. The nearest pixel is within half a pixel plus the rounding of one sum, and pixel plus sub-pixel offset give back the position exactly. compute_slice_bounds gives a square of the parity of the box, not smaller for a fraction of at least one, equal to the box for a fraction of one, centred within half a pixel plus rounding. The grid used for the rough sky bounds starts at pixel zero, ends exactly at the last pixel and stays between.", "quantifier": "every precision, every rounding to nearest, every size and position within the bounds", "why_tests_cant": "Tests use a few sizes where rounding does not show; whether some size or position lands on the wrong pixel because of rounding needs a proof over all doubles.", "anchors": ["pizza_cutter/slice_utils/locate.py:4-49", "pizza_cutter/des_pizza_cutter/_se_image.py:987-1005", "pizza_cutter/des_pizza_cutter/_se_image.py:1038-1039", "pizza_cutter/des_pizza_cutter/_se_image.py:1185-1223", "pizza_cutter/des_pizza_cutter/_pizza_cutter.py:273-293", "pizza_cutter/des_pizza_cutter/_sky_bounds.py:61-62"]}
{"id": "C131", "title": "Weights and coadded pixels in floating point are the weighted mean within stated rounding", "statement": "With positive weights, any order of summation and any rounding to nearest: after each of the two normalisations every weight is positive and at most one, within rounding of its share of the total, and the weights sum to one within rounding. A pixel of the coadd (image, noise, PSF) is the weighted mean of the pixels of the epochs, with the weights as they came from the epochs, within an explicit relative bound in the number of epochs, the precision of the weights, products and sums, and the precision of the stored image. The coadd is monotone in the pixels with no allowance: non-negative pixels give a non-negative coadd and zeros give zero. The interpolated fraction is never negative and above one by no more than rounding.", "quantifier": "every number of epochs, every precision of weights, products, sums and stored pixels, every order of summation, every pixel value", "why_tests_cant": "Tests compare with allclose on a few images; they do not bound the error for all inputs, nor show that rounding never turns a non-negative sum negative (the writer rejects negative masked fractions).", "anchors": ["pizza_cutter/des_pizza_cutter/_coadd_slices.py:544-546", "pizza_cutter/des_pizza_cutter/_coadd_slices.py:628", "pizza_cutter/des_pizza_cutter/_coadd_slices.py:652-693"]}
{"id": "C132", "title": "Lanczos resampling keeps its accuracy in double precision, whatever order of evaluation fastmath chooses", "statement": "In double precision arithmetic, with sums and products evaluated in any order and with any brackets, with common factors taken out of the sum, with multiplications and additions contracted to one rounding and with divisions replaced by multiplications with rounded reciprocals (all of which numba may do because the functions are compiled with fastmath=True), lanczos_resample with kernel size 1, 2 or 3 never fails, its value differs from the exact Lanczos sum by at most 2.11e-6 times the sum of the absolute values of the pixels used (the same bound as without rounding), its edge flag is the one without rounding, at the centre of a pixel it returns the value of the pixel to 5e-12 however large the neighbours are, and on a flat part of the image it returns the flat value to 1.17 per cent. The evaluation in the order of the source is one of those considered.", "quantifier": "all rounding functions to nearest with 53 bits (any rule for ties), all images of double precision values, all positions, all kernel sizes from 1 to 3, all orders of evaluation of the kind described", "why_tests_cant": "The order of evaluation is chosen by the compiler and differs between machines and versions; a test sees the one order of the machine it runs on, at finitely many positions.", "anchors": ["pizza_cutter/coadding/_lanczos.py:10-89", "pizza_cutter/coadding/_sinc.py:14-48"]}
{"id": "C133", "title": "Masked fractions and weight maps are written without being refused, and masked fractions stay between 0 and 1", "statement": "In floating point arithmetic, with any order of summation and any rounding to nearest: the check for negative values before a masked fraction or a weight map is written never raises, for any resampled fractions, any positive weights of the epochs and any noise image. The weight map is infinite only for a noise image without variation; otherwise it is positive, is above the inverse of the variance of the noise image by rounding only, and below it only by rounding and the square of the rounding error of the mean. The masked fraction is never negative, and at most 1 as written. The last part holds for images in double precision (up to 2^20 epochs). For images in single precision, which is what the survey has, it is false: the fraction is stored in single precision after each epoch, ten epochs of equal weight with an interpolated pixel give 1 + 2^-23 in every order of evaluation, and the fraction is bounded by 1/(1 - (n+1) 2^-24) for n epochs.", "quantifier": "every rounding to nearest of the stated precisions, every order of summation, every number of epochs (up to 2^20 for the bounds of the fraction), every pixel value, every size of the noise image", "why_tests_cant": "Whether a sum of rounded terms passes 1, or a check raises, depends on the number of epochs and on every value of the weights; tests see a few epochs and compare with a tolerance.", "anchors": ["pizza_cutter/des_pizza_cutter/_coadd_slices.py:636-637", "pizza_cutter/des_pizza_cutter/_coadd_slices.py:683-699", "pizza_cutter/des_pizza_cutter/_pizza_cutter.py:735-746"]}
{"id": "C134", "title": "Rounding never moves an image across a masked fraction cut", "statement": "The limits of the configuration are decimal numbers such as 0.1, which the computer cannot hold exactly, and the masked fraction compared with them is itself a rounded quotient. All the same, for a slice of any realistic size, an image is rejected by the first masked fraction cut (compute_masked_fraction against max_masked_fraction), by the second cut after the PSF and bit mask changes, and by the interpolation (its maxfrac of 0.9) in exactly the cases given by exact arithmetic on the limit as it is written: an image with exactly a tenth of its pixels masked is rejected by a limit of 0.1. The effective number of epochs, the sum of the rounded weights over the largest, is at least 1 without any allowance for rounding, exactly 1 for a single epoch, and never more than the number of epochs times (1 + 2^-53)^n.", "quantifier": "For every precision p, every rounding to nearest of that precision (any rule for ties), every slice size n, every limit c/d with c <= d and 2*n*n*d < 2^p, every weight map, bit mask, bad flags and ignore mask; every non-empty list of positive float weights and every order of summation.", "why_tests_cant": "A test sees a handful of mask counts for one limit; the ties between a rounded limit and a rounded quotient, where an off by one ulp would flip the cut, form a sparse set that depends on the slice size and on the limit.", "anchors": ["pizza_cutter/slice_utils/flag.py:53-82", "pizza_cutter/des_pizza_cutter/_coadd_slices.py:360-368", "pizza_cutter/des_pizza_cutter/_coadd_slices.py:507-517", "pizza_cutter/des_pizza_cutter/_pizza_cutter.py:457-459", "pizza_cutter/slice_utils/interpolate.py:154-156", "pizza_cutter/slice_utils/interpolate.py:297"]}
{"id": "C135", "title": "Jacobians and pixel areas keep their accuracy in double precision, also across RA 0/360", "statement": "Where the sky is affine in the pixel position up to whole turns of RA and an error of eps degrees in the computed sky positions, get_jacobian of FastHashingWCS always returns, and every element differs from the true derivative by at most 3601*eps + 1.1e-10 arcsec per pixel, wherever RA 0/360 falls; the pixel area of _compute_wcs_area is non-negative and differs from the true area by at most 22 times that. The bounds include the rounding of the shifted pixel positions, of the RA difference before it is wrapped, and of every product.", "quantifier": "For every rounding to nearest with 53 digits (any rule for ties), every image2sky and computed cosine of size at most one, every position up to 2^16 pixels, every scale up to 3.6 arcsec per pixel in RA and Dec, every eps up to one degree (1/1000 degree for areas).", "why_tests_cant": "Tests compare a few positions with a tolerance; at the seam of RA the difference is formed near 360 degrees and loses digits before it is wrapped, so accuracy elsewhere says nothing about accuracy there.", "anchors": ["pizza_cutter/wcs.py:66-118", "pizza_cutter/des_pizza_cutter/_se_image.py:170-190"]}
{"id": "C136", "title": "An affine WCS is inverted to rounding in floating point", "statement": "In floating point arithmetic with p >= 10 digits (53 for double precision), AffineWCS refuses with a ValueError every transformation that is not invertible, and accepts every transformation whose determinant exceeds 2^-p times |dudx dvdy| + |dudy dvdx| (some with a smaller determinant are refused although they are invertible). image2sky is within 4 units of rounding of the exact linear map relative to the terms of its sums, the origin maps to exactly (0, 0) and back to exactly (x0, y0), and if the determinant is at least 8 units of rounding of its products, image2sky followed by sky2image returns the position to 12 units of rounding times the condition of the matrix plus one unit of the position.", "quantifier": "all transformations, origins and positions, all precisions of at least 10 digits, every rule for rounding ties", "why_tests_cant": "The round trip error depends on the cancellation in the determinant and in the inverse; a test uses a few well conditioned matrices and a tolerance.", "anchors": ["pizza_cutter/des_pizza_cutter/_affine_wcs.py:46-56", "pizza_cutter/des_pizza_cutter/_affine_wcs.py:79-119"]}
{"id": "C137", "title": "Calibration to the zero point and normalisation of PSFs hold in floating point", "statement": "In floating point arithmetic without underflow or overflow (image and weight in float32 or double, the scale converted to the type of the image or not), the calibrated image has the sign of image minus background and is 0 exactly where they are equal, a weight is 0 (positive) after the calibration exactly if it was before, both are within 4 units of rounding of (im - bkg)*scale and weight/scale^2, and the square of the image times the weight is unchanged to 13 units of rounding. A normalised PSF image adds up to 1 to 2((1+u)^n - 1) times the ratio of the sum of absolute values to the sum, for n pixels, unit of rounding u and every order of summation, unless the sum is lost by cancellation; its pixels keep their signs and, to rounding, their shares.", "quantifier": "all pixel values, positive scales, weights and PSF images of any size, all precisions of at least 10 digits, every order of summation and every rule for rounding ties", "why_tests_cant": "Tests compare a few arrays with the exact values within a tolerance; that no weight becomes 0 or positive and that the error grows only with the number of pixels and with cancellation concerns all values.", "anchors": ["pizza_cutter/des_pizza_cutter/_se_image.py:679-709", "pizza_cutter/des_pizza_cutter/_se_image.py:102", "pizza_cutter/des_pizza_cutter/_se_image.py:1146-1147"]}
{"id": "C138", "title": "A coadded pixel in floating point is the weighted mean of the Lanczos sums of the epochs", "statement": "From the pixels of the epoch images to the value stored in the coadd, in floating point arithmetic and in whatever order numba's fastmath and numpy evaluate, a pixel differs from the exact weighted mean (weights as given, normalised exactly) of the exact Lanczos-3 sums of the epochs (with the true sinc) by at most 2.12e-6 of the weighted mean of the sums of the absolute values of the pixels used, for up to 250 epochs in double precision, and by at most 8.1e-6 for up to 100 epochs accumulated in single precision. Flat epochs of value c give a coadd of c to 1.18 per cent at any positions and weights, and epochs sampled at centres of pixels give the plain weighted mean of those pixels to 5e-12 plus the error of the weighted sum.", "quantifier": "for all epoch images, positions, positive weights, numbers of epochs, correctly rounding arithmetics and orders of evaluation", "why_tests_cant": "A test compares a few coadds with a tolerance; it cannot bound the accumulated approximation, resampling and summation error for all images, positions, weights and orders of evaluation.", "anchors": ["pizza_cutter/des_pizza_cutter/_coadd_slices.py:544-546", "pizza_cutter/des_pizza_cutter/_coadd_slices.py:628-693", "pizza_cutter/coadding/_lanczos.py:8-87"]}
{"id": "C139", "title": "The rough cut on the sky loses no image through rounding", "statement": "In floating point arithmetic and for a WCS that is not celestial, ccd_contains_radec accepts every sky position whose coordinates are within s of those of a position on the CCD, provided s plus the error of the WCS and of the difference from the CCD centre is at most bounds_buffer_uv (for an affine WCS: s plus 15 units of rounding of the size of the sky coordinates); a position that is accepted is, in each coordinate, not beyond positions on the CCD by more than the buffer and such errors; rounding does not change the number of grid cells.", "quantifier": "for all image shapes, grid sizes, offsets, buffers, affine WCSs, sky positions and correctly rounding arithmetics", "why_tests_cant": "A position at the limit of the buffer is decided by rounding; tests look at a few positions of a few WCSs.", "anchors": ["pizza_cutter/des_pizza_cutter/_sky_bounds.py:49-102", "pizza_cutter/des_pizza_cutter/_se_image.py:944-985"]}
{"id": "C140", "title": "The resampled value is a continuous function of the position", "statement": "lanczos_resample has no jumps: the values at two positions differ by at most (pi/2)(1 + 1/a) times the distance (sum over both axes) plus 4.22e-6, times the sum of the absolute values of the pixels in either kernel; this holds across the places where the kernel moves on by a pixel, at the edges of the image, and in double precision in any order of evaluation. Hence positions that are wrong by up to d pixels along both axes make a pixel of the coadd of up to 100 epochs differ from the weighted mean of the exact Lanczos sums at the exact positions by at most (8.1e-6 + 4.2 d) times the weighted mean of the sums of the absolute values of the pixels used.", "quantifier": "for all images, pairs of positions, kernel sizes (up to 3 in double precision), numbers of epochs up to 100, weights and correctly rounding arithmetics", "why_tests_cant": "A jump would sit at the particular positions where the floor of the position changes or the kernel leaves the image; tests look at a few positions.", "anchors": ["pizza_cutter/coadding/_lanczos.py:8-87", "pizza_cutter/coadding/_sinc.py:1-48", "pizza_cutter/des_pizza_cutter/_coadd_slices.py:544-546", "pizza_cutter/des_pizza_cutter/_coadd_slices.py:628-693"]}
{"id": "C141", "title": "Header entries reach galsim complete and under FITS names", "statement": "get_gs_fits_wcs_from_dict hands galsim every header entry that has a key, under its key in upper case and under no other one; of entries whose keys differ in case only the last one; entries without a key are left out. It returns galsim's WCS exactly when that is a GSFitsWCS and otherwise raises. A FITS header that went through the loader, which turns keys to lower case, is handed over as the header itself again.", "quantifier": "all headers: any number of entries with any keys, in any order, and whatever galsim makes of them", "why_tests_cant": "Headers contain keys that differ in case only, duplicates and comments without a key; tests use one header from a dictionary with lower case keys.", "anchors": ["pizza_cutter/gsutils.py:4-24", "pizza_cutter/des_pizza_cutter/_load_info.py:212-219"]}
{"id": "C142", "title": "Positions looked up between distorted WCSs are as good as the distortion allows", "statement": "If the map from SE to coadd pixels departs from an affine map by at most eps over the grid of nodes, then (for an interpolator that stays within lam times the departure of tabulated values from an affine function) the lookup from SE to coadd is within (1 + lam) eps of the coadd position at every SE position, and the lookup from coadd to SE takes the coadd position of an SE position back to that position within (1 + lam) eps times the size of the inverse of the affine map. Hence a pixel of the coadd of up to 100 epochs is the weighted mean of the Lanczos sums of the epochs at the SE positions that belong to it, to (8.1e-6 + 4.2 d) times the weighted mean of the sums of the absolute values of the pixels used, d being that error of the positions.", "quantifier": "for all WCS pairs, image sizes, grid steps, positions, interpolators of the stated kind, epochs and weights, correctly rounding arithmetics", "why_tests_cant": "A claim about a continuum of positions and about all distortions; tests compare lookups with the WCS at some positions of one DES header.", "anchors": ["pizza_cutter/des_pizza_cutter/_se_image.py:133-171", "pizza_cutter/coadding/_wcs_utils.py:5-82", "pizza_cutter/coadding/_lanczos.py:8-87", "pizza_cutter/des_pizza_cutter/_coadd_slices.py:628-693"]}
{"id": "C143", "title": "With distorted WCSs every position well inside an SE image can be looked up, and none outside", "statement": "Where the map from SE to coadd positions departs from an invertible affine map by less than a quarter of the grid spacing (measured in SE pixels), building the position lookups succeeds. The lookup from coadd to SE then has a value at the coadd position of every SE position that is at least twice the departure inside the lower edges of the image and the last nodes beyond its upper edges, and the value is that position to (1 + lambda) times the departure; at coadd positions more than twice the departure beyond the nodes it is NaN, so no coadd pixel is filled from an SE image it is not on. The margin cannot be dropped: at the lower edge of the image, where the grid has no node outside of the image, the lookup can be NaN.", "quantifier": "all maps near an affine one with any departure, all image shapes, grid spacings and positions, every interpolator that meets FitSpec and FitStable", "why_tests_cant": "Whether a position falls outside of the hull of the displaced nodes depends on the distortion and on the position; a test samples a few positions of one WCS and a hole at the edge for another distortion is not seen.", "anchors": ["pizza_cutter/des_pizza_cutter/_se_image.py:133-170", "pizza_cutter/coadding/_wcs_utils.py:5-82"]}
{"id": "C144", "title": "Resampling between distorted WCSs puts the right flux and the right masks in every pixel, as well as the distortion allows", "statement": "Between WCSs whose map departs from an affine one by at most delta SE pixels and whose pixel areas vary by at most a fraction kappa, SEImageSlice.resample gives, at every destination pixel at least twice delta inside the SE image, an image (and noises, interp-only image, interp fraction) equal to the ratio of the pixel areas times the Lanczos sum of the slice at the true SE position of the pixel; the error is at most that ratio times (2 lambda kappa/(1 - lambda kappa) + 2.1 (1 + lambda) 2 delta + about 2e-6) times the sum of the absolute pixels in the kernel. Where the position is that far inside the slice, the masks are those of an SE pixel at most half a pixel plus (1 + lambda) delta from the true position, with no EDGE or RESAMPLE_BOUNDS flag added.", "quantifier": "all WCS pairs with any departure and area variation, all image shapes, grid spacings, slices and destination grids, all interpolators that meet FitSpec, FitStable and SplineStable", "why_tests_cant": "Tests compare with a tolerance for a WCS or two; they cannot bound the error for every distortion, nor tell a small systematic displacement from interpolation error.", "anchors": ["pizza_cutter/des_pizza_cutter/_se_image.py:133-227", "pizza_cutter/des_pizza_cutter/_se_image.py:1370-1620", "pizza_cutter/coadding/_lanczos.py:10-89"]}
{"id": "C145", "title": "The PSF resampled between distorted WCSs sums to one and has the right shape, as well as the distortion allows", "statement": "Between WCSs whose map departs from an affine one by at most delta SE pixels and whose pixel areas vary by at most a fraction kappa, SEImageSlice.resample_psf gives, when every pixel of the destination stamp is at least twice delta inside the SE image, a stamp that sums to one and whose pixels are the Lanczos sums of the PSF image at the true SE positions divided by their total. The error of a pixel is at most B (E + |share| sum E)/(|total| - B sum E), with B = 2 lambda kappa/(1 - lambda kappa) + 2.1 (1 + lambda) 2 delta + about 2e-6 and E the sum of the absolute PSF pixels in reach of the kernel. The pixel areas drop out.", "quantifier": "all WCS pairs with any departure and area variation, all PSF images, stamp sizes, offsets and sub-pixel shifts with B sum E < |total|, all interpolators that meet FitSpec, FitStable and SplineStable", "why_tests_cant": "Tests compare one PSF for one WCS with a tolerance; the normalisation divides by a total that every error enters, which only a proof bounds for all stamps.", "anchors": ["pizza_cutter/des_pizza_cutter/_se_image.py:1593-1751", "pizza_cutter/des_pizza_cutter/_se_image.py:133-227"]}
{"id": "C146", "title": "A sky of uniform surface brightness comes out with uniform surface brightness", "statement": "With symmetrisation of masks and rejection of outliers off, if in every used SE image the pixels around the place of a coadd pixel are free of defects and show, after background subtraction and scaling to the common zero point, the surface brightness s (value divided by pixel area), then the pixel of the coadd is s times the area of that coadd pixel to 1.15 per cent. This holds whatever the WCSs, the number of images and their weights: pixel areas enter as the ratio coadd over SE, and the weights as a mean.", "quantifier": "all files, WCSs, tiles, slices, seeds, configurations without symmetrisation and rejection, pixels, surface brightnesses, interpolators", "why_tests_cant": "Tests use SE images and coadds with one pixel scale, where an inverted or missing area ratio cannot be seen, and they compare one constant image.", "anchors": ["pizza_cutter/des_pizza_cutter/_se_image.py:1375-1591", "pizza_cutter/des_pizza_cutter/_coadd_slices.py:45-710", "pizza_cutter/coadding/_lanczos.py:1-176"]}
{"id": "C147", "title": "The noise images have the covariances of the noise in the image", "statement": "Let the pixels of the SE images and of their noise fields be random, with masks, weight maps, PSFs and WCSs given and the same images used throughout. If the noise fields have, SE pixel by SE pixel, the covariances of the calibrated images (which is what the weight maps claim, see C101), the covariance of any two pixels of a noise image of the slice equals the covariance of the same two pixels of its image. If the noise fields are uncorrelated with the images, or with one another, so are the noise images. Noise fields of mean zero give noise images of mean zero. This includes the pixels interpolated over masks, if the interpolation is linear.", "quantifier": "all probability spaces and joint laws of the pixels with second moments, all tiles, slices, masks, weight maps, WCSs, configurations without outlier rejection, masks without noise-fill flags, numbers of SE images and noise fields, any linear interpolation", "why_tests_cant": "Tests compare sample variances of one simulation with a tolerance; equality of all covariances for every law and every WCS cannot be sampled.", "anchors": ["pizza_cutter/des_pizza_cutter/_coadd_slices.py:45-710", "pizza_cutter/des_pizza_cutter/_se_image.py:1375-1591"]}
{"id": "C148", "title": "Resampling follows gradients and curvature: a smooth sky comes out with the brightness it has at the place of the pixel", "statement": "Where the pixels in the kernel follow, to t, a quadratic function of their distance from the position, lanczos_resample with a = 3 returns the value of that function at the position, to 1.15 per cent of the value, 2.2 per cent of the change from pixel to pixel, 0.05 per cent of the curvature, and 2.41 t. Hence a position is not shifted by interpolation, and for the coadd: with symmetrisation and outlier rejection off, where every used SE image shows, free of defects, the same smooth surface brightness, a coadd pixel holds the surface brightness at its own place times its area, with the same bound.", "quantifier": "all images, all real positions at least two pixels from the low and three from the high edges, all values, gradients, curvatures and departures; for the coadd all files, WCSs, tiles, slices, seeds and weights", "why_tests_cant": "Tests compare one smooth profile at a few positions with a tolerance; the bound covers every position and every smooth image, and rules out a systematic sub-pixel shift.", "anchors": ["pizza_cutter/coadding/_lanczos.py:11-90", "pizza_cutter/des_pizza_cutter/_se_image.py:1375-1591", "pizza_cutter/des_pizza_cutter/_coadd_slices.py:45-710"]}
{"id": "C149", "title": "A star at the place of the PSF looks like the PSF of the coadd", "statement": "Let every used SE image of a slice show, free of defects around the place of a coadd pixel, nothing but a star of the same flux at the place at which the PSF was asked for, that is flux times the PSF stamp on its pixels. Then the coadd pixel is the weighted sum over the used epochs, with the weights of the PSF of the coadd, of flux times the epoch's normalised PSF at that pixel times the total of that PSF on the coadd stamp before it was normalised. If this total is the same t for all epochs, the image of the star is flux x t x the PSF of the coadd; if the totals are within eps of 1, it is flux x PSF within eps of flux times the mean absolute PSF. On SE images with the pixels of the coadd, displaced by any amount, and with a coadd stamp three pixels larger on each side than the SE stamp, the total is that of the PSF to 1.15 per cent of the sum of its absolute values.", "quantifier": "all tiles, slices, seeds, fluxes, PSFs, WCSs (position and area functions), weights and numbers of epochs", "why_tests_cant": "Tests look at image and PSF separately; that both go through the same interpolation, areas, weights and sub-pixel alignment for every WCS, PSF and weight is a relation between two long computations.", "anchors": ["pizza_cutter/des_pizza_cutter/_pizza_cutter.py:273-293", "pizza_cutter/des_pizza_cutter/_se_image.py:1375-1591", "pizza_cutter/des_pizza_cutter/_se_image.py:1593-1751", "pizza_cutter/des_pizza_cutter/_coadd_slices.py:45-710"]}
{"id": "C150", "title": "Resampling neither moves nor broadens the PSF", "statement": "Let the SE images of the used epochs have the pixels of the coadd, each displaced by its own arbitrary amount, with PSF stamps that are not negative and sum to one, and with a coadd stamp three pixels larger on each side than they are. Then for every function of position of at most second degree, the average of it over the PSF of the coadd is the weighted mean, with the weights of the epochs, of its averages over the PSFs of the epochs in the coordinates of the coadd, up to the weighted mean of the averages of 1.17 per cent of the deviation from the mean, 2.23 per cent of the change per pixel, and a thousandth of the curvature. In particular, if along some direction all PSFs have the same centroid and the same mean square size V and a mean deviation of at most D pixels, the PSF of the coadd has that centroid to 0.0117 D + 0.0223 pixels (along a pixel axis) and that size to 0.0234 V + 0.0446 D + 0.001.", "quantifier": "all tiles, slices, seeds, displacements, PSFs, directions, weights and numbers of epochs", "why_tests_cant": "Tests compare PSFs for a few displacements; a bias of centroid or size for some sub-pixel displacement, or one that depends on the weights, would be missed, and the bound holds for the rational approximation of sinc that is really used.", "anchors": ["pizza_cutter/des_pizza_cutter/_se_image.py:1593-1751", "pizza_cutter/des_pizza_cutter/_coadd_slices.py:45-710", "pizza_cutter/coadding/_lanczos.py:11-90"]}
{"id": "C151", "title": "Sources keep their fluxes and positions", "statement": "Let the SE images of the used epochs have the pixels of the coadd, each displaced by its own arbitrary amount, be free of defects as far as the slice and its kernel reach, and show there, on the common zero point and without their backgrounds, nothing but a source that is at least three pixels away from the borders of the slice. Then for every function of position of at most second degree, the sum over the slice of the coadd image times it is the weighted mean, with the weights of the epochs, of the sums over the source on the SE images in the coordinates of the coadd, up to the weighted mean of the sums of the absolute values of the source times 1.15 per cent of the function, 2.2 per cent of its change per pixel and a two-thousandth of its curvature. In particular a source that is not negative and has the same flux F and the same centroid on all SE images has the flux F on the coadd to 1.15 per cent, and its centroid along a pixel axis to 0.0115 D + 0.022 pixels times F over the flux of the coadd, D being its mean deviation from the centroid. The same holds in terms of the files of the SE images, and affine WCSs with the same matrix give such displaced pixels for every slice whose pixels are all on the SE image.", "quantifier": "all tiles, slices, seeds, displacements, sources, directions, weights and numbers of epochs", "why_tests_cant": "Tests check fluxes for a few simulated sources with loose tolerances; photometry and astrometry of every source, at every sub-pixel displacement and for every set of weights, is a statement about sums over the kernel and over the epochs.", "anchors": ["pizza_cutter/des_pizza_cutter/_se_image.py:1375-1591", "pizza_cutter/des_pizza_cutter/_coadd_slices.py:45-710", "pizza_cutter/coadding/_lanczos.py:11-90"]}
{"id": "C152", "title": "The coadd is the weighted mean with the least noise", "statement": "Let the noises of the used epochs in a pixel be uncorrelated, with variances in inverse proportion to the raw weights of the epochs: the largest weight of the slice for the weight type noise, the same over the fourth power of the FWHM of the PSF for noise-fwhm. Then the mean of the epochs with the weights of the coadd has the variance that belongs to the sum of the raw weights, no other weights that sum to one give a smaller variance, and in particular the coadd is never noisier than its best epoch.", "quantifier": "all tiles, slices, seeds, both weight types, numbers of epochs, probability spaces and noises with second moments, and all competing weights", "why_tests_cant": "Tests compare weights with values computed by the same formula; optimality is a statement about all other weights and all noise laws.", "anchors": ["pizza_cutter/des_pizza_cutter/_coadd_slices.py:28-42", "pizza_cutter/des_pizza_cutter/_coadd_slices.py:45-710"]}
{"id": "C153", "title": "Looser cuts keep every SE image that was used, and the proportions of their weights", "statement": "Suppose rejection of outliers is off and the cuts on SE images are made looser: a higher or equal max_masked_fraction, a smaller or equal edge_buffer, no additional bad_image_flags, and masked edges copied where they were not, or as before. Then every slice uses, in the same order, every SE image that it used with the stricter cuts (and possibly more), and the weights of these are those of the stricter run multiplied by one number between 0 and 1, so that their proportions are unchanged. This holds for any seeds and for any masks, including those filled with noise. If no further image is used, edges are copied as before and no pixel is filled with noise, then image, noise images, PSF, masks and masked fraction of the slice are the same, pixel by pixel, and so are the weights.", "quantifier": "all tiles, slices, SE images, masks, weight maps, symmetrisations, star masks, seeds, pairs of configurations ordered by their cuts, and external functions", "why_tests_cant": "A test compares a few thresholds on a few images; that no pair of thresholds, flags and masks lets a looser cut drop an image, although six cuts follow one another and the later ones see edges that were copied, is a statement about all pairs of configurations.", "anchors": ["pizza_cutter/des_pizza_cutter/_coadd_slices.py:167-252", "pizza_cutter/des_pizza_cutter/_coadd_slices.py:287-550", "pizza_cutter/slice_utils/flag.py:1-82", "pizza_cutter/slice_utils/interpolate.py:116-434", "pizza_cutter/des_pizza_cutter/_se_image.py:1155-1190"]}
{"id": "C154", "title": "Another zero point multiplies the fluxes and changes nothing else", "statement": "Suppose the zero points of all SE images are shifted by the same number of magnitudes, or the reference zero point is, so that every zero-point factor is k > 0 times as large. Then in every slice the image and all noise images are k times as large, pixel by pixel, and the weight map is divided by k squared. Everything else is the same: which SE images are used and which are rejected with which flags, their coadding weights, the PSF and its width, the bit masks, the masked fractions, the epochs information, or the error. This holds with and without rejection of outliers, symmetrised masks, star masks, copied edges, filling with noise and interpolation, for slices computed from fresh files and in processes that have done anything before, provided the external functions (interpolation, square root, noise draws, outlier rejection) follow the change of units. A shift of d magnitudes is a factor of 10^(0.4 d).", "quantifier": "all factors k > 0, tiles, slices, SE images, masks, weight maps, configurations, seeds, histories of a process, and external functions that follow a change of units", "why_tests_cant": "A test compares two zero points on a few images; a threshold on fluxes or weights in absolute units anywhere in the cuts, the interpolation or the coadding would only show for some fluxes, and no set of test images excludes it.", "anchors": ["pizza_cutter/des_pizza_cutter/_se_image.py:676-690", "pizza_cutter/des_pizza_cutter/_se_image.py:60-130", "pizza_cutter/des_pizza_cutter/_coadd_slices.py:28-42", "pizza_cutter/des_pizza_cutter/_coadd_slices.py:167-560", "pizza_cutter/slice_utils/interpolate.py:1-434", "pizza_cutter/des_pizza_cutter/_constants.py:17"]}
{"id": "C155", "title": "The direct and the approximate sinc function agree", "statement": "The package holds two sinc functions for the Lanczos kernel, a direct one (`sinc`) and a rational approximation (`sinc_pade`); a constant in the source selects which is compiled. The direct one never fails, is even, is 1 at 0 and 0 at every other integer, equals sin(pi x)/(pi x) from 1e-4 on and is within 1e-16 of it below. The two differ by at most 6.2e-15, 2.6e-10 and 1.05e-6 for arguments up to 1, 2 and 3. Selecting the other one changes a resampled pixel value by at most 2.12e-6 times the sum of the absolute values of the pixels under the kernel.", "quantifier": "all real arguments, images, positions and kernel widths", "why_tests_cant": "A test evaluates the functions on a grid of arguments; the bound is on every real argument, on both sides of the threshold of the series, and on every image and position.", "anchors": ["pizza_cutter/coadding/_sinc.py:6-48", "pizza_cutter/coadding/_lanczos.py:4-89"]}
{"id": "C156", "title": "A position is looked up in the cell of the bad-model grid that contains it", "statement": "Given a grid of flags for the cells of a CCD (square cells of a positive size) the lookup of a position returns the flag of the one cell that contains it, with the row taken from y and the column from x, and a position on the edge between two cells belongs to the upper one. A position off the grid gets the flag of the nearest cell, also in the corners. The lookup never fails unless the grid has no cells, when it raises IndexError. An array of positions is looked up position by position.", "quantifier": "all positions, grids of any shape, and positive cell sizes", "why_tests_cant": "The existing test looks up five positions on one square grid, where swapped axes or a limit taken from the other axis can go unnoticed.", "anchors": ["pizza_cutter/des_pizza_cutter/_se_image.py:367-370"]}
{"id": "C157", "title": "The same patch of sky gives the same slice on another tile", "statement": "Take two tiles on the same pixel grid of the sky, of which one numbers its pixels from another place (other rows and columns, other tile size, other position offset of its WCS), with the same SE images, configuration and seed of the slice. A slice of one tile and a slice of the other that cover the same patch have the same result: the same image, noise images, masks, PSF, weights and epochs information, or the same error. Only the number of the slice, and the slice number written in the epochs information, are different. If one tile is cut out of the other along slice borders, each of its slices is such a slice of the other. This also holds in processes with any history.", "quantifier": "all tiles, shifts, position offsets, slices, SE images and seeds of the slice; interpolators that do not depend on where the points are (and spline areas that agree, which is shown for affine coadd WCSs)", "why_tests_cant": "Tests run one or two slices near the origin of one tile; adding an offset twice, or forgetting it in one of the many conversions between tile, slice and SE positions, is invisible where the offset is zero.", "anchors": ["pizza_cutter/des_pizza_cutter/_pizza_cutter.py:273-414", "pizza_cutter/des_pizza_cutter/_coadd_slices.py:305-315", "pizza_cutter/des_pizza_cutter/_se_image.py:150-167", "pizza_cutter/des_pizza_cutter/_se_image.py:1310-1591", "pizza_cutter/slice_utils/locate.py:4-49"]}
{"id": "C158", "title": "Turning the sky in right ascension changes no slice", "statement": "Let every right ascension (celestial WCSs of the SE images and of the coadd, stars, positions of the slices) be increased by the same angle and reduced to whatever range the files use. Then every slice has exactly the same result: the same SE images are used with the same weights, and images, noise images, masks, PSF and epochs information are the same, or the same error. In particular a tile across 0/360 gives what the same tile elsewhere gives. In the table of slices only the right ascensions change: the rest of each row, with the Jacobian, is the same. This also holds in processes with any history.", "quantifier": "all angles, tiles, celestial WCSs (of which no pixel has neighbours exactly half a turn apart), SE images, stars, slices and seeds; projections of the libraries that depend on differences of right ascension only", "why_tests_cant": "Tests simulate tiles at a few fixed right ascensions; one difference of right ascensions that is not wrapped shows only where the edge of the range falls between two pixels that are subtracted.", "anchors": ["pizza_cutter/wcs.py:8-41", "pizza_cutter/wcs.py:66-118", "pizza_cutter/des_pizza_cutter/_se_image.py:150-190", "pizza_cutter/des_pizza_cutter/_se_image.py:944-985", "pizza_cutter/des_pizza_cutter/_sky_bounds.py:6-102", "pizza_cutter/des_pizza_cutter/_pizza_cutter.py:273-414"]}
{"id": "C159", "title": "Rows and columns are treated alike", "statement": "Let an SE image and its WCSs be transposed: the arrays with rows and columns exchanged, x and y exchanged. Then every step from reading a slice to the coadd gives the transposed result, or the same error: whatever calls of set_slice, set_psf and set_interp_image_noise_pmask were made (failed ones included), the object is the transposed one and resample gives the transposed image, noises, masks, interpolated fraction and PSF; an image mapped to the slice is transposed; the coadd of transposed epochs is the transposed coadd with the same weight. The box of the slice, the decision whether it is on the CCD, the pixel area and its interpolation, the Jacobian (columns exchanged), the check for flags, for a fully masked edge and the masked fraction, and lanczos_resample likewise.", "quantifier": "all images, shapes, positions, boxes, WCSs, histories of calls, destination grids, numbers of epochs and weights; splines that treat their two directions alike", "why_tests_cant": "Most tests use square images and WCSs with equal scales in x and y, where an exchange of rows and columns in one place is invisible; a test of a non-square case covers one place and one pair of sizes.", "anchors": ["pizza_cutter/coadding/_lanczos.py:10-174", "pizza_cutter/des_pizza_cutter/_se_image.py:170-227", "pizza_cutter/des_pizza_cutter/_se_image.py:661-724", "pizza_cutter/des_pizza_cutter/_se_image.py:987-1005", "pizza_cutter/des_pizza_cutter/_se_image.py:1155-1751", "pizza_cutter/des_pizza_cutter/_coadd_slices.py:553-710", "pizza_cutter/slice_utils/flag.py:4-82"]}
{"id": "C160", "title": "Doing a step again changes nothing", "statement": "Steps that could be run again on their own output leave it alone. A second call of copy_masked_edges_image_and_noise on the arrays it returned copies nothing more. A second call of interpolate_image_and_noise (without noise filling) on the images it returned, with the same weight, mask and options, returns them again. Normalising a normalised header returns it, order of keys included. A call of set_slice or set_psf that succeeds leaves the object as if the calls of it made before, completed or failed, had not been made. Two runs that compute the same and return leave the same files, whatever was at the paths they write before. Calling set_interp_image_noise_pmask again with the same arguments changes orig_image only, which is then the interpolated image: this one step is not to be repeated.", "quantifier": "all image shapes, pixel values, weights, masks, flags, numbers of noise images, interpolators, headers, earlier calls and earlier file system states", "why_tests_cant": "A test can repeat a step on some masks; that a repaired edge or corner never enables another repair, and that the interpolator never sees a pixel it has filled, depends on how masked edges meet at corners and in images two pixels wide, for all masks.", "anchors": ["pizza_cutter/slice_utils/interpolate.py:249-434", "pizza_cutter/des_pizza_cutter/_load_info.py:212-219", "pizza_cutter/des_pizza_cutter/_se_image.py:661-724", "pizza_cutter/des_pizza_cutter/_se_image.py:1225-1308", "pizza_cutter/des_pizza_cutter/_pizza_cutter.py:175-238"]}
{"id": "C161", "title": "The units of the weight maps do not matter for the image", "statement": "Let the weight maps of all SE images be divided by the square of one positive number k, so that the noise fields drawn from them are k times as large, and nothing else be changed. Then the same SE images are used in a slice, with the same coadding weights, the image of the slice is exactly the same, its noise images are k times as large and its weight map is divided by the square of k. This holds for the files of a tile and in processes with any history. Only the ratios of the weight maps of the SE images decide how they are combined.", "quantifier": "all factors k > 0, tiles, SE images, weight maps, masks without noise-fill flags, configurations without outlier rejection, seeds, and slices that have an image in both cases; external functions that follow a change of units, with linear interpolation", "why_tests_cant": "A test compares one image for one factor. A weight used in an absolute sense anywhere between reading and coadding (a threshold, a default value for a missing weight, a noise level in the interpolation) shows up only for certain weights and factors.", "anchors": ["pizza_cutter/des_pizza_cutter/_se_image.py:661-725", "pizza_cutter/des_pizza_cutter/_coadd_slices.py:28-42", "pizza_cutter/des_pizza_cutter/_coadd_slices.py:167-710", "pizza_cutter/des_pizza_cutter/_pizza_cutter.py:300-414", "pizza_cutter/slice_utils/interpolate.py:116-434"]}
