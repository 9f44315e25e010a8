{"id": "C01", "title": "Reduced shear is the disk automorphism", "statement": "Shearing a shape (g1,g2) by (s1,s2) gives the complex number (g+s)/(1+g*conj(s)). For any shape and shear inside the open unit disk the denominator is never zero, the result is again strictly inside the disk, and Shape.get_sheared never raises. For any numbers at all get_sheared raises ZeroDivisionError exactly where the denominator vanishes, otherwise GMixRangeError exactly when the image is not inside the disk; so a shape inside the disk can be sheared exactly by the shears inside the disk. A single number without second component raises ValueError.", "quantifier": "all real g, s", "why_tests_cant": "A continuum of inputs; the hard ones are arbitrarily close to the unit circle, where any finite sample misses the boundary.", "anchors": ["ngmix/shape.py: shear_reduced, Shape.get_sheared"]}
{"id": "C02", "title": "Shear inversion and identity", "statement": "Shearing by s and then by -s returns the original shape, shearing by zero changes nothing, shearing the round shape by s gives s, and two shears compose up to a rotation: the size |.| of shear-by-s-then-t equals the size of a single shear by the sheared shear.", "quantifier": "all shapes and shears in the open unit disk", "why_tests_cant": "Algebraic identities over a continuum; tests check a few numeric pairs to a tolerance.", "anchors": ["ngmix/shape.py: shear_reduced, Shape.get_sheared, Shape.__neg__"]}
{"id": "C03", "title": "Rotation of shapes", "statement": "Shape.get_rotated/rotate_shape by theta multiplies the complex shape by exp(-2i theta): it preserves |g| (so never raises on a valid shape), is inverted by rotation through -theta, composes additively, has period pi, and commutes with shearing when the shear is rotated too.", "quantifier": "all angles, all shapes and shears in the disk", "why_tests_cant": "Ranges over all real angles and shapes.", "anchors": ["ngmix/shape.py: Shape.get_rotated, Shape.rotate, rotate_shape"]}
{"id": "C04", "title": "Shape objects are valid", "statement": "Constructing a Shape or calling set_g1g2 succeeds exactly when g1^2+g2^2<1 and raises GMixRangeError otherwise. After any history of operations the object satisfies g1^2+g2^2<1 and g=sqrt(g1^2+g2^2) exactly when the last assignment succeeded: a refused set_g1g2 leaves the refused values in the object with a stale g. Copies and negation keep validity.", "quantifier": "all real arguments and all finite histories of operations on one Shape, including failing ones", "why_tests_cant": "Histories are unbounded; the violation needs an operation after a caught exception.", "anchors": ["ngmix/shape.py: Shape.__init__, Shape.set_g1g2, Shape.rotate"]}
{"id": "C05", "title": "Ellipticity conventions are mutually inverse", "statement": "g<->e, g<->eta and e<->eta conversions are inverse to each other inside the disk, keep the direction of the shape, map the open disk into the open disk (for g,e), send zero to zero and raise GMixRangeError exactly when the input size is >= 1; e = 2g/(1+|g|^2).", "quantifier": "all shapes in the open unit disk / all eta in the plane (away from the code's 1-2^-52 clip, which is modelled and whose effect is stated)", "why_tests_cant": "Transcendental round trips over a continuum.", "anchors": ["ngmix/shape.py: g1g2_to_e1e2, e1e2_to_g1g2, g1g2_to_eta1eta2, eta1eta2_to_g1g2, e1e2_to_eta1eta2"]}
{"id": "C06", "title": "Shear Jacobian is the true Jacobian determinant", "statement": "dgs_by_dgo_jacob(g,s) equals the determinant of the matrix of partial derivatives of the sheared shape with respect to the original shape, and is strictly positive in the disk.", "quantifier": "all g, s in the open unit disk", "why_tests_cant": "A statement about derivatives at every point; finite differences only approximate it.", "anchors": ["ngmix/shape.py: dgs_by_dgo_jacob, shear_reduced"]}
{"id": "C07", "title": "Round factor", "statement": "get_round_factor(g) lies in (0,1] for |g|<1, is 1 only for a round shape, and get_Tround/get_T (which use it) are mutually inverse and preserve the determinant of the second-moment matrix.", "quantifier": "all shapes in the disk, all sizes T", "why_tests_cant": "Continuum of shapes.", "anchors": ["ngmix/shape.py: get_round_factor", "ngmix/moments.py: get_Tround, get_T"]}
{"id": "C08", "title": "Moments <-> ellipticity conversions", "statement": "e2mom and mom2e are mutually inverse when T is not zero (either sign), and so are g2mom and mom2g for |g|<1; the matrix made from (e,T) is positive definite exactly when |e|<1 and T>0, and its trace is T. mom2e and mom2g raise ZeroDivisionError when the trace is zero; mom2g raises GMixRangeError exactly when the trace is not zero and the determinant is not positive; moms_to_e1e2 raises GMixRangeError exactly when T<=0. mom2e accepts a negative trace.", "quantifier": "all real moments", "why_tests_cant": "Continuum, includes the degenerate boundary.", "anchors": ["ngmix/moments.py: mom2e, mom2g, e2mom, g2mom, moms_to_e1e2"]}
{"id": "C09", "title": "Size conversions", "statement": "fwhm<->sigma<->T<->r50 converters are mutually inverse on nonnegative sizes, strictly monotone and mutually consistent (fwhm_to_T = sigma_to_T(fwhm_to_sigma)), T is 2 sigma^2, and the hard-coded FWHM factor agrees with 2 sqrt(2 ln 2) to 1e-9.", "quantifier": "all nonnegative sizes", "why_tests_cant": "Continuum; also relates a literal constant to its analytic value.", "anchors": ["ngmix/moments.py: fwhm_to_sigma, fwhm_to_T, sigma_to_fwhm, T_to_fwhm, r50_to_sigma, sigma_to_r50"]}
{"id": "C10", "title": "Shearing second moments is the matrix action", "statement": "get_sheared_moments and get_sheared_M1M2T transform a positive definite moment matrix by the symmetric shear matrix S=[[1+s1,s2],[s2,1-s1]] on both sides and divide by 1-|s|^2: M' = S M S/(1-|s|^2), for every |s|<1. The result is positive definite with the same determinant, the two functions agree, the ellipticity in the g convention is shear_reduced and the round size is kept. A shear not inside the disk is always refused: ZeroDivisionError on the unit circle or where the addition formula has no value, GMixRangeError elsewhere.", "quantifier": "all moment matrices and all shears", "why_tests_cant": "Algebraic identity over all real inputs, and an inequality.", "anchors": ["ngmix/moments.py: get_sheared_M1M2T, get_sheared_g1g2T, get_sheared_moments"]}
{"id": "C11", "title": "Moment results: flags and NaNs", "statement": "make_mom_result accepts exactly sums of length 6 or 17 with a square covariance of one of these sizes (ValueError otherwise) and then never raises. flags==0 exactly when every variance, the flux sum and the size sum are positive and neither shape sum is exactly zero, and then all derived quantities are finite; each derived quantity is the stated ratio of sums with its propagated error, or NaN under the stated flag; s2n = flux/flux_err. Two surprising cases of the code: an exactly zero shape sum is flagged NONPOS_SHAPE_VAR, and a size sum of exactly zero gives a NaN T_err with T_flags 0.", "quantifier": "all sums vectors with finite shape, size and flux sums (centroid sums may be NaN) and all covariance matrices with finite entries, of any sign", "why_tests_cant": "The combination of sign conditions on 6+36 real inputs is unbounded; NaN paths are rarely sampled.", "anchors": ["ngmix/moments.py: make_mom_result", "ngmix/util.py: get_ratio_var, get_ratio_error"]}
{"id": "C12", "title": "Regularised moments", "statement": "regularize_mom_shapes returns its argument when fwhm_reg<=0. With fwhm_reg>0 it keeps flux, flux error, s2n and size entries, never clears a flag set earlier, and where flux, regularised size and variances are positive the shapes are e = (M/F)/(T/F+T_reg); it raises ValueError for results with seventeen moments. The argument is left as it was when the call returns; the call that raises leaves zeros in place of NaN centroid sums and the other sums as they were.", "quantifier": "all results and all smoothing scales", "why_tests_cant": "All real inputs.", "anchors": ["ngmix/moments.py: regularize_mom_shapes"]}
{"id": "C13", "title": "Ratio variance propagation", "statement": "For a nonzero numerator get_ratio_var returns the first-order variance of a/b, i.e. the quadratic form of the gradient of (a,b)->a/b with the covariance matrix; it is nonnegative for every positive semidefinite covariance, get_ratio_error is the square root of it (clipped at zero), and negating both arguments changes nothing. ValueError is raised exactly when b==0. For a numerator of exactly zero the result is NaN, although the first-order variance is var_a/b^2.", "quantifier": "all a, b, var_a, var_b, cov", "why_tests_cant": "Continuum and a degenerate line of inputs.", "anchors": ["ngmix/util.py: get_ratio_var, get_ratio_error"]}
{"id": "C14", "title": "Jacobian round trip", "statement": "For a Jacobian with nonzero determinant get_rowcol(get_vu(row,col)) = (row,col) and get_vu(get_rowcol(v,u)) = (v,u) for every position; with a zero determinant get_rowcol raises ZeroDivisionError everywhere. get_vu at the centre is (0,0), get_rowcol at the origin is the centre; the map is affine with the stored derivatives.", "quantifier": "all Jacobians, all positions", "why_tests_cant": "All affine maps and positions.", "anchors": ["ngmix/jacobian/jacobian.py: Jacobian.get_vu, get_rowcol", "ngmix/jacobian/jacobian_nb.py: jacobian_get_vu, jacobian_get_rowcol"]}
{"id": "C15", "title": "Jacobian construction conventions agree", "statement": "Building a Jacobian from (x,y,dudx,dudy,dvdx,dvdy), from (row,col,dvdrow,dvdcol,dudrow,dudcol) or from a wcs with matching values gives equal objects; missing keywords raise; set_cen with both coordinates changes only the centre; copy is equal; Diagonal/UnitJacobian are the special cases. set_cen with only one coordinate raises: with x, col or y alone nothing has changed, but with row alone the row has already been moved.", "quantifier": "all keyword argument sets", "why_tests_cant": "All keyword subsets times reals.", "anchors": ["ngmix/jacobian/jacobian.py: Jacobian.__init__, set_cen, copy, __eq__, DiagonalJacobian, UnitJacobian"]}
{"id": "C16", "title": "Jacobian area and scale", "statement": "area = |det| = scale^2 of the row/col -> v/u map; it scales the area of any parallelogram, scale of DiagonalJacobian(s) is |s| and area s^2.", "quantifier": "all Jacobians", "why_tests_cant": "Continuum.", "anchors": ["ngmix/jacobian/jacobian.py: area, scale, get_det, get_scale"]}
{"id": "C17", "title": "Pixel list is faithful to the image", "statement": "make_pixels yields exactly one entry per image pixel whose weight is positive (all pixels when ignore_zero_weight is False), in row-major order, carrying that pixel's value, the Jacobian's (v,u) at that row/col, and ierr>=0 with ierr^2 = max(weight,0); it raises GMixFatalError exactly when zero weights are ignored and there is no positive weight.", "quantifier": "all image shapes, all pixel values and weights", "why_tests_cant": "Unbounded image sizes and weight patterns.", "anchors": ["ngmix/pixels/pixels.py: make_pixels", "ngmix/pixels/pixels_nb.py: fill_pixels, fill_coords"]}
{"id": "C18", "title": "Gaussian mixture parameter round trip", "statement": "GMix(pars=get_full_pars()) reproduces the mixture; a number of pars not a multiple of 6 raises ValueError; copies are equal; get_flux is the sum of p; the centroid is the p-weighted mean, size and shape those of the second moments about it; set_flux(f) makes get_flux()==f and keeps centroid, shape and size; set_cen moves the centroid to the requested place and keeps everything else. Equality of mixtures of different size is not refused: it broadcasts, so one gaussian equals any mixture of copies of it. The compiled gmix_get_e1e2T gives the same shape and size, but raises GMixRangeError for every mixture whose size times flux is not positive and ZeroDivisionError for zero flux.", "quantifier": "mixtures with any number of gaussians and any real parameters (total p nonzero where a mean is taken)", "why_tests_cant": "Any number of components.", "anchors": ["ngmix/gmix/gmix.py: GMix.__init__, get_full_pars, get_flux, set_flux, get_cen, set_cen, copy, __eq__", "ngmix/gmix/gmix_nb.py: gmix_get_cen"]}
{"id": "C19", "title": "Convolution laws", "statement": "GMix.convolve(psf) has n*m gaussians; its flux is the object's flux and its centroid the object's centroid, whatever the psf's flux and position; covariances add pairwise, the second moments and the size T are the sums of those of object and psf. It raises ZeroDivisionError exactly when the psf's total flux is zero (not GMixRangeError), and nothing else.", "quantifier": "all mixtures of any sizes n, m", "why_tests_cant": "Any number of components.", "anchors": ["ngmix/gmix/gmix.py: GMix.convolve", "ngmix/gmix/gmix_nb.py: gmix_convolve_fill, gmix_get_cen, gmix_get_e1e2T"]}
{"id": "C20", "title": "Norms and determinants are current when used", "statement": "Setting a gaussian stores det = irr*icc-irc^2 and marks its norms unset. Setting norms of a gaussian fails (GMixRangeError, nothing changed) exactly when det or T is below the threshold, and otherwise stores norms of the current parameters; for a mixture it stops at the first failing gaussian. After any history of operations in which no norm setting failed part way, every evaluation uses norms of the current parameters. A part-way failure is forgotten: the next evaluation succeeds and leaves out the failing gaussian and all after it. make_round keeps fluxes and positions, makes every covariance isotropic with the trace multiplied by one factor (that of a shear, or with preserve_size the one that takes half the size to the larger eigenvalue of the second moments) and marks the norms unset. (Violation: it leaves the old determinant.)", "quantifier": "all mixtures, all sequences of set/norm/evaluate operations", "why_tests_cant": "Histories with a failure in the middle.", "anchors": ["ngmix/gmix/gmix_nb.py: gauss2d_set, gauss2d_set_norm, gmix_set_norms", "ngmix/gmix/gmix.py: GMix.set_norms_if_needed, make_round"]}
{"id": "C21", "title": "A gaussian component integrates to its flux", "statement": "The exact (non-fast) evaluation norm*exp(-chi2/2) of a component with valid covariance integrates over the plane to p, is symmetric about the centre and largest there; chi2 is nonnegative and is the inverse-covariance quadratic form. Rendering adds to every pixel of an image the value of the mixture there, exact or fast as asked.", "quantifier": "all components with positive determinant and size", "why_tests_cant": "Integral over the plane.", "anchors": ["ngmix/gmix/gmix_nb.py: gmix_eval_pixel, gauss2d_set_norm"]}
{"id": "C22", "title": "Simple models follow their parameters", "statement": "Filling gauss/exp/dev/turb models with pars (row,col,g1,g2,T,F) yields gaussians all centred at (row,col), all with ellipticity exactly the requested g, with sizes T*f_i and fluxes F*p_i; flux and size of the mixture equal F and T within 1e-13 relative; centroid and shape are exact; g outside the disk raises GMixRangeError and a wrong number of parameters ValueError.", "quantifier": "all parameter vectors", "why_tests_cant": "Continuum of parameters over several tables.", "anchors": ["ngmix/gmix/gmix_nb.py: gmix_fill_simple, _pvals_exp, _fvals_exp, g1g2_to_e1e2"]}
{"id": "C23", "title": "Composite models are flux-weighted unions", "statement": "cm/bd/bdf/coellip fills are the union of their exp and dev (or gaussian) parts with flux fractions (1-fracdev) and fracdev; their flux is F (up to the same model constants) for every fracdev, including outside [0,1], and every gaussian shares centre and ellipticity.", "quantifier": "all parameters", "why_tests_cant": "Continuum.", "anchors": ["ngmix/gmix/gmix_nb.py: gmix_fill_cm, gmix_fill_bd, gmix_fill_bdf, gmix_fill_coellip, get_cm_Tfactor"]}
{"id": "C24", "title": "Model copies carry the model's current state", "statement": "After any history of construction, successful fill and set_cen, a copy of a model mixture is the same mixture with the same parameters. A flux set with set_flux, and a shear, are not carried by copy: the copy is the mixture before them, for every model class, so shearing twice is shearing once. make_round keeps everything but the gaussians, the stored parameters included, so a copy of the round mixture is the mixture before rounding.", "quantifier": "all model classes, all histories of construction, fill and set_cen, followed by set_flux or a shear", "why_tests_cant": "Histories.", "anchors": ["ngmix/gmix/gmix.py: GMixModel.copy, GMix.set_flux, GMixModel.set_cen"]}
{"id": "C25", "title": "Concatenation and model tables", "statement": "gmix_concat keeps all gaussians in order (flux additive, length additive) and raises ValueError exactly on an empty list. Any number of parameters other than get_model_npars is refused with ValueError by make_gmix_model; get_model_ngauss, asked with the model's number, is the number of gaussians of every model that can be made (asked with the name too, where it knows the name); names and numbers are two ways to say the same model. The tables also list models that cannot be made (cm, bdc), and lack entries for some that can (npars of full and coellip, ngauss of the names bd, bdf).", "quantifier": "all lists of mixtures, all model names", "why_tests_cant": "Unbounded lists.", "anchors": ["ngmix/gmix/gmix.py: gmix_concat, get_model_npars, get_model_ngauss, get_coellip_npars, get_coellip_ngauss"]}
{"id": "C26", "title": "Fast exponential error bound", "statement": "For every argument in [-15,0] the table lookup index is in range; exp5 (the one used for images) differs from exp by a relative error at most the documented 4e-5, exp4 by at most 5e-4 and exp3 by at most 0.004. exp4's documented 2e-4 does not hold: the error exceeds 3e-4 at -0.49. A gaussian evaluated with the fast exponential is within 4e-5 of the exact density, or zero where the density is below exp(-12.5) of the peak.", "quantifier": "all x in [-15,0] (and the pixel code only calls it for 0<=chi2<25 i.e. x in (-12.5,0])", "why_tests_cant": "A bound over a real interval; tests sample points.", "anchors": ["ngmix/fastexp_nb.py: fexp, exp5", "ngmix/gmix/gmix_nb.py: gauss2d_eval_pixel_fast"]}
{"id": "C27", "title": "Likelihood and residual vectors agree", "statement": "For the same mixture and pixels, -1/2 * sum(fdiff^2) equals the log likelihood; both treat a mixture as the sum of its components; fill_fdiff writes exactly the slots start..start+npix-1; loglike is never positive.", "quantifier": "all mixtures and pixel lists", "why_tests_cant": "Unbounded lists.", "anchors": ["ngmix/gmix/gmix_nb.py: get_loglike, fill_fdiff", "ngmix/gmix/gmix.py: get_loglike, fill_fdiff"]}
{"id": "C28", "title": "S/N sums", "statement": "get_s2n_sums of an ObsList/MultiBandObsList are the sums over member observations; they depend only on pixels with positive weight; s2n is scale-equivariant: multiplying the image by c>0 and dividing weights by c^2 leaves it unchanged; get_s2n returns -9999 exactly when the variance sum is not positive.", "quantifier": "all observations and lists", "why_tests_cant": "Unbounded lists.", "anchors": ["ngmix/observation.py: Observation.get_s2n_sums, get_s2n, ObsList.get_s2n_sums, MultiBandObsList.get_s2n"]}
{"id": "C29", "title": "Observation array consistency invariant", "statement": "After any sequence of attribute assignments (valid, invalid or removing), constructions and copies, the image, weight, bmask, ormask, noise and mfrac that are present all have the image's shape. An assignment of an array of another shape raises AssertionError and leaves all array attributes as they were. A weight of the right shape without any positive entry is refused with GMixFatalError (when pixels are stored and zero weights ignored), but has replaced the old weight by then.", "quantifier": "all finite histories of constructor/setter calls with arbitrary shapes", "why_tests_cant": "Histories.", "anchors": ["ngmix/observation.py: Observation.set_image, set_weight, set_bmask, set_ormask, set_noise, set_mfrac"]}
{"id": "C30", "title": "Observation pixels stay in sync", "statement": "With store_pixels on, after any history of operations without a refused weight or image change, and with arrays changed only through the object, the pixel list equals make_pixels of the current image, weight, Jacobian and ignore_zero_weight flag; arrays cannot be written outside a writeable() block, and leaving a block brings the pixels up to date. Out of sync states are reached by an assignment refused with GMixFatalError, through an alias of an array the caller kept, and through a Jacobian taken from the object inside a block and kept.", "quantifier": "all finite histories including writeable blocks and failures", "why_tests_cant": "Histories and crash points.", "anchors": ["ngmix/observation.py: Observation.update_pixels, writeable, __enter__, __exit__, set_weight, set_jacobian"]}
{"id": "C31", "title": "Observation copies and equality", "statement": "copy() of an observation is equal to the original and independent of it (arrays, Jacobian and metadata); equality is reflexive, and equal observations agree in image, weight, jacobian and every optional attribute the left one has. It is not symmetric (optional attributes only the right one has are not compared) and broadcasts array shapes. update_meta_data updates, in place, the dictionary of this observation by its argument, seen by every observation that refers to the same dictionary and changing nothing else; an argument that is no dictionary is refused with TypeError.", "quantifier": "all pairs of observations", "why_tests_cant": "All combinations of optional attributes.", "anchors": ["ngmix/observation.py: Observation.copy, Observation.__eq__"]}
{"id": "C32", "title": "psf and gmix attributes", "statement": "has_psf/has_gmix reflect the last successful set or removal; getters raise RuntimeError and the psf property AttributeError when the attribute is absent; gmix is copied on the way in and out so later changes by the caller cannot alter the observation. A refused set_psf/set_gmix has deleted the old value.", "quantifier": "all histories", "why_tests_cant": "Histories with failures.", "anchors": ["ngmix/observation.py: set_psf, set_gmix, get_psf, get_gmix, has_psf, has_gmix"]}
{"id": "C33", "title": "Typed observation lists", "statement": "ObsList/MultiBandObsList only ever contain members of the right type after any sequence of construction, append and item assignment; a refused element leaves the list unchanged; copying preserves length, order and metadata; two lists are equal exactly when their members are equal in order (their metadata is not compared). The inherited extend, insert and slice assignment do not check and let other objects in.", "quantifier": "all histories of list operations", "why_tests_cant": "Histories.", "anchors": ["ngmix/observation.py: ObsList, MultiBandObsList, KObsList, KMultiBandObsList"]}
{"id": "C34", "title": "get_mb_obs normalises", "statement": "get_mb_obs turns an Observation into a 1x1, an ObsList into a 1xn and returns a MultiBandObsList unchanged, preserves observation order, is idempotent, and raises ValueError on anything else.", "quantifier": "all inputs of the union type", "why_tests_cant": "All lists.", "anchors": ["ngmix/observation.py: get_mb_obs"]}
{"id": "C35", "title": "Runner retry semantics", "statement": "Runner.go/run_fitter calls the fitter at most ntry times, stops after the first success, returns the first successful result if there is one within ntry tries and otherwise the last failure; a new guess is drawn for every attempt. With ntry below one it raises UnboundLocalError without calling anything.", "quantifier": "all integers ntry and all (infinite, adversarial) sequences of fit outcomes", "why_tests_cant": "All outcome sequences.", "anchors": ["ngmix/runners.py: run_fitter, Runner.go"]}
{"id": "C36", "title": "PSF runner bookkeeping", "statement": "PSFRunner.go records a result for every observation (in the metadata of its psf if it has one, otherwise in its own), in order, through ObsLists and MultiBandObsLists, and refuses other arguments with ValueError. A mixture is set exactly on those with flags==0 whose result offers one, when requested, and nothing else changes: a failed fit never acquires a mixture, and keeps the one an earlier fit left. Of several fits recorded in one place the last counts: every single fit is recorded where it belongs when the metadata dictionaries are different objects, and observations made with the same dictionary share the result. A get_gmix that raises stops the run with the result already recorded.", "quantifier": "all (multi-band) observation structures and fit outcomes", "why_tests_cant": "Unbounded nested lists.", "anchors": ["ngmix/runners.py: run_psf_fitter, PSFRunner.go"]}
{"id": "C37", "title": "Removal of failed PSF observations", "statement": "remove_failed_psf_obs keeps exactly the observations whose recorded psf result has flags==0, in the same order within each band, never loses a band, and raises BootPSFFailure exactly when some band would become empty; an observation without psf is an AttributeError, a psf without result a KeyError (in a list, at the first observation of that kind, whatever follows it), and an argument that is neither observation nor list a ValueError. bootstrap with ignore_failed_psf runs the object fitter on exactly the kept observations, and without it once on all of them, after the psf fits; when the psf runner raises the object fitter is not run. When the psfs have different metadata dictionaries those kept are exactly those whose own fit succeeded; psfs made with the same dictionary share the result, so that an observation whose psf fit failed can be kept.", "quantifier": "all nested lists and flag patterns", "why_tests_cant": "Unbounded lists.", "anchors": ["ngmix/bootstrap.py: remove_failed_psf_obs, bootstrap"]}
{"id": "C38", "title": "Flag names", "statement": "For every name map and every value, get_flags_str lists exactly the names of the set bits among bits 0..30, in increasing order, with an explicit name for unknown bits, and raises ValueError exactly for negative values; the flags of the package are distinct single bits. Bit 31 and above are not reported.", "quantifier": "all 32-bit flag values and all name maps", "why_tests_cant": "2^32 values times all maps.", "anchors": ["ngmix/flags.py: get_flags_str"]}
{"id": "C39", "title": "Least-squares bound transforms", "statement": "The internal<->external parameter transforms of leastsqbound are inverse on the allowed range, the external value satisfies the bounds for every real internal value, the gradient function is the derivative of the transform, and the covariance that is returned is the one of the internal parameters multiplied by these derivatives on both sides. With bounds, for every objective and every behaviour of the minimiser, the objective is evaluated once at the caller's start and from then on only inside the bounds, and the result is inside; a start inside is not moved. A start outside is not refused: two or more below a lower bound it is reflected inside.", "quantifier": "all bounds (none, lower, upper, both), all reals, objectives and minimisers", "why_tests_cant": "Continuum; trigonometric range argument.", "anchors": ["ngmix/fitting/leastsqbound.py: _internal2external_lambda, _external2internal_lambda, _internal2external_grad, leastsqbound"]}
{"id": "C40", "title": "run_leastsq result flags", "statement": "run_leastsq reports flags==0 exactly when MINPACK reported success, a covariance was returned, the final evaluation succeeded, dof is nonzero and the covariance passes its sign and eigenvalue tests; then the covariance is MINPACK's times chi^2/dof of the data residuals, positive semidefinite, and the errors are the roots of its diagonal. Every failure has the stated flag and default parameters (kept when only the covariance failed); a non-finite objective or division by zero becomes a flag, with pars_err and ier absent, other exceptions propagate. dof is data residuals minus parameters (half of the residuals in k space). In a fit with bounds of two or more parameters flags is 0 only if every bounded parameter ended strictly inside its bounds. MINPACK codes 5..8 become bits 1, 2, 4, 8, which are the bits of other documented flags.", "quantifier": "all outcomes of the underlying minimiser", "why_tests_cant": "All outcome combinations.", "anchors": ["ngmix/fitting/leastsqbound.py: run_leastsq, _test_cov"]}
{"id": "C41", "title": "Prior slots and pixels partition the residual vector", "statement": "The residual vector of a fit model is the prior terms followed by the residuals of the pixels. Without a prior, and for bd, bdf and coellip models, the number of slots reserved for priors equals the number the joint prior writes, so the slots after the reserved ones are exactly the data residuals. For exp, dev, gauss and turb one slot more is reserved than written: the slots after the reserved ones miss the residual of the first pixel and end with a spurious zero.", "quantifier": "all models, numbers of bands and pixels, joint priors made for the model, histories of evaluations and parameters", "why_tests_cant": "All nband, npix.", "anchors": ["ngmix/fitting/results.py: FitModel.get_lm_n_prior_pars, calc_fdiff", "ngmix/joint_prior.py: PriorSimpleSep.fill_fdiff"]}
{"id": "C42", "title": "Joint prior residuals reproduce the log prior", "statement": "For PriorSimpleSep, PriorBDSep, PriorBDFSep, PriorSpergelSep and PriorCoellipSame, wherever the log prior is finite: it is the sum of the log priors of the parameters, each at its own parameter; fill_fdiff writes the documented number of residuals at the start of the array and leaves the rest alone; each residual squares to minus twice its term, so minus half their sum of squares is the log prior. The classes working with log probabilities raise the same exceptions in both. The bd and bdf priors need GPriorBA as shape prior: with ZDisk2D or GPriorGauss, which have no residuals, their fill_fdiff raises AttributeError even where the log prior is finite. Priors with residuals but no log probability can be used in bd/bdf priors, whose log prior then raises AttributeError.", "quantifier": "all parameters, all numbers of bands/gaussians", "why_tests_cant": "Continuum, any nband.", "anchors": ["ngmix/joint_prior.py: fill_fdiff, get_lnprob_scalar"]}
{"id": "C43", "title": "Joint prior bounds and samples have the parameter layout", "statement": "For every joint prior but PriorCoellipSame the bounds are absent exactly when no prior has bounds, and otherwise have one (low,high) entry per parameter in parameter order, and a sampled row has one column per parameter, drawn from the prior of that parameter. For PriorCoellipSame with any bounded prior the bounds have 4+n(n+1) malformed entries which the bounded minimiser refuses, and the first size column of a sampled row is the sum of two draws. Tuples of flux priors are refused by every class.", "quantifier": "all numbers of bands/gaussians", "why_tests_cant": "All n.", "anchors": ["ngmix/joint_prior.py: set_bounds, sample"]}
{"id": "C44", "title": "One-dimensional priors are peak-normalised and fdiff-consistent", "statement": "Normal, LogNormal, TruncatedGaussian with the mean inside, GPriorBA, CenPrior: the log probability is at most zero with equality exactly at the mode, and fdiff^2 = -2 lnprob; FlatPrior is constant inside its inclusive interval and ZDisk2D inside its radius; out-of-support arguments raise GMixRangeError in the scalar API; Normal, TruncatedGaussian, GPriorBA and CenPrior refuse exactly a zero sigma (ZeroDivisionError), LogNormal exactly a mean that is not positive (ValueError). TwoSidedErf is below zero everywhere with fdiff^2 = -2 lnprob; Sinh likewise has residuals only. Exceptions: a TruncatedGaussian whose mean is outside its interval, the array form of TruncatedGaussian, LogNormal with zero sigma, the documentation of Sinh.", "quantifier": "all parameters and arguments", "why_tests_cant": "Continuum.", "anchors": ["ngmix/priors/priors.py: Normal, LogNormal, FlatPrior, TruncatedGaussian", "ngmix/priors/shape.py: GPriorBA"]}
{"id": "C45", "title": "Rejection samplers return exactly n in-range values", "statement": "Samplers built on the ngood/nleft loop (bounded 1D priors, truncated gaussian, shape priors, disk) return, whenever they terminate, exactly the requested number of values, all inside the support and each one an actual draw, in draw order. The limits of a bounded prior must be two numbers in increasing order (ValueError otherwise), and over any history of changed limits and draws each draw respects the limits last accepted.", "quantifier": "all random streams and all n", "why_tests_cant": "All random streams.", "anchors": ["ngmix/priors/priors.py: Bounded1D.sample, TruncatedGaussian.sample", "ngmix/priors/shape.py: GPriorBase.sample1d, ZDisk2D.sample2d"]}
{"id": "C46", "title": "PSF flux fit is the least-squares optimum", "statement": "With nonnegative weights and templates of nonzero flux, PSFFluxFitter's flux is the unique minimum over f of chi^2(f)=sum w (im - f m)^2, summed over the pixels of all observations, m being the template image or rendered mixture normalised to unit flux (or left as given when a psf is not normalised). The reported chi2per is that minimum per degree of freedom, flux_err is the usual one, flags are zero exactly when sum w m^2 is not zero and there is more than one pixel. With the images multiplied by any nonzero c and the weights by any positive j, flags and degrees of freedom stay, the flux is multiplied by c, its error by |c| (whatever the normalisation of the weights) and chi2per by c^2 j; the units of a normalised template do not matter. A template or mixture of zero flux that has to be normalised is always flagged.", "quantifier": "all templates, images, weights over any number of observations", "why_tests_cant": "Unbounded data.", "anchors": ["ngmix/fitting/results.py: PSFFluxFitModel"]}
{"id": "C47", "title": "Band parameter selection", "statement": "get_band_pars(pars, band) returns the shared structural parameters and the flux of that band for every model and band, with the number of parameters the model needs. Total lnprob is the prior plus the sum over bands and observations.", "quantifier": "all models, bands, pars", "why_tests_cant": "Any nband.", "anchors": ["ngmix/fitting/results.py: FitModel.get_band_pars, calc_lnprob", "ngmix/fitting/galsim_results.py: get_band_pars"]}
{"id": "C48", "title": "EM conserves flux and its fixed quantities", "statement": "A fit that returns a mixture is exactly numiter textbook EM updates of the guess convolved with the psf. With vary_sky the total flux plus the sky in all pixels equals the sum of the pixel values (masked pixels holding the predicted value); without it the reported sky is the given one and for zero sky the total flux is the sum of the pixel values. The fixcen variant returns the centres of the guess, the fixcov variant its covariances, the flux-only variant both; the other variants return positive semidefinite covariances; nonnegative pixels, sky and starting fluxes give nonnegative sky and fluxes.", "quantifier": "all images, mixtures, and iteration counts", "why_tests_cant": "Any number of iterations, pixels and gaussians.", "anchors": ["ngmix/em/em_nb.py: em_run, em_run_fixcen, em_run_fixcov, em_run_fluxonly, gmix_set_from_sums*"]}
{"id": "C49", "title": "EM outcome flags", "statement": "A returned mixture comes with 1<=numiter<=maxiter; flags are EM_MAXITER exactly when numiter equals maxiter and else 0; flags 0 means the last relative change is below tol after at least miniter iterations; every numerical failure gives EM_RANGE_ERROR, no mixture, and RuntimeError from get_gmix, and no exception escapes. A fit that converges in iteration maxiter is flagged EM_MAXITER all the same, and with maxiter<miniter the reported relative change was never computed.", "quantifier": "all inputs and histories", "why_tests_cant": "All runs.", "anchors": ["ngmix/em/em.py: EMFitter.go", "ngmix/em/em_nb.py: em_run"]}
{"id": "C50", "title": "prep_image makes pixels positive", "statement": "prep_image adds the reported sky to every pixel so that the minimum is 0.001*(max-min) >= 0, strictly positive exactly when the image is not constant; an image without pixels is a ValueError; a constant image cannot be fitted with guessed sky by any variant but the flux-only one (EM_RANGE_ERROR); the prepared observation keeps the psf and uses every pixel with weight one whatever its weight was.", "quantifier": "all images", "why_tests_cant": "All images.", "anchors": ["ngmix/em/em.py: prep_image, prep_obs"]}
{"id": "C51", "title": "Adaptive moments: how a run ends", "statement": "With maxiter>0, no zero-weight pixel among the pixels and a guess made by the package, AdmomFitter.go always returns a result; numiter<=maxiter, with equality exactly when flux_flags is MAXITER; flux_flags names the reason for stopping (out of range weight, no flux, centre moved more than shiftmax, no size, degenerate covariance, MAXITER); flags==0 only if the run converged: the last two measurements are within the tolerances, the centre within shiftmax of the guess, and the parameters are those of the final weight, which is also left in the caller's guess. A run converging exactly in iteration maxiter is flagged MAXITER all the same; a zero-weight pixel makes it raise ZeroDivisionError; maxiter<=0 gives no result. get_gmix raises RuntimeError for flagged results and else returns exactly the final weight with unit flux. find_cen_admom keeps the covariance of the weight and its centre is NaN exactly when the result is flagged, else the weighted centroid. A guess given as a size makes one gaussian of unit flux with centre within half a pixel scale of the centre of the jacobian, shape components within 0.3 and size within 10% of that given; a guess given as a mixture is used as it is. Between its tries find_cen_admom moves the weight to within half a pixel scale of that centre.", "quantifier": "all images, guesses, configurations and iteration histories", "why_tests_cant": "Unbounded iteration histories over a continuum of images.", "anchors": ["ngmix/admom/admom_nb.py: admom", "ngmix/admom/admom.py: AdmomFitter.go, AdmomResult.get_gmix, find_cen_admom"]}
{"id": "C52", "title": "Deweighting identity", "statement": "If the measured weighted covariance M satisfies M^-1 = C^-1 + W^-1 then deweighting makes the weight's covariance exactly C; the weight is a fixed point exactly when M = W/2; LOW_DET is flagged, with the weight untouched, exactly when one of the three determinants (of M, W, M^-1 - W^-1) is at most 1e-200. Moments wider than the weight pass these tests and leave a negative covariance, which ends the next iteration with a range error.", "quantifier": "all covariances C, W", "why_tests_cant": "Continuum.", "anchors": ["ngmix/admom/admom_nb.py: deweight_moments"]}
{"id": "C53", "title": "Metacal type bookkeeping", "statement": "get_all rejects a list with an unknown type name with AssertionError before touching the observation; otherwise its result has exactly the requested types as keys, plus noshear whenever 1p is requested and 1p whenever noshear is, each once; the entry of each type is the observation whose image and psf were built with exactly that type's shear of plus or minus the step along its axis, with the input's weight, metadata and other attributes kept. With types=None the class's default types are used. The caller's own list is extended by 1p when noshear was requested without it, and a tuple then raises AttributeError.", "quantifier": "all lists of types", "why_tests_cant": "All lists.", "anchors": ["ngmix/metacal/metacal.py: MetacalDilatePSF.get_all, get_shear...", "ngmix/metacal/defaults.py"]}
{"id": "C54", "title": "Fixnoise combination", "statement": "Metacal with fixnoise makes noise observations with the structure of the input, turned by 90 degrees, applies metacal to the input and then to the noise, and for every type gives observations with the nesting and order of plain metacal, each the plain one with the noise one of the same place, turned back exactly, added to it: images add pixel by pixel, variances add where both weights are positive, a weight stays as it is where either is zero (so equal weights are halved). Images must be square: otherwise AssertionError before any metacal image is made. Without fixnoise, metacal is applied to the input alone. With use_noise_image the noise image of the observation is used and one without it is an AttributeError.", "quantifier": "all nested structures, images, weights, noise sources and metacal functions", "why_tests_cant": "All images.", "anchors": ["ngmix/metacal/convenience.py: _doadd_single_obs, _rotate_obs_image_square"]}
{"id": "C55", "title": "Metacal structure preservation", "statement": "Metacal on a non-empty ObsList or a MultiBandObsList without empty bands works through the observations in order, raises the first error met, and otherwise gives for each type a list with the same nesting, length and order, each member being what metacal on the corresponding observation gave. Empty lists give None, an empty first band AttributeError, a later empty band TypeError, anything else ValueError. metacal_bootstrap fits every type once in order and returns results and observations under the same keys.", "quantifier": "all nested lists, types arguments and metacal classes; any fitter", "why_tests_cant": "Unbounded.", "anchors": ["ngmix/metacal/convenience.py: _make_metacal_mb_obs_list_dict, _make_metacal_obs_list_dict", "ngmix/metacal/bootstrap.py"]}
{"id": "C56", "title": "Reconvolution psf sizes", "statement": "For a fitted psf of positive size T the ellipticity dilation is 2 sqrt(1+|e|)-1 but at most 1.1; it is at least 1, and 1 only for a round psf. The fitted round target has sigma^2 = T*dilation/2, at least the mean variance T/2; it is less than the variance along the psf's major axis unless the psf is round, because the dilation, a ratio of lengths, multiplies T, a squared length. Dilation by 1+2|g| covers the stretching by a shear g in every direction when |g|^2 <= 1/2, and not beyond. The gaussian target has amplitude at most 0.003 at every Fourier mode where the psf's is below 1% of its flux, and exactly 0.003 at the first such mode; without such a mode ValueError.", "quantifier": "all psf shapes, shears and Fourier images", "why_tests_cant": "Continuum.", "anchors": ["ngmix/metacal/metacal.py: _get_ellip_dilation, _do_dilate"]}
{"id": "C57", "title": "PSF cache transparency", "statement": "Every successful request for an observation, in any history of earlier requests and failures on the same object, returns exactly what a request on a new object returns. For the classes with a round target psf this also holds for failures. For the dilating class a repeated request after a failed psf drawing does not repeat the failure: it raises TypeError, because the cache keeps a half-made entry.", "quantifier": "all histories of requests and failures", "why_tests_cant": "Histories with crash points.", "anchors": ["ngmix/metacal/metacal.py: get_target_psf, _do_dilate"]}
{"id": "C58", "title": "Mixture of n-dimensional gaussians", "statement": "GMixND.set_mixture raises LinAlgError exactly when some covariance is singular. With positive determinants and nonnegative weights get_prob_scalar(x) is sum_k w_k N(x; mu_k, C_k) at every x, computed through log-sum-exp, get_lnprob_scalar is its logarithm (-inf exactly when all weights are zero), a component request returns that component's term (AssertionError exactly outside the range of indices) and the components sum to the total; with positive definite covariances the probability integrates over all space to the sum of the weights. A negative determinant or a negative weight is not refused and makes every total NaN. The array forms evaluate point by point.", "quantifier": "all dimensions, numbers of gaussians, parameters and points", "why_tests_cant": "Continuum of points, unbounded dimensions and components; the normalisation is an integral.", "anchors": ["ngmix/gmix_ndim/gmix_ndim.py: GMixND.set_mixture, get_prob_scalar, get_lnprob_scalar, get_prob_array, get_lnprob_array", "ngmix/gmix_ndim/gmix_ndim_nb.py: gmixnd_get_prob, gmixnd_get_prob_component"]}
{"id": "C59", "title": "Zero padding and apodization", "statement": "Zero padding places the image unchanged in an array of the target size, surrounded by zeros, with floor((target-n)/2) pixels before and the rest after, and keeps the sum of the pixels; a target smaller than the image is a ValueError. The apodization profile lies in [0,1], never decreases, rises from 0 to 1 over a strip of six radii along each edge, point symmetric about the middle of the strip; the mask is the product of the profiles of the four edges, lies in [0,1], is symmetric under reflection and is exactly 1 in the interior. With radius <= 0 the image is returned as it is.", "quantifier": "all image sizes, targets, radii", "why_tests_cant": "Continuum & unbounded sizes.", "anchors": ["ngmix/prepsfmom.py: _zero_pad_image, _ap_kern_kern, _build_square_apodization_mask"]}
{"id": "C60", "title": "PSF deconvolution floor", "statement": "Deconvolution divides every mode used by the psf's amplitude where that exceeds 1e-5 of the psf's amplitude at zero frequency; elsewhere by a number with modulus exactly that floor and the same phase (the floor itself where the amplitude is zero). The moments are not finite exactly when the psf's total flux is zero and some mode used has no amplitude. The returned mask marks only modes of exactly zero amplitude, not all truncated ones.", "quantifier": "all images and psfs", "why_tests_cant": "All complex arrays.", "anchors": ["ngmix/prepsfmom.py: _deconvolve_im_psf_inplace"]}
{"id": "C61", "title": "Pre-psf moments are linear with symmetric covariance", "statement": "With psf, weights, jacobians and kernel settings fixed, the raw moments are linear in the image and the covariance does not depend on it; the covariance is symmetric and positive semidefinite. With return_kernels the moments are the inverse transforms at the object's position of the deconvolved image times the kernels returned.", "quantifier": "all images, psfs, weights and settings", "why_tests_cant": "All.", "anchors": ["ngmix/prepsfmom.py: _measure_moments_fft_numba"]}
{"id": "C62", "title": "Guessers stay in range", "statement": "The guessers return as many rows as asked for: TFluxGuesser and R50FluxGuesser with centre within 0.01 and shape within 0.02 of zero and size and fluxes within 10% of those given; the guessers built on a prior return samples of the prior with size and fluxes within 10% of those given (BDFGuesser also a bulge fraction between 0.4 and 0.6; BDGuesser puts that number in the column of the logarithm of the size ratio and leaves the bulge fraction as sampled); ParsGuesser within its widths; the spergel index strictly inside its range. PriorGuesser returns exactly what the prior draws. R50FluxGuesser refuses exactly negative radii; a prior with fewer columns than fluxes raises IndexError. With a prior, a row it allows is kept and an excluded row is replaced by samples, up to four; the fourth is returned unchecked, so an excluded row can be returned; samples of another length than the excluded row raise ValueError. get_shape_guess returns as many shapes as asked for, inside the disk, each the given shape shortened to the maximum and then sheared by an offset within the widths, so it can be longer than the maximum; with widths inside the unit circle it always returns. Band psf fluxes are filled for every band when at least one is good, bad ones within 10% of the mean of the good ones; otherwise PSFFluxFailure.", "quantifier": "all random streams, priors, sizes, fluxes and band counts", "why_tests_cant": "All random streams.", "anchors": ["ngmix/guessers.py: get_shape_guess, _fix_guess, TPSFFluxGuesser._get_psf_fluxes"]}
{"id": "C63", "title": "Guesser flux cache", "statement": "In every history of requests to one guesser in which none fails, each gets fluxes computed for the observation passed, computed once for consecutive requests for the same observation. Whatever failed before, a request for another observation than the last is answered from that observation. After a failure for observation B that follows a success for A, asking again for B silently returns A's fluxes; without a success before, AttributeError.", "quantifier": "all histories of calls with arbitrary identities, including failing ones", "why_tests_cant": "Histories with crash points.", "anchors": ["ngmix/guessers.py: TPSFFluxGuesser._get_psf_fluxes, _id_last"]}
{"id": "C64", "title": "Aperture flux bookkeeping", "statement": "The gaussian aperture flux of a mixture is the sum over its gaussians of flux times sigma^2/sqrt(det(M+sigma^2)), M being the covariance: the integral of the density times exp(-r^2/(2 sigma^2)) with the weight centred on that gaussian, so the integral over the whole mixture when all gaussians have the aperture's centre. Positions are ignored; gaussians with determinant at most 1e-200 count in full. Each factor lies between 0 and 1. No width raises ValueError, zero width LinAlgError. In a catalog of models gauss, turb, exp or dev every object masked out is NO_ATTEMPT without flux in all bands; of the others those with shape outside the unit disk are GMIX_RANGE_ERROR without flux and all the rest have flags 0 and the aperture flux of the model with that shape, size clipped at 1e-4, and the flux of the band. For the models bdf and cm likewise, the flux being that of the disk through the aperture plus that of the bulge, with the fraction and ratio of sizes of the object, the size of the disk such that the composite has the clipped size; this holds for fractions in [0,1] and positive ratios, an object of model cm whose sizes cannot be normalised raises ZeroDivisionError. For every model the call returns exactly when no attempted entry raises, each entry depending on its object and band alone. Lengths that do not match raise AssertionError, an empty catalog IndexError, a table too narrow ValueError.", "quantifier": "all mixtures, widths, catalogs and masks", "why_tests_cant": "Unbounded tables.", "anchors": ["ngmix/gaussap.py"]}
{"id": "C65", "title": "Weighted moment sums", "statement": "get_weighted_sums adds to the record, over the pixels nearer than maxrad (default 100 sqrt(T/2)) to the first gaussian's centre, the weight, the weight times the pixel value times each of 6 (or 17) moments, and for each pair of moments the covariance of these sums for independent pixels of variance 1/ierr^2; a pixel of zero weight inside the radius raises ZeroDivisionError. The moments are position, the real and imaginary parts of z^2, |z|^2, 1, then z|z|^2, z^3, |z|^4, |z|^2 z^2, z^4, |z|^6 and |z|^8 for the complex offset z=u+iv. The sums are linear in the image, the covariance does not depend on the image and is symmetric and positive semidefinite, concatenating pixel lists adds the sums, and the first six moments are the same in both variants.", "quantifier": "all weights, pixel lists, radii, images", "why_tests_cant": "Unbounded lists.", "anchors": ["ngmix/gmix/gmix_nb.py: get_weighted_sums"]}
{"id": "C66", "title": "Noise simulation and MEDS reading structure", "statement": "get_noise_image has the weight map's shape and is the standard normal draw times factor/sqrt(weight) where the weight is positive; elsewhere the median deviation times the factor with add_all and zero without; with no positive weight 1e15 everywhere. simulate_obs gives an observation of the input's shape with the rendered mixture plus that noise, weights divided by the squared factor, so that the noise in a pixel of positive weight has exactly the variance stated by the new weight; jacobian and psf are kept, masks, noise, mixture and metadata are not. Lists keep nesting, length and order, band i using mixture i, with one random stream. It succeeds exactly when the mixture can be rendered, noise can be made when asked for, the factor is not zero and some weight is positive; wrong arguments raise as stated before any draw. MEDS readers keep cutout order, skip exactly the cutouts refused with GMixFatalError, give one ObsList per file and one entry per requested object; without indices, one per object of the first file.", "quantifier": "all observations, mixtures, factors, random streams, MEDS contents", "why_tests_cant": "Unbounded.", "anchors": ["ngmix/simobs.py: get_noise_image, simulate_obs", "ngmix/medsreaders.py: get_obslist, get_mbobs"]}
{"id": "C67", "title": "Evaluations of a fit do not depend on history", "statement": "calc_fdiff(pars) and calc_lnprob(pars) on a fit model return the same result (value or exception) whatever evaluations were made before on the object, including ones that raised or were out of range, and whatever valid guess the object was constructed with.", "quantifier": "all models, observations, priors, guesses, parameters and histories of evaluations", "why_tests_cant": "The mixtures are filled in place and keep a norm-set flag; histories are unbounded.", "anchors": ["ngmix/fitting/results.py: FitModel.calc_fdiff, calc_lnprob, _fill_gmix_all"]}
{"id": "C68", "title": "The minimised sum of squares is the reported log probability", "statement": "Wherever the log probability is finite, calc_lnprob(pars) equals minus half the sum of squares of calc_fdiff(pars), priors included.", "quantifier": "all models, observations, joint priors made for the model, parameters", "why_tests_cant": "Continuum of parameters, unbounded data.", "anchors": ["ngmix/fitting/results.py: FitModel.calc_fdiff, calc_lnprob", "ngmix/joint_prior.py"]}
{"id": "C69", "title": "Adaptive moments result dictionary", "statement": "flux_flags, T_flags and rho4_flags always agree; when nonzero every measured value is NaN. A converged result reports T, e1, e2 of the final weight, the flux sum(w*im)/(area*norm*sum(w)) and rho4 = sum(w*im*chi^4)/sum(w*im), with errors by linear propagation of the pixel noise; s2n is flux/flux_err. flags is zero exactly when both shape variances are positive and neither measured shape sum is exactly zero: an exactly round converged object is flagged NONPOS_SHAPE_VAR.", "quantifier": "all images, guesses, configurations", "why_tests_cant": "Continuum of images.", "anchors": ["ngmix/admom/admom.py: get_result"]}
{"id": "C70", "title": "The psf fit of metacal's fitted target falls back in order", "statement": "The construction of the fitted round target uses, in this order, adaptive moments, a maximum likelihood gaussian, a single-gaussian mixture the psf already had; each is used exactly when all before it failed, and BootPSFFailure is raised exactly when none is usable or the size of the mixture used is out of range; errors of the fitters propagate. The caller's psf observation is changed: it keeps the adaptive moments result, also a failed one, and on success the adaptive moments mixture replaces its own.", "quantifier": "all fitters and guessers with any outcomes, all psf observations", "why_tests_cant": "Adversarial outcomes of two fitters and effects on the caller's object.", "anchors": ["ngmix/metacal/metacal.py: MetacalFitGaussPSF._do_psf_fit"]}
{"id": "C71", "title": "Pre-psf moments are moments of the object before the psf", "statement": "If the padded image is the object convolved (circularly) with the padded psf and no mode of the kernel is truncated, the raw moments (flux, radius, plus, cross) are sums over the object's pixels of real, even weight functions about the object's position, and these weights do not depend on the psf: two images of one object through two psfs give the same moments. With no_psf=True a psf that is present is ignored and a single pixel is deconvolved.", "quantifier": "all objects, psfs, sizes, kernels and positions", "why_tests_cant": "All images of all sizes; tests check a few galaxies to tolerance.", "anchors": ["ngmix/prepsfmom.py: PrePSFMom._meas, _measure_moments_fft, _deconvolve_im_psf_inplace, _check_obs_and_get_psf_obs"]}
{"id": "C72", "title": "Pre-psf kernels are the moments of their weight function", "statement": "The kernels of a mode are a function W(u,v) of its frequency, where (u,v) are the frequencies conjugate to the sky coordinates of the jacobian, and minus its second derivatives in the combinations uu+vv, uu-vv and 2uv. For ksigma W = a(1-k^2/kmax^2)^4 inside kmax and nothing outside; for pgauss W is a gaussian within 4e-5. The weight function in real space has its maximum at the object's position; without smoothing it is 1 there within 1e-5, or FFTRangeError is raised. A smoothing scale above zero multiplies all four kernels of each mode by the Fourier transform of a gaussian of that full width at half maximum (within 4e-5, and zero from five sigma on) and changes nothing else; a scale of zero or less does nothing. A singular jacobian raises LinAlgError, zero size ZeroDivisionError for ksigma and FFTRangeError for pgauss.", "quantifier": "all jacobians, array sizes, kernel sizes and smoothing scales", "why_tests_cant": "A derivative identity over a continuum of settings.", "anchors": ["ngmix/prepsfmom.py: _ksigma_kernels, _gauss_kernels"]}
{"id": "C73", "title": "Pre-psf measurements: which inputs are accepted, and caching", "statement": "The kernel names ksigma, gauss and pgauss are accepted on construction and any other raises ValueError; KSigmaMom and PGaussMom are PrePSFMom with ksigma and pgauss and never raise. The two forms of the phase that recentres a transform agree, masked or not. go raises ValueError for arguments that are not observations and for images that are not square, and RuntimeError for an observation without psf (unless no_psf is set) or with a psf whose jacobian differs; ValueError if the padded size is smaller than the image. With a padding factor of at least one both images fit. For every history of calls and switches the caches return the value that would be computed without them, and errors are not cached.", "quantifier": "all settings, all observations, all histories of calls", "why_tests_cant": "Histories and error branches.", "anchors": ["ngmix/prepsfmom.py: PrePSFMom.__init__, go, _meas, _check_obs_and_get_psf_obs, _compute_cen_phase_shift"]}
{"id": "C74", "title": "The covariance of pre-psf moments is that of uniform white noise", "statement": "The moments are sums over pixels of real weight functions G_i times the image and their covariance is (total variance/number of rows squared) times the sum over pixels of G_i G_j, i.e. exactly the covariance for independent noise of one variance in all pixels of the padded image, whenever no mode used lies at the Nyquist frequency of an even array.", "quantifier": "all images, psfs, weights, kernels", "why_tests_cant": "A Parseval identity over arrays of every size.", "anchors": ["ngmix/prepsfmom.py: PrePSFMom._meas, _measure_moments_fft_numba"]}
{"id": "C75", "title": "Gaussian weighted moments are in flux units and independent of the pixel area", "statement": "GaussMom raises GMixRangeError only for a width so small that the weight's determinant falls below 1e-200. Otherwise a run on an observation gives flags 0 exactly when all moment variances, the flux and the size are positive and neither shape moment is exactly zero. Then flux, size, shape, sums, covariances and errors are those of the moments about the origin with weight exp(-r^2/(2 sigma^2)) of peak one within 100 sigma, whatever the pixel area. (Violations: pars[0:2] and the entries MF and M00 keep a factor of the pixel area, as does everything when flags are not 0; a pixel of zero weight within 100 sigma raises ZeroDivisionError; lists of observations raise AttributeError although documented.) Runs do not influence later runs.", "quantifier": "all widths, images, weights, pixel areas, six or seventeen moments", "why_tests_cant": "A continuum of widths and all images.", "anchors": ["ngmix/gaussmom.py: GaussMom", "ngmix/gmix/gmix.py: GMix.get_weighted_moments"]}
{"id": "C76", "title": "Guesses for psf fits", "statement": "GMixPSFGuesser refuses numbers of gaussians other than 1 to 5 with ValueError; otherwise it returns a mixture of that many gaussians within 0.1 of the origin, each covariance entry within 10% of a fixed fraction of the size, the total flux within 17% of the flux found (within 2e-7 for two gaussians). For positive sizes the covariances are positive definite with one or two gaussians, and with three to five if the size is at least 0.045. (Violation: below that they can fail to be, e.g. with pixels of 0.05, because the cross term is drawn from a fixed range.) Without moments size and flux are those of a fwhm of 3.5 pixels and the sum of the image; with moments, the size and flux of the gaussian that gives the measured ones under the weight, or the raw ones when the measured size exceeds the weight's, not finite when equal, and the default when the measurement is flagged or below one pixel. SimplePSFGuesser and CoellipPSFGuesser return arrays with centre within 0.01, shape within 0.05 and sizes and fluxes within 10% (1% for several gaussians) of fixed fractions.", "quantifier": "all random streams, observations and numbers of gaussians", "why_tests_cant": "All random streams and a continuum of images.", "anchors": ["ngmix/guessers.py: GMixPSFGuesser, SimplePSFGuesser, CoellipPSFGuesser"]}
{"id": "C77", "title": "The result of a fit describes the parameters it returns", "statement": "For every minimiser, whatever points it tries in whatever order, Fitter.go and CoellipFitter.go give the outcome of minimising a function of the parameters alone: the state kept in the object between evaluations never shows, and the returned object evaluates like a new one. The statistics (lnprob, dof, chi2per, s2n, g, T, flux and errors) are in the result exactly when flags is 0. They are those of the data and the model at the returned parameters: lnprob is minus half the sum of squared residuals plus that of the prior, dof is the number of pixels less the number of parameters and never 0, chi2per is -2 lnprob/dof, s2n is the sum of data times model over the root of the sum of model squared with the inverse variance weights (0 if there is no model), and g, T and flux and their errors and covariances are the entries of the parameters and of their covariance matrix. Without a prior the covariance is the one of the minimiser times chi2per. (With a prior chi2per counts the prior's terms and the scaling of the covariance does not; for the simple models see C41.) When the minimiser raises, stops without converging or gives no covariance, nothing more is evaluated after it; otherwise the function is evaluated once more at the solution, and with flags 0 the log probability at the returned parameters is the last evaluation. A fit with flags 0 does not end at parameters out of range, and with bounds every bounded parameter ends strictly inside them.", "quantifier": "all models, priors, observations, guesses and minimisers (any adaptive procedure)", "why_tests_cant": "All minimiser behaviours, including ones no test data would provoke.", "anchors": ["ngmix/fitting/fitters.py: Fitter.go, CoellipFitter", "ngmix/fitting/results.py: FitModel.set_fit_result, _set_g, _set_T, _set_flux", "ngmix/fitting/leastsqbound.py: run_leastsq"]}
{"id": "C78", "title": "Mixtures and images of a fit are those that were fitted", "statement": "At parameters in range get_gmix(band) is the mixture of that band before the psf, get_convolved_gmix(band, obsnum) the mixture that image was compared with in the fit, and make_image(band, obsnum) its values at all the pixels of the image, with the exact exponential in place of the fast one; a band or observation that does not exist raises IndexError. This holds for every image when the first image of the fit has a psf mixture, or when none has. (Violation: when the first image has none but a later one has, the fit compares that image with the mixture before the psf while get_convolved_gmix and make_image return it convolved.)", "quantifier": "all models, observations, parameters in range, bands and observations", "why_tests_cant": "All combinations of images with and without psf.", "anchors": ["ngmix/fitting/results.py: FitModel.get_gmix, get_convolved_gmix, make_image, _init_gmix_all"]}
{"id": "C79", "title": "K-space observations are consistent, on common pixels, and share metadata", "statement": "A KObservation can be made exactly of a complex image, a weight image of the same shape (or none), a psf with the same shape and, within allclose, the same scale (or none) and a dictionary (or none); the exceptions are ValueError, AssertionError and TypeError for the first thing found wrong. It holds what it was given, ones for a missing weight, and a jacobian with wave number zero at the centre of the image. After any calls of set_psf of which the last was accepted it is consistent. (Violation: set_psf stores a psf before checking it, so an object that refused a psf holds it.) make_kobs makes one k-space observation per observation in the same bands and order, all on the pixels wanted by the first of the observations that wants the largest size, each consistent, image and psf (normalised to unit flux) drawn on those pixels and a constant weight summing to half the largest weight of the observation; it fails only if galsim raises, a weight map is empty, or there are no observations (ValueError). It works on the metadata dictionaries of the observations themselves, changing only the keys scale and realspace_gsimage, and copies those of psfs.", "quantifier": "all arguments, all histories of set_psf, all lists of observations and any behaviour of galsim", "why_tests_cant": "Error branches and histories, and sharing between objects.", "anchors": ["ngmix/observation.py: KObservation, make_iilist, make_kobs"]}
{"id": "C80", "title": "Residuals of galsim fits are those of the model images", "statement": "A galsim fit is set up exactly for the models exp, dev, gauss, spergel and moffat and guesses with one value for each parameter of the model that stand for a galaxy in every band. If no two observations share a metadata dictionary, the residuals are a function of the parameters, whatever was evaluated before and whether it failed: for each band and observation in order, the real and then the imaginary parts of (galaxy times psf minus data) times the root of the weight, preceded by those of the prior (minus half their sum of squares is the log of the prior). Parameters for which galsim cannot make an image give minus infinity for every residual and no exception, as long as galsim raises only its own exceptions. (Violation: the model image is kept in the metadata of the observation; of two observations that hold the same dictionary the first is compared with the model image and errors of the second.)", "quantifier": "all models, priors, k-space observations, histories of evaluations, and any behaviour of galsim", "why_tests_cant": "Histories and sharing of objects between observations.", "anchors": ["ngmix/fitting/galsim_results.py: GalsimFitModel.__init__, calc_fdiff, _fill_models, make_model, _init_model_images, get_band_pars"]}
{"id": "C81", "title": "The result of a galsim fit describes the parameters it returns", "statement": "For every minimiser, whatever points it tries in whatever order, the outcome of a galsim fit is that of minimising a function of the parameters alone, and a refused guess or model raises before. If no two observations share metadata: the statistics are in the result exactly when flags is 0. Then s2n_r is the root of the weighted power of the images of the galaxy with the returned parameters but no ellipticity (0 if not positive), g and its covariance and errors are entries of the parameters and their covariance matrix, and flux and its error or covariance are those of the fluxes for exp, dev and gauss. (Violation: for spergel and moffat the entry flux of a one band fit is nu or beta with its error, and with several bands nu or beta comes before the fluxes.) The covariance is that of the minimiser times the sum of squared residuals of the images, real and imaginary parts, over the number of pixels less that of the parameters, which is not 0, with or without prior; the errors are the roots of its diagonal. A fit with flags 0 does not end at parameters for which an image cannot be made and, with bounds, every bounded parameter ends strictly inside them.", "quantifier": "all models, priors, k-space observations, guesses, minimisers (any adaptive procedure) and any behaviour of galsim", "why_tests_cant": "All minimiser behaviours, including ones no test data would provoke.", "anchors": ["ngmix/fitting/galsim_fitters.py: GalsimFitter.go", "ngmix/fitting/galsim_results.py: GalsimFitModel.set_fit_result, calc_s2n_r, make_round_model, _set_flux", "ngmix/fitting/leastsqbound.py: run_leastsq"]}
{"id": "C82", "title": "Template fluxes with galsim", "statement": "GalsimPSFFluxFitter fits exactly one template per observation: the psf image at unit flux placed where the psf jacobian says (convolved with the model at unit flux if one is given), drawn on the pixels of the image with the wcs and at the centre of its jacobian. With templates of nonzero sum the fit succeeds; the flux solves the normal equation of the templates and the data, and is PDEF with DIV_ZERO when they have no power (as for an empty list). If the templates have unit sum, chi2per and the flux error are those of this best fit, as for PSFFluxFitter. (Violation: otherwise, e.g. when part of the object falls outside the image, they are those of the templates rescaled to unit sum at the same flux, although the flux is right: noiseless data give chi2per far from zero.) Arguments other than an Observation or ObsList raise ValueError, a missing psf AttributeError, and a RuntimeError while drawing becomes GMixRangeError.", "quantifier": "all observations, models and any behaviour of galsim", "why_tests_cant": "All images and positions, including objects at the edge.", "anchors": ["ngmix/fitting/galsim_fitters.py: GalsimPSFFluxFitter", "ngmix/fitting/galsim_results.py: GalsimPSFFitModel"]}
{"id": "C83", "title": "Probabilities of the one dimensional priors, and their array methods", "statement": "get_prob is the exponential of get_lnprob with the same errors, and never above one, for the flat, normal and log normal priors and for TwoSidedErf wherever its value is not negative. The array methods of probability and log probability (and the residuals of the classes that take arrays) hold the scalar value at every element in order, and raise exactly when some element does. (Violations: FlatPrior.get_lnprob_array returns the single number 0.0 for any number of values; TruncatedGaussian's array method never raises and gives minus infinity at its two limits, where the scalar method gives a number, and beyond them, where it raises GMixRangeError; strictly inside it gives the scalar value; TwoSidedErf with two different positive widths has negative values beyond a point on the side of the smaller width, where the log probability is minus infinity; at the edge of a zero width the scalar gives NaN and the array minus infinity. With equal positive widths and ordered limits the value is strictly between 0 and 1.)", "quantifier": "all parameters of the priors and all arrays of any length", "why_tests_cant": "A continuum of parameters and all arrays.", "anchors": ["ngmix/priors/priors.py: FlatPrior, TwoSidedErf, Normal, LogNormal, TruncatedGaussian: get_prob_scalar, get_prob_array, get_lnprob_array, get_fdiff"]}
{"id": "C84", "title": "Array methods of the shape, centre and joint priors", "statement": "Arrays of shape probabilities, log probabilities and residuals hold the values of the single shapes; outside the unit disk, where a single shape raises, the log probability is minus infinity, the residual infinity and the probability zero. GPriorGauss can only be sampled: its probabilities raise RuntimeError, also those of a joint prior with it. ZDisk2D's methods of the radius agree with those of the position. For joint priors (simple, bulge+disk, bulge+disk with fixed ratio, spergel) with a GPriorBA shape prior the array of log probabilities raises exactly when a parameter after the shape is out of the range of its own prior in some row; otherwise each entry is the log probability of its row, minus infinity where the shape is outside the unit disk; the array of probabilities is their exponential. get_widths returns the estimates of its first call ever after, 2 for the two shapes. (Violations: CenPrior.get_prob_array raises TypeError for other than one position; with ZDisk2D for the shape the joint array method always raises AttributeError; PriorCoellipSame takes the second size for the flux and ignores the other parameters; the array returned by get_widths is the stored one.)", "quantifier": "all priors, all arrays of parameter vectors, all histories of get_widths", "why_tests_cant": "All numbers of rows, bands and combinations of priors.", "anchors": ["ngmix/joint_prior.py: get_prob_scalar, get_prob_array, get_lnprob_array, get_widths", "ngmix/priors/shape.py: GPriorBA, ZDisk2D", "ngmix/priors/multivariate.py: CenPrior"]}
{"id": "C85", "title": "Sizes of samples, brute force sampling and fitting of the log normal", "statement": "sample() gives a number and sample(n) an array of n numbers, the i-th made from the i-th deviate, for the flat, LMBounds, Sinh, Normal and LogNormal priors; for Normal size wins over nrand. Samples of LMBounds are in its bounds and the residual of a sample of Sinh is at most sinh 1. LogNormal.sample_brute, if no trial is at or below the shift and it ends, gives the number of values asked for, all kept by comparison with the probability and strictly between the shift and the shift plus maxval. LogNormal.fit minimises amplitude times the peak normalised log normal minus the data (minus infinity everywhere for a mean or a point that is not positive), stops at the first try without flags and makes at most four. (Violations: a Normal of negative width is accepted but cannot be sampled; a uniform deviate of exactly 0 makes sample_brute raise GMixRangeError; all four tries of fit start at exactly 1.1 times the moments of the data, so that with a deterministic minimiser retrying changes nothing; fit ignores the shift.)", "quantifier": "all parameters, all random streams, all data and minimisers", "why_tests_cant": "All random streams and minimiser behaviours.", "anchors": ["ngmix/priors/priors.py: FlatPrior.sample, Normal.sample, LMBounds.sample, Sinh.sample, LogNormal.sample, LogNormal.sample_brute, LogNormal.fit"]}
{"id": "C86", "title": "The galsim object of a mixture has the brightness of the mixture", "statement": "make_galsim_object of a mixture whose components are positive definite with 2 sqrt(det) at least Tmin is the sum of one galsim object per component, all with the gsparams given, and its surface brightness at every position (x is the column, y the row direction) is that of the mixture. A component below the floor has its covariance scaled up so that 2 sqrt(det) is Tmin, keeping flux, centre and shape; a component with zero covariance becomes a round gaussian of T equal to Tmin. GMixRangeError is raised exactly when some component has a determinant that is not positive (for a zero trace, when its moments exceed Tmin); gsparams that are neither None, a dict nor a GSParams raise TypeError before anything else, and so does a mixture without components. (Violation: a component with negative definite covariance is accepted silently and becomes a gaussian with the negated covariance scaled to the floor.)", "quantifier": "all mixtures, floors, gsparams and positions", "why_tests_cant": "A continuum of mixtures and positions.", "anchors": ["ngmix/gmix/gmix.py: GMix.make_galsim_object"]}
{"id": "C87", "title": "Cutouts of a MEDS file become observations", "statement": "get_obs gives exactly the image, the weight map of the type asked for, the jacobian of the cutout (centred at its row0, col0 with its four derivatives), the metadata of the file and, if the file has psfs, the psf observation. The optional planes (bmask, ormask, noise, mfrac) are there exactly when reading them raises nothing; any exception drops the plane silently. The psf observation has the psf image, the derivatives of the cutout at the centre of the psf, and the constant weight 1/(peak/1000)^2. (Violation: a psf image with peak zero gets infinite weights.) The exceptions are, in this order, those of reading the image, ValueError for a weight type other than the five names, those of reading the weight, of the jacobian and of the psf.", "quantifier": "all files, objects, cutouts and weight types, and any failure of the reading functions", "why_tests_cant": "Any combination of failures of the file layer.", "anchors": ["ngmix/medsreaders.py: NGMixMEDS.get_obs, get_psf_obs, get_ngmix_jacobian"]}
{"id": "C88", "title": "Images and summary statistics made from mixtures and fit results", "statement": "GMix.make_image(dims, jacobian) holds at every pixel the surface brightness of the mixture at the centre of the pixel times the pixel area; without a jacobian the pixels have unit scale about the centre of the image. ValueError is raised for dims that are not two nonnegative numbers and GMixRangeError exactly when some component is unusable. With fast_exp and no negative flux each pixel differs by at most 4e-5 of the value plus exp(-12.5) of the sum of the peaks. EMResult.make_image gives the returned mixture convolved with the psf at unit flux, without sky, and never fails when there is a mixture (RuntimeError otherwise). AdmomResult.make_image raises RuntimeError for a flagged result and otherwise gives the final gaussian with the sum of all image pixels as its flux. get_sigma and its companions are sqrt(T/2), NaN for negative T; get_model_s2n and get_loglike(more=True) give the sums of C27/C28 with their names; get_coellip_ngauss undoes get_coellip_npars, and the other way round for even sizes; run_em uses the fixed center fitter if asked to, otherwise the fixed covariance, otherwise the flux only fitter, otherwise the free one, with at least 40 updates (20 for fluxes only), at most 500, tolerance 1e-5 and fixed sky unless told otherwise. (Violations: documentation says the EM tolerance is 0.001, it is 1e-5; that of AdmomResult.make_image says the psf is included, none is applied, and zero-weight pixels count for the flux.)", "quantifier": "all mixtures, jacobians, image sizes and results", "why_tests_cant": "A continuum of mixtures and all image sizes.", "anchors": ["ngmix/gmix/gmix.py: GMix.make_image, get_sigma, get_e1e2sigma, get_g1g2sigma, get_model_s2n, get_loglike, get_coellip_npars, get_coellip_ngauss", "ngmix/admom/admom.py: AdmomResult.make_image", "ngmix/em/em.py: EMResult.make_image, run_em"]}
{"id": "C89", "title": "Caching of galsim objects changes no result", "statement": "For every history of metacal calls and of turn_on_galsim_caching / turn_off_galsim_caching, a call for the galsim objects of an image gives the outcome (objects or exception) of making them anew, and the objects keep these contents whatever is called later, provided the representation of the wcs evaluates to an equivalent wcs and nobody writes into the objects. At most 128 entries are kept, none while caching is off; with caching off every call gives objects of its own; with caching on a repeated call gives the very same objects, except for images with NaN, which are always made anew. (Violations without the provisos: a caller that changes the image of one metacal object changes what later metacal objects of the same image get; a wcs whose representation cannot be evaluated is refused only with caching on.)", "quantifier": "all histories of calls and switches, all images and any behaviour of galsim", "why_tests_cant": "All histories; cache hits depend on what was called before.", "anchors": ["ngmix/metacal/metacal.py: turn_on_galsim_caching, turn_off_galsim_caching, _galsim_stuff, _cached_galsim_stuff"]}
{"id": "C90", "title": "An n-dimensional mixture over its history: set, fit, save, load, sample", "statement": "After any history of set_mixture, load_mixture, save_mixture, fit and sample, the probabilities of a GMixND are those of the mixture sent last if its covariances can be inverted (AttributeError if none was sent). What load_mixture reads is what was last saved to the file, whatever happened in between that did not write it; saving without a mixture raises AttributeError and loses the file. sample() gives one draw and sample(n) the draws for n, numbers exactly in one dimension. The constructor takes a file before arrays, all arrays or none; otherwise RuntimeError. converged is what the last fit said, AttributeError without a fit. (Violations: samples come from the mixture of the last fit or, without a fit, of the first sample: set_mixture and load_mixture do not change the mixture that is sampled although the probabilities follow them; a mixture with a singular covariance raises LinAlgError but its means stay, combined with the former weights and covariances.)", "quantifier": "all histories of operations, all mixtures, dimensions and any behaviour of sklearn and of other programs writing the files", "why_tests_cant": "Wrong only for particular orders of operations.", "anchors": ["ngmix/gmix_ndim/gmix_ndim.py: GMixND.__init__, set_mixture, converged, fit, save_mixture, load_mixture, sample, _set_gmm"]}
{"id": "C91", "title": "Generators of priors, uniform deviates and samples of a KDE", "statement": "make_rng and every prior given a generator use that very object; without one make_rng makes a new one seeded by a single draw from numpy's own generator, leaving all others untouched, and a prior raises AssertionError. Whatever is made and drawn by whomever, each generator gives the deviates of the stream of its seed in order. srandu is in [-1, 1), and srandu(n) are n numbers from the next n deviates in order. KDE.sample() is the first point drawn and sample(n) all points drawn for n, numbers exactly if the data had one dimension. (Violation: the documentation says the points of several dimensions are columns, they are rows.)", "quantifier": "all histories of making and drawing, all generators", "why_tests_cant": "All interleavings of draws.", "anchors": ["ngmix/priors/random.py: make_rng, srandu", "ngmix/priors/priors.py: PriorBase.__init__", "ngmix/priors/kde.py: KDE"]}
{"id": "C92", "title": "Which fits can be set up, and which parameters are in range", "statement": "For every model that can be fitted (gauss, turb, exp, dev, bd, bdf, coelliptical gaussians), any prior, and observations of any number of bands: the guess must have the length of the model, else AssertionError; a first band without images raises IndexError; coelliptical gaussians take one band only. A guess whose shape is outside the unit disk, or whose bulge plus disk size cannot be normalised, raises GMixRangeError (never ZeroDivisionError). Otherwise the first image decides whether psfs are used: if it has no psf mixture the fit is set up whatever psfs the others have; if it has, the fit is set up exactly if every image has a psf mixture of nonzero flux, and the first image that has not decides the exception. For a fit set up, parameters in range always have a shape inside the disk and a normalisable size; conversely, if the psfs are positive definite, every such galaxy without negative sizes is in range on every image, whatever its centre and (possibly negative) fluxes.", "quantifier": "all models, guesses, priors, bands, images and psf mixtures", "why_tests_cant": "All guesses and psfs: the boundary between accepted and refused is a surface in parameter space.", "anchors": ["ngmix/fitting/results.py: FitModel.__init__, _set_obs, _setup_fit, _init_gmix_all, CoellipFitModel", "ngmix/gmix/gmix.py: GMix.convolve, GMixModel, GMixCM, GMixCoellip"]}
{"id": "C93", "title": "Images, likelihoods and fits do not depend on the coordinates of the sky", "statement": "When a Jacobian and a mixture are both expressed in other sky coordinates (any invertible affine change; fluxes kept, centres moved, covariances M C M^T), the pixels are the same pixels moved, and make_image (exact or fast), get_loglike, get_model_s2n and the residuals are exactly the same; convolution commutes with the change, and the psf may have an origin of its own. For turned, reflected and rescaled axes the parameters of every model (gauss, turb, exp, dev, bd, bdf, coelliptical, and composite models with fixed bulge fraction) transform as: centre moved, shape turned as Shape.get_rotated does (second component negated for a reflection), sizes times the square of the scale, everything else kept; parameters are refused in both coordinates or in neither. So two fits of the same images in two coordinate systems give the same residual vector and log likelihood at corresponding parameters that are in range for both, whatever was evaluated before. get_sheared moves the covariances as the shear of the sky does but keeps the centres: (violation) for mixtures of gaussians with different centres the result is not the sheared object.", "quantifier": "all affine changes of coordinates, Jacobians, images, psfs, mixtures and models; all bands and histories of calls", "why_tests_cant": "A continuum of coordinate systems and parameters.", "anchors": ["ngmix/gmix/gmix_nb.py: gmix_eval_pixel_fast, gmix_convolve_fill, gmix_fill_simple, gmix_fill_coellip, gmix_fill_cm, gmix_fill_bd, gmix_fill_bdf", "ngmix/pixels/pixels.py: make_pixels, make_coords", "ngmix/gmix/gmix.py: GMix.make_image, get_loglike, get_sheared", "ngmix/fitting/results.py: FitModel.calc_fdiff, calc_lnprob", "ngmix/shape.py: Shape.get_rotated"]}
{"id": "C94", "title": "The life of a GPriorBA: parameters, remembered maximum, samples and fits", "statement": "A GPriorBA can be made with any width but zero. Setting the parameters sets both (too few: IndexError with the amplitude already changed; a Python zero width: ZeroDivisionError with amplitude and width changed but the old width still used by the densities). The first sample1d searches the maximum of the present density; a failed search raises RuntimeError, changes nothing and is repeated by the next sample; a successful one is remembered through every later sample, parameter change and fit. In a trial at g the measure of the uniforms with which it is kept is p(g)/(1.1 m), at most one, with p the present density and m the remembered maximum: exact sampling as long as p never exceeds 1.1 m. A sampler that ends gives the number of values asked for: the ellipticities 0.9999 u of the trials kept, in order. (Violation: after a sample, an amplitude larger by more than 1.1 makes two ellipticities of different density be kept always, as the maximum is stale.) sample2d_brute keeps nothing: with positive amplitude trials are kept in proportion to the density and all samples are inside the unit disk; with a negative amplitude it keeps trials outside. fit drops points without positive ordinate, its residuals are (p - y)/sqrt(y) and do not depend on the state; a solution with a covariance becomes the parameters of the prior and fit_pars; otherwise the prior stays at the last point tried while fit_pars is the solution or -9.999e9 (violation: the prior is not at fit_pars), and KeyError is raised when values were not finite; without a guess fewer than two points raise IndexError.", "quantifier": "all histories of set_pars, set_sigma, set_maxval1d, sample1d and fit; all random streams, data and behaviours of the minimisers", "why_tests_cant": "Wrong only after particular histories, and only in distribution.", "anchors": ["ngmix/priors/shape.py: GPriorBase.sample1d, sample2d_brute, set_maxval1d, fit, _calc_fdiff, GPriorBA.set_pars, set_sigma, get_prob_scalar1d, get_prob_array1d, _get_guess"]}
{"id": "C95", "title": "Moments do not depend on the unit of brightness", "statement": "Measuring an observation with pixel values multiplied by s>0 and weights divided by s^2 (psf unchanged) with GaussMom, KSigmaMom or PGaussMom gives the same flags, signal to noise, size, shape, their errors and normalised moments, and flux, flux error and flux sum multiplied by s; the same exceptions are raised. make_mom_result has this property for all sums and covariances, also those that are not finite.", "quantifier": "all factors s>0, observations, weights, kernels and settings, sums and covariances of any kind", "why_tests_cant": "All images and all positive factors.", "anchors": ["ngmix/moments.py: make_mom_result, _add_moments_by_name", "ngmix/gaussmom.py: GaussMom.go", "ngmix/prepsfmom.py: PrePSFMom.go"]}
{"id": "C96", "title": "EM fits do not depend on the sky axes or the unit of brightness", "statement": "An EM fit with the pixels, the psf, the guess and the starting sky given in other sky axes (another origin, exchanged or reversed axes) raises the same exception, or returns the same flags, number of iterations, relative change and sky, and the same mixtures in the other axes. The axes may be turned by any angle if the fit does not change covariances (fixed covariance, fluxes only), or if there is no psf and no negative pixel, sky or flux. Fits of fluxes only give the same also in another unit of brightness, with fluxes and sky in that unit; for the other kinds two fits in different units that return mixtures after the same number of iterations return the same mixtures. The sky guessed when none is given, and the pixels then used, follow the axes and the unit. (Violations: with a psf the fits that change covariances depend on the angle of the axes, because a covariance smaller than that of the psf is repaired by looking at its two diagonal elements: turning the axes by 53 degrees changes T from 2e-4 to 7/9 in an example with one pixel. The relative change of the expected log likelihood, and with it the number of iterations, depends on the unit of brightness: a gaussian of flux 1 at the centre of a pixel without sky is flagged EM_RANGE_ERROR, and with any other positive flux it is fitted.)", "quantifier": "all observations, guesses, psfs, kinds of fit, settings and numbers of iterations, all isometries of the sky and all positive factors", "why_tests_cant": "A continuum of inputs and unbounded numbers of iterations.", "anchors": ["ngmix/em/em.py: EMFitter.go, prep_obs, prep_image", "ngmix/em/em_nb.py: em_run and its variants, do_scratch_sums, gmix_set_from_sums"]}
{"id": "C97", "title": "Adaptive moments do not depend on the unit of brightness or on the names, directions and origin of the sky axes", "statement": "With the sky axes exchanged, reversed or shifted, image values multiplied by k>0 and inverse errors divided by k, AdmomFitter on the moved pixels, from the moved weight, raises the same exception, or gives the same flags (of all quantities), number of iterations and pixels, weight sum, size, signal to noise, fourth moment, and errors of size, shape and fourth moment; flux, mean flux and flux error are multiplied by k; e1 changes sign if rows and columns are exchanged, e2 if one direction is reversed and the other is not; the sums, their covariance and pars follow. The weight left in the guess is the moved one. (Violation: the axes cannot be turned by any angle: the shift of the centre is compared with shiftmax along each axis, so the same pixel and the same round weight are flagged CEN_SHIFT in one orientation and not in axes turned by 53 degrees.)", "quantifier": "all pixels, weights, settings and numbers of iterations, all exchanges, reversals and shifts of the axes and all k>0", "why_tests_cant": "A continuum of inputs and unbounded numbers of iterations.", "anchors": ["ngmix/admom/admom.py: AdmomFitter.go, get_result", "ngmix/admom/admom_nb.py: admom, admom_censums, admom_momsums, deweight_moments"]}
{"id": "C98", "title": "Model fits do not depend on the units of brightness", "statement": "Let every band have its own unit of brightness: pixel values of band b are multiplied by k_b>0 and their inverse errors divided by it, and the psf mixtures multiplied by any nonzero number. For every model that can be fitted, the fit with the fluxes of the guess in the new units raises the same exception or is set up like the old one. At parameters with the fluxes in the new units, calc_fdiff gives the same residuals and calc_lnprob the same log probability, signal to noise terms and number of pixels, or both raise the same exception, whatever the guesses and whatever was evaluated before. This includes fits with a joint prior written for the model whose flux priors are given in the new units: flat, two sided erf, gaussian, truncated gaussian, log normal (also shifted), sinh and bounded priors have the same log probability and residual at the same flux in any unit.", "quantifier": "all models, bands, images, psfs, priors, guesses, parameters and histories of calls, all positive factors", "why_tests_cant": "A continuum of inputs and factors.", "anchors": ["ngmix/fitting/results.py: FitModel.calc_fdiff, calc_lnprob, get_band_pars, CoellipFitModel", "ngmix/gmix/gmix_nb.py: gmix_convolve_fill, gmix_fill_simple, gmix_fill_coellip, gmix_fill_bd, gmix_fill_bdf", "ngmix/joint_prior.py: get_lnprob_scalar, fill_fdiff", "ngmix/priors/priors.py: get_lnprob_scalar, get_fdiff"]}
{"id": "C99", "title": "Gaussian weighted moments turn with the axes of the sky", "statement": "GaussMom on the same image with the sky axes turned by any angle about the origin, one of them reversed or not: both measurements return and use the same pixels. Of the 17 moments those without direction are the same, as are their variances and covariances, and the others turn with their spin (1 to 4) as complex numbers, conjugated if an axis is reversed. If both measurements are unflagged, flux, size, their errors and the signal to noise ratio are the same and the shape turns by twice the angle. With axes exchanged or reversed (angles that are multiples of 90 degrees) one measurement is unflagged if and only if the other is, and the errors of the shape are the same too. (Violation: for other angles the flags can differ: an image of three equal pixels measured without a flag is flagged when the axes are turned so that one component of its shape is exactly zero.)", "quantifier": "all images, weights, widths of the weight function, angles and reflections, with and without higher moments", "why_tests_cant": "A continuum of images and angles.", "anchors": ["ngmix/gaussmom.py: GaussMom.go", "ngmix/gmix/gmix_nb.py: get_weighted_sums, get_higher_order_weighted_sums", "ngmix/moments.py: make_mom_result"]}
{"id": "C100", "title": "Samples have the distribution the prior states", "statement": "Given a generator of independent uniform and normal deviates, sample(n) of a prior ends with probability one and gives n independent values (one value, as a number, if n is not given), whose density is proportional to the exponential of the log probability of the prior. This holds for FlatPrior, Normal, LogNormal (also shifted), TruncatedGaussian, CenPrior, ZDisk2D.sample2d and GPriorBA.sample2d_brute; for Bounded1D with the density of the wrapped prior inside the limits and zero outside; for GPriorBA.sample1d and sample2d with the densities of size and shape below 0.9999 and zero above, if the present density of the size does not exceed 1.1 times the maximum found; for GPriorGauss.sample2d with a gaussian density of the two components below 0.9999. LogNormal.sample_brute has the density of the prior from the shift up to the largest value allowed above it, with generators that never give exactly zero (which has probability one). TwoSidedErf.sample has the density of the prior from five widths below to five widths above its limits (violation: nothing is drawn outside, where the prior is not zero). sample of a joint prior (any but PriorCoellipSame, any number of bands) gives rows whose joint density is proportional to the exponential of its log probability (zero outside the limits of its parts, where these have limits), if each part gives as many values as asked for with its density and the parts use independent deviates. ZDisk2D.sample1d has a density proportional to the distance from the centre (violation: its get_lnprob_scalar1d is constant).", "quantifier": "all parameters of the priors, numbers of samples, measurable sets of values, and random sequences", "why_tests_cant": "A property of distributions over an infinite sequence of random numbers, with loops that may take any number of passes.", "anchors": ["ngmix/priors/priors.py: FlatPrior.sample, TwoSidedErf.sample, Normal.sample, Bounded1D.sample, LogNormal.sample, LogNormal.sample_brute, TruncatedGaussian.sample", "ngmix/priors/shape.py: GPriorBase.sample1d, sample2d, sample2d_brute, GPriorGauss.sample2d, ZDisk2D.sample1d, sample2d", "ngmix/priors/multivariate.py: CenPrior.sample", "ngmix/joint_prior.py: PriorSimpleSep.sample, PriorBDSep.sample, PriorBDFSep.sample, PriorSpergelSep.sample"]}
{"id": "C101", "title": "Mixtures, Jacobians and callers' arrays do not share state", "statement": "In any program that makes, copies, fills, moves, rescales, shears, rounds, convolves, concatenates and evaluates mixtures and makes, copies and moves Jacobians, a call changes at most the object it is called on: fill (also when it is refused), set_cen, set_flux, the norms computed before an evaluation, and set_cen of a Jacobian. Every other object stays as it was, so a copy and its original, a mixture and its sheared, rounded or convolved versions, and an object and the parameter array it was filled from can be used independently for ever after. The array returned by get_data is the array of the mixture itself: writing to it changes that mixture and no other; the array returned by get_full_pars is the caller's own.", "quantifier": "all programs (finite sequences of calls with any outcomes) on any number of objects and arrays", "why_tests_cant": "Aliasing shows only in some interleavings of calls on several objects; a property of all histories.", "anchors": ["ngmix/gmix/gmix.py: GMix.__init__, copy, reset, get_data, get_full_pars, fill, _fill, set_cen, set_flux, get_sheared, convolve, make_round, GMixModel.copy, GMixModel.set_cen, GMixCM.copy, GMixCoellip.copy, gmix_concat", "ngmix/jacobian/jacobian.py: Jacobian.copy, set_cen"]}
{"id": "C102", "title": "Metacal shears the galaxy before the psf and replaces the psf", "statement": "Let the image of an observation show a galaxy through the psf its psf image shows, and let GalSim's operations act on Fourier transforms as documented. For each of the four Metacal classes and any history of requests, the image of get_obs_galshear shows that galaxy, sheared by the matrix with the reduced shear asked for and only then convolved with the reconvolution psf, whose image and profile the psf observation holds (for the classes with a round psf with the noise they drew, for MetacalDilatePSF without noise); the unsheared observation shows the galaxy as it is through the same psf, and get_obs_psfshear (MetacalDilatePSF only) the galaxy as it is through the sheared psf. get_all gives exactly these under its names, noshear through the psf of 1p. The reconvolution psf is, for MetacalDilatePSF, the psf without pixel, grown by 1+2|g|, with the pixel again, for the others the gaussian made from the psf, the fitted gaussian or the psf sent by the caller, grown by 1+2|g|. So without shear MetacalDilatePSF gives back image and psf, the images made with a psf sent by the caller do not depend on the psf of the observation, and the shear is the one of the models: a round gaussian galaxy becomes the gaussian with that shape and the size T(1+g^2)/(1-g^2). An observation without psf and MetacalFitGaussPSF without generator are a ValueError, a psf sent by the caller that is not a GalSim object an AssertionError. Modes at which the psf has no power are excepted. Violation: the Jacobian of the psf is used for its axes only, so with a psf that is d from the centre of its image the galaxy appears moved by -d with the round classes and by 2|g|d with MetacalDilatePSF, whose psf is moved to (1+2|g|)d while its Jacobian keeps d.", "quantifier": "all observations, classes, GalSim behaviours (results or exceptions) that respect Fourier transforms, shears, request histories and type lists", "why_tests_cant": "A test compares images for a few galaxies, psfs and shears to a tolerance; that no psf is left over and that the shear comes before the psf are statements about all of them.", "anchors": ["ngmix/metacal/metacal.py: MetacalDilatePSF.__init__, _set_pixel, _set_interp, _set_data, get_all, get_obs_galshear, get_obs_psfshear, get_target_psf, get_target_image, MetacalGaussPSF, MetacalFitGaussPSF, MetacalAnalyticPSF, _galsim_stuff, _do_dilate, _get_gauss_target_psf"]}
{"id": "C103", "title": "EM iterations and the likelihood", "statement": "Take the pixel values for counts, expected to be the sky plus what the convolved mixture predicts (with the fast exponential and its cutoff), and consider the Poisson log likelihood of the unmasked pixels, light outside of the image included. With nonnegative pixel values, fluxes, sky and psf: no iteration of a fit of the fluxes alone, with any psf, any number of components, a fixed or varying sky and masked pixels or not, lowers it, so the result is at least as likely as the guess; and if an iteration leaves fluxes and sky as they are, with all fluxes (and a fitted sky) positive, no other fluxes and sky with the same centres and covariances are more likely. In the other fits with no psf or a psf of one gaussian, an iteration lowers it by at most 1e-4 times the flux found (the error of the fast exponential), provided that no gaussian moves more than five sigma away from a pixel that it had light from and that no covariance had to be replaced. (Violation: without the first proviso it can fall by any amount: a gaussian between two pixels at four sigma, one brighter than the other, is moved towards the brighter one and then predicts nothing in the other.)", "quantifier": "all observations, masks, guesses, psfs, settings and numbers of iterations", "why_tests_cant": "A property of every iteration from every starting point; a test sees a few runs converge.", "anchors": ["ngmix/em/em.py: EMFitter.go, EMFitterFixCen, EMFitterFixCov, EMFitterFluxOnly", "ngmix/em/em_nb.py: em_run and its variants, do_scratch_sums, do_sums, gmix_set_from_sums, fill_zero_weight_pixels"]}
{"id": "C104", "title": "Values in masked pixels do not matter", "statement": "Let two observations differ only in image values where the weight is not positive. With ignore_zero_weight (the default) both offer the same list of pixels, without it lists that differ at most in the values of pixels of zero inverse error. Then everything computed from the pixels is the same: log likelihood, residuals and model signal to noise of a mixture, setting up a model fit, its residuals and log probability at any parameters after any history, a whole fit with any minimiser (same exception or same result), adaptive and gaussian weighted moments (with ignore_zero_weight), the signal to noise sums of the observation, and EM with a starting sky sent by the caller (where masked pixels are filled before they are used). Psf and template fluxes are the same if the values differ only where the weight is exactly zero. (Violations: a pixel of negative weight counts in a psf flux, with that sign, while everything else ignores it. EM without a starting sky takes the smallest and largest value of the whole image for its sky and uses every pixel with equal weight. Pre-psf moments are the same whatever the weights, so masked pixels count like any other. The flux guessed for a psf is the sum of the whole image.)", "quantifier": "all images, weights, masks, Jacobians, models, priors, guesses, minimisers, histories and settings", "why_tests_cant": "All values in all masked pixels; a test tries a few, and bad pixels in data hold anything.", "anchors": ["ngmix/pixels/pixels.py: make_pixels", "ngmix/pixels/pixels_nb.py: fill_pixels", "ngmix/gmix/gmix_nb.py: get_loglike, fill_fdiff, get_model_s2n_sum", "ngmix/fitting/results.py: FitModel.calc_fdiff, calc_lnprob, PSFFluxFitModel.go", "ngmix/fitting/fitters.py: Fitter.go", "ngmix/em/em.py: EMFitter.go, prep_obs, prep_image", "ngmix/em/em_nb.py: fill_zero_weight_pixels", "ngmix/observation.py: Observation.get_s2n_sums", "ngmix/prepsfmom.py: PrePSFMom.go", "ngmix/guessers.py: GMixPSFGuesser._get_T_flux_default"]}
{"id": "C105", "title": "Weights set the errors, not the estimates", "statement": "Let the weights of an observation be replaced by any others with the same pixels masked. Gaussian weighted and adaptive moments are the same: flags, flux, size, shape, centroid, named and higher moments, the weight function left behind, numbers of pixels and iterations, and exceptions; only errors, covariances and signal to noise depend on the weights. EM gives the same result in every respect. With all weights k^2 times as large (k>0) the errors of these moments are 1/k times, the covariances 1/k^2 times and the signal to noise k times as large. A model fit is then set up the same way, and without a prior its residuals are k times and its log likelihood and signal to noise sums k^2 times as large at all parameters and after any history, with the same exceptions and minus infinity at the same parameters.", "quantifier": "all images, weights, masks, weight functions, guesses, settings, models, parameters, histories and factors k>0", "why_tests_cant": "All weights of all images; a test compares a few.", "anchors": ["ngmix/gaussmom.py: GaussMom.go", "ngmix/gmix/gmix_nb.py: get_weighted_sums, get_loglike, fill_fdiff", "ngmix/moments.py: make_mom_result", "ngmix/admom/admom.py: AdmomFitter.go, get_result", "ngmix/admom/admom_nb.py: admom, admom_censums, admom_momsums", "ngmix/em/em.py: EMFitter.go", "ngmix/em/em_nb.py: em_run, fill_zero_weight_pixels", "ngmix/fitting/results.py: FitModel.calc_fdiff, calc_lnprob"]}
{"id": "C106", "title": "Images without noise give back what was put in", "statement": "If the images of a psf or template flux fit are the normalised templates (images, or mixtures as make_image draws them) at the flux F, the flux found is F, with error and chi squared zero and no flag, whatever the weights, provided the weighted power of the templates is not zero and there is more than one pixel. If every pixel of a model fit without prior has the value of the convolved model at some parameters, with the fast exponential, then at these parameters all residuals and the log probability are zero, and the log probability is not above zero at any other parameters, after any history of calls: the true parameters are a best fit. With a prior the log probability there is that of the prior. If the images are drawn by make_image, with the exact exponential, each residual at the true parameters is at most 4e-5 times the summed central brightnesses of the gaussians times pixel area and inverse error, and the log probability is at least minus half the sum of their squares. If the k images of a galsim fit without prior are those of the model at some parameters, all residuals there are zero, after any history of calls.", "quantifier": "all observations, bands, weights, templates, models, psfs, parameters and histories of calls", "why_tests_cant": "A continuum of models and images; a test recovers a few, to a tolerance.", "anchors": ["ngmix/fitting/results.py: PSFFluxFitModel.go, FitModel.calc_fdiff, calc_lnprob, make_image", "ngmix/gmix/gmix_nb.py: gmix_eval_pixel_fast, gmix_eval_pixel, get_loglike, fill_fdiff", "ngmix/fastexp_nb.py: fexp", "ngmix/fitting/galsim_results.py: calc_fdiff"]}
{"id": "C107", "title": "The order of the observations of a band does not matter", "statement": "Let two model fits be set up on the same bands with the observations of each band in another order, both using the psfs or both not. The same parameters are in range. When both evaluations return, the log probability, the signal to noise sums and the number of pixels are the same, and without prior the residuals are the same numbers in another order, whatever the guesses and histories of calls. Psf and template fluxes of the same observations in another order are the same in every respect, if all of them have template images or all of them mixtures; so are template fluxes with galsim. Galsim fits (each observation with its own metadata) accept the same guesses in any order, have the same parameters in range, and without prior have the same residuals in another order. (Violation: the first observation of the first band decides for all whether psfs are used. Of two observations of which one has no psf mixture, a fit without any psf is set up in one order, and the other order is refused with the exception of the missing psf.)", "quantifier": "all observations, models, priors, psfs, parameters, guesses, histories of calls and permutations", "why_tests_cant": "All permutations of any number of observations.", "anchors": ["ngmix/fitting/results.py: FitModel.__init__, calc_fdiff, calc_lnprob, PSFFluxFitModel.go", "ngmix/fitting/galsim_results.py: GalsimFitModel.calc_fdiff, GalsimPSFFitModel"]}
{"id": "C108", "title": "The layout of the image array does not matter", "statement": "Two arrays with weights and Jacobians that put the same values and weights at the same places on the sky (with the same pixel area) offer the same pixels in another order, or are both refused for having no usable pixel. This holds of the array with rows and columns exchanged, with the rows in reverse order (the Jacobian changed with it), and of a part of the array that holds all pixels of positive weight. Gaussian weighted and adaptive moments and EM with a starting sky then give the same result in every respect; so does EM without a starting sky if all pixels correspond, masked or not (it uses all of them); so do fluxes with mixtures. A model fit is set up with the same mixtures or the same exception, its log probability and signal to noise sums are the same at all parameters after any history, and its residuals are those of the prior followed by those of the pixels in another order, the same order at all parameters. (Violation: for exp, dev, gauss and turb fits with a prior the error estimate misses the first pixel (C41), so that the sum of squares it uses depends on which pixel comes first.)", "quantifier": "all images, weights, Jacobians, correspondences of pixels, settings, guesses, psfs, models, priors, parameters and histories", "why_tests_cant": "All layouts of all images; a test tries a few, and an offset or an exchange of rows and columns may cancel in symmetric images.", "anchors": ["ngmix/pixels/pixels.py: make_pixels", "ngmix/pixels/pixels_nb.py: fill_pixels", "ngmix/jacobian/jacobian_nb.py: jacobian_get_vu", "ngmix/gaussmom.py: GaussMom.go", "ngmix/gmix/gmix_nb.py: get_weighted_sums, get_loglike, fill_fdiff", "ngmix/admom/admom_nb.py: admom", "ngmix/em/em.py: EMFitter.go, prep_obs, prep_image", "ngmix/em/em_nb.py: em_run", "ngmix/fitting/results.py: FitModel.calc_fdiff, calc_lnprob, PSFFluxFitModel.go", "ngmix/fitting/leastsqbound.py: run_leastsq"]}
{"id": "C109", "title": "The order of the bands does not matter", "statement": "Let two model fits be set up on the same bands in another order, with the flux priors in the order of the bands, both using the psfs or both not, and evaluate both at the same shared parameters with the fluxes in the order of the bands. The same parameters are in range. When both evaluations return, the log probability, the signal to noise sums and the number of pixels are the same, and without prior the residuals are the same numbers in another order, whatever the guesses and histories of calls. Galsim fits accept the same guesses (fluxes in the order of the bands), have the same parameters in range, and without prior have the same residuals in another order.", "quantifier": "all bands, observations, models, priors, psfs, parameters, guesses, histories of calls and permutations", "why_tests_cant": "All permutations of any number of bands; a test has two or three bands and may not notice a flux or prior taken from the neighbouring band.", "anchors": ["ngmix/fitting/results.py: FitModel.__init__, get_band_pars, calc_fdiff, calc_lnprob", "ngmix/joint_prior.py: PriorSimpleSep, PriorBDSep, PriorBDFSep: get_lnprob_scalar", "ngmix/fitting/galsim_results.py: GalsimFitModel.get_band_pars, calc_fdiff"]}
{"id": "C110", "title": "Pre-psf moments in other coordinates of the sky and other layouts of the array", "statement": "Take the same images, weights and psf with Jacobians for sky axes turned by any angle, one of them reversed or not, and another unit of length, with the widths of the kernel and of the smoothing expressed in that unit. PrePSFMom raises the same exception or measures in both: the flux moment is the same, the size moment is that of the new unit, the two shape moments turn by twice the angle, and the covariance matrix is the one that goes with this. So flux, its error, the signal to noise ratio and the flags of flux and size are the same, the size and its error are in the new unit, and the ellipticity turns, if neither result is flagged. When the axes only exchange names or directions, or the unit changes, both are flagged or neither is, and the errors of the ellipticity are the same. With rows and columns exchanged in image, weight map and (square) psf image, and in the Jacobians, every field of the result, or the exception, is the same. All this for every kernel, padding, apodization and smoothing.", "quantifier": "all images, weights, psfs, Jacobians, angles, units, kernels and settings", "why_tests_cant": "A continuum of angles, units and images; a test on a round or centred object does not see an exchanged axis.", "anchors": ["ngmix/prepsfmom.py: PrePSFMom.go, _meas, _measure_moments_fft, _ksigma_kernels, _gauss_kernels, _zero_pad_and_compute_fft_impl, _build_square_apodization_mask, _compute_cen_phase_shift", "ngmix/moments.py: make_mom_result"]}
{"id": "C111", "title": "The text made of parameters", "statement": "format_pars(pars, fmt) is the text of each parameter under fmt (fmt % (x,)), each followed by a space, joined by spaces; the empty text for no parameters, whatever fmt. With a format usable at all (fmt % args returns for some tuple) it returns only if fmt writes each parameter alone: formats for no value or for several raise. (Violation: a format that ends inside a conversion can be completed by its next copy; format_pars([3, 4], '*.*%') returns a text although fmt % (3,) raises.) print_pars writes front and a space if front is given, even if it is empty, then that text, or None for None, and an end of line, once, to the stream; with a logger the same without the end of line goes to its debug and the stream is untouched; if the format is refused nothing is written.", "quantifier": "all parameters, formats, fronts, streams and loggers", "why_tests_cant": "Unbounded lists of parameters and all format strings; a test prints a few numbers in the default format.", "anchors": ["ngmix/util.py: print_pars, format_pars"]}
{"id": "C112", "title": "Observations measured together and apart", "statement": "Let the flux of two sets of observations be measured apart and together (weights not negative; all with template images, or all with mixtures). Where the template has power (sum of weight times template squared) in both, the flux of all observations is the mean of the two fluxes weighted by the power, so it lies between them, and the chi squared is the sum of the two and of the disagreement P P' / (P + P') (f - f')^2; if the template has power in one set only the flux is that of this set, and if in none the flux is the sentinel and flagged. Adding c times the unit-flux template to the images adds c to the flux and changes no other field. Two sets of observations in the same bands (all fits with or all without psfs): parameters are in range for a model fit to all exactly if they are for both sets; then the log probability is the sum of those of the two sets plus the log prior, the signal to noise sums and the numbers of pixels add, and without prior the residuals are those of the two in another order, whatever the guesses and histories of calls. The same residuals and range for galsim fits (each observation with its own metadata), and the same weighted mean for galsim fluxes (positive power in both).", "quantifier": "all sets of observations, templates, mixtures, models, psfs, priors, parameters, guesses and histories of calls", "why_tests_cant": "All ways of splitting any number of observations; a test tries a few with equal noise, where the mean without weights agrees.", "anchors": ["ngmix/fitting/results.py: PSFFluxFitModel.go, FitModel.calc_fdiff, FitModel.calc_lnprob", "ngmix/fitting/galsim_results.py: GalsimFitModel.calc_fdiff, GalsimPSFFitModel"]}
{"id": "C113", "title": "The order of the gaussians of a mixture does not matter", "statement": "Take two mixtures with the same gaussians in another order. Flux, centre, size and shape (of the methods and of the compiled functions) are the same. set_cen, set_flux, make_round and convolve (either mixture in another order) give the same gaussians in another order, or fail in the same way; get_sheared gives the same gaussians in another order or fails for both. If norms are stored for all or for none of the gaussians, log likelihood, residuals, signal to noise sum and images are the same, or the same exception, and weighted sums are the same if all gaussians have one centre. EM with guess, psf or both in another order gives the same flags, number of iterations, convergence and sky and the same gaussians in another order, or the same exception. Model fits with the gaussians of the psfs in another order are refused with the same exception or set up, and then have the same residuals and log probability at all parameters after any histories of calls. Fluxes with mixtures are the same in every field. (Violations: weighted sums take radii and second moments about the centre of the first gaussian of the weight, so with several centres the order decides which pixels are used. After a failed evaluation the order matters (C20): a mixture of a usable and an unusable gaussian raises once and then evaluates if the usable one is first, and raises every time if it is last.)", "quantifier": "all mixtures, permutations, pixels, images, settings, models, priors, parameters and histories of calls", "why_tests_cant": "All permutations of any number of gaussians; a test has one order, and mixtures with one centre hide the dependence on the first gaussian.", "anchors": ["ngmix/gmix/gmix.py: GMix.get_cen, get_T, get_e1e2T, get_g1g2T, set_cen, set_flux, make_round, convolve, get_sheared, get_loglike, make_image, get_weighted_sums", "ngmix/gmix/gmix_nb.py: gmix_get_cen, gmix_get_e1e2T, gmix_convolve_fill, gmix_set_norms, get_loglike, fill_fdiff, get_model_s2n_sum, get_weighted_sums", "ngmix/em/em.py: EMFitter.go", "ngmix/em/em_nb.py: em_run, do_scratch_sums, gmix_set_from_sums", "ngmix/fitting/results.py: FitModel.calc_fdiff, calc_lnprob, PSFFluxFitModel.go"]}
{"id": "C114", "title": "An n-dimensional mixture in other parameters, orders and weights", "statement": "Take a mixture of n-dimensional gaussians and the one with the same components in another order: set_mixture refuses both for a singular covariance, or accepts both, and then get_prob and get_lnprob are the same at every point, NaN included. The same with the parameters replaced by A x + b, A invertible, and means and covariances changed with them: with positive determinants and weights not negative the probability at A x + b is that at x divided by |det A|, and the log probability is less by log |det A|; otherwise both are NaN at every point. Multiplying all weights by k > 0 multiplies the probability by k and adds log k to its logarithm, and a component split into two with the same mean and covariance gives the same probabilities.", "quantifier": "all dimensions, mixtures, permutations, invertible matrices, offsets, factors and points", "why_tests_cant": "A continuum of parameters and all dimensions; a test evaluates a few points, and a uniform offset of the log probability does not show in fits.", "anchors": ["ngmix/gmix_ndim/gmix_ndim.py: GMixND.set_mixture, get_prob_scalar, get_lnprob_scalar, _calc_icovars_and_norms", "ngmix/gmix_ndim/gmix_ndim_nb.py: gmixnd_get_prob"]}
{"id": "C115", "title": "Mixtures made of parts, and convolution in steps", "statement": "Convolving a mixture with one psf and then with another gives the same gaussians, in the same order, as convolving it once with the first psf convolved with the second. Convolving two parts and concatenating is concatenating and convolving. Convolving with a point source of any flux (not zero) and place changes no gaussian. Of two mixtures of the same flux and centre, each convolved with the other has the same gaussians in another order. A convolved mixture that is sheared (positive definite covariances, shear below 1) has the same gaussians as the sheared mixture convolved with the sheared psf. Two shears along the same direction are one, by (s+t)/(1+s.t), so that shearing back by -s restores the gaussians (of a mixture of the base class; for models C24). A sheared mixture whose gaussians have one centre keeps flux and centre and has the sheared second moments (with several centres it has not, C93). Both sides of each law of convolution raise ZeroDivisionError if a psf has no flux. For mixtures whose determinants and norms are up to date (every method but make_round leaves them so, unless it raised, C20), the image of gmix_concat is the sum of the images of the parts, pixel by pixel, with the exact and the fast exponential, and raises GMixRangeError exactly if one of them does. Two gaussians with the same centre and covariance are one with the sum of the fluxes (of any sign): the same flux, centre, size and shape, and the same image, log likelihood, residuals and signal to noise sum, or the same exception.", "quantifier": "all mixtures, psfs, shears, numbers of parts, fluxes, image sizes and Jacobians", "why_tests_cant": "All mixtures of any number of gaussians; tests convolve centred psfs of unit flux, where a lost normalisation or offset does not show.", "anchors": ["ngmix/gmix/gmix.py: GMix.convolve, get_sheared, make_image, get_flux, get_cen, get_T, get_e1e2T, get_g1g2T, gmix_concat", "ngmix/gmix/gmix_nb.py: gmix_convolve_fill, gmix_get_cen, gmix_eval_pixel, gmix_eval_pixel_fast, get_loglike, fill_fdiff, get_model_s2n_sum", "ngmix/gmix/render_nb.py: render", "ngmix/moments.py: get_sheared_moments"]}
{"id": "C116", "title": "Round versions of mixtures", "statement": "Take a mixture whose gaussians have one centre and whose second moments are positive definite. The mixture returned by make_round has the same flux and centre and the shape zero, in both conventions. Its size is T(1-g^2)/(1+g^2) without preserve_size, so that the determinant of the second moments is kept; with preserve_size half its size is the largest mean squared extent of the mixture along any direction. Rounding again, with either option, changes nothing. If all gaussians have the same shape g (any sizes and fluxes), each becomes round with the size T(1-g^2)/(1+g^2) without preserve_size, the stored determinants are right although they are not updated, and shearing the round mixture by g gives the mixture back (positive sizes). For the models gauss, turb, exp and dev the round mixture has exactly the gaussians of the model with g=0 and this size. (Violations: the centres are not set to the common mean, as documented, so with gaussians at different places the round version has a shape and another size, with preserve_size its extent along a direction is below the largest one of the mixture, and rounding again changes it. With different shapes, or with preserve_size (C20), the determinants are wrong. The shear of the round version of a model mixture is the shear of the mixture before rounding.)", "quantifier": "all mixtures, options, models, shapes, sizes and fluxes", "why_tests_cant": "All mixtures of any number of gaussians; tests round single models with one centre and shape, where stale determinants and unmoved centres do not show.", "anchors": ["ngmix/gmix/gmix.py: GMix.make_round, get_e1e2T, get_g1g2T, get_sheared, copy", "ngmix/shape.py: get_round_factor", "ngmix/moments.py: e2mom", "ngmix/gmix/gmix_nb.py: gmix_fill_simple, gmix_set_norms"]}
{"id": "C117", "title": "Sheared and rounded models are models", "statement": "The shear of a model mixture (gauss, turb, exp, dev, bdf, bd, GMixCM with any fixed fracdev and ratio of sizes; all gaussians of positive size, shear below 1) has exactly the gaussians, in the same order and with the same stored fields, that filling the same mixture with the parameters sheared by get_sheared_g1g2T gives: centre, fractions and flux unchanged. So has the shear of a GMixCoellip with every size sheared. The round version without preserve_size (size of the mixture not zero) has exactly the gaussians that filling with shape zero and the size, or for GMixCoellip every size, multiplied by (1-g^2)/(1+g^2) gives, with determinants that are right. This holds after any history of fill and set_cen. (The object returned keeps the old parameters, so its copy forgets the change, C24.)", "quantifier": "all model classes, parameters, shears and histories of fill and set_cen", "why_tests_cant": "A continuum of shapes, sizes and shears for every model; a test shears one model of one size, where a factor of size that depends on the shape can be lost in the tolerance.", "anchors": ["ngmix/gmix/gmix.py: GMix.get_sheared, make_round, fill, GMixCM, GMixCoellip", "ngmix/gmix/gmix_nb.py: gmix_fill_simple, gmix_fill_bdf, gmix_fill_bd, gmix_fill_cm, gmix_fill_coellip", "ngmix/moments.py: get_sheared_g1g2T, get_sheared_moments", "ngmix/shape.py: get_round_factor, shear_reduced"]}
{"id": "C118", "title": "Models are linear in the fluxes", "statement": "Take a model fit that has been set up, parameters in range, and multiply the flux of each band b (all fluxes of a GMixCoellip, which has one band) by any number k_b, of any sign or zero. The new parameters are in range, and after any history of calls without prior the residuals are (k_b model - data)/error, band by band, observation by observation and pixel by pixel. With A_b the sum of model^2/error^2, B_b that of data model/error^2 and C_b that of data^2/error^2 over the band, all at the first parameters, the log probability is that of the prior plus the sum over bands of -(k_b^2 A_b - 2 k_b B_b + C_b)/2, the numerator of the signal to noise is the sum of k_b B_b and the square of its denominator the sum of k_b^2 A_b. So without prior, if every A_b is positive, the only best multiples are B_b/A_b, each decided by its own band; there numerator and squared denominator agree and are the part of sum C_b that the model explains, and elsewhere the log probability is lower by half the sum of A_b times the squared distance.", "quantifier": "all models, observations, psfs, priors, parameters, factors and histories of calls", "why_tests_cant": "A continuum of fluxes in any number of bands; a test fits one image in one band, where a flux applied to the wrong band or a term that does not scale is absorbed by the minimiser.", "anchors": ["ngmix/fitting/results.py: FitModel.calc_fdiff, calc_lnprob, get_band_pars", "ngmix/gmix/gmix_nb.py: gmix_fill_simple, gmix_fill_coellip, gmix_fill_bd, gmix_fill_bdf, gmix_convolve_fill, get_loglike, fill_fdiff"]}
{"id": "C119", "title": "What fits see of the psf mixture is its profile", "statement": "Say that two psf mixtures have the same profile if one can be reached from the other by moving all gaussians by one offset, multiplying all fluxes by one number that is not zero, listing the gaussians in another order, and replacing a gaussian by two with the same centre and covariance that share its flux, or the reverse, any number of times. Then they have the same size and shape (or neither has any). Any mixture convolved with either gives the same exception, or mixtures with the same log likelihood, residuals, signal to noise sums and images; after moving and multiplying alone they are exactly the same gaussians. A model fit of any model and prior whose psf mixtures are replaced by ones of the same profile, in any of its images, is refused with the same exception, or has the same residuals and log probability at all parameters after any history of calls; and a whole fit with any minimiser gives the same exception or the same result. EMFitter.go with a psf mixture that is moved and multiplied gives the same exception or the same result.", "quantifier": "all mixtures, chains of replacements, models, priors, observations, minimisers and histories of calls", "why_tests_cant": "All mixtures and all chains of replacements; tests use psfs of unit flux at the origin, for which a missing normalisation or offset does not show.", "anchors": ["ngmix/gmix/gmix.py: GMix.convolve, get_T, get_e1e2T, get_g1g2T, make_image, get_loglike", "ngmix/gmix/gmix_nb.py: gmix_convolve_fill, gmix_get_cen, get_loglike, fill_fdiff", "ngmix/fitting/results.py: FitModel.calc_fdiff, calc_lnprob, _init_gmix_all, _fill_gmix_all", "ngmix/fitting/fitters.py: Fitter.go"]}
{"id": "C120", "title": "Gaussian weighted moments in another unit of length", "statement": "GaussMom on the same image with the Jacobian and the width of the weight function stated in a unit of length that is k times smaller (k any positive number): both measurements end with ZeroDivisionError (a zero weight among the pixels used) or both return, one is unflagged if and only if the other is, and then they use the same pixels and report the same flux, signal to noise ratio, shape, their errors and sum of weights. The size and its error are k squared times as large. Each of the 17 sums is multiplied by k once for each length in it (1 for the positions, 2 for the second order sums, 0 for the flux, 3 and 4 for the third and fourth order, 6 and 8 for the radial sums), and each covariance by the factors of its two sums.", "quantifier": "all images, weights, widths of the weight function for which the weight can be made in both units, and factors, with and without higher moments", "why_tests_cant": "A continuum of units and images; tests use one pixel scale, where a fixed radius or a missing area does not show.", "anchors": ["ngmix/gaussmom.py: GaussMom.go, _measure_moments, _set_mompars", "ngmix/gmix/gmix_nb.py: get_weighted_sums, get_higher_order_weighted_sums", "ngmix/gmix/gmix.py: GMix.get_weighted_moments, get_weighted_sums", "ngmix/moments.py: make_mom_result, fwhm_to_T"]}
{"id": "C121", "title": "Fits of composite models are sums of fits of their parts", "statement": "Set up fits without prior of bdf (or bd), exp and dev models to the same observations, in any number of bands, with or without psfs. Take bdf parameters whose size can be normalised (the size N of a disk of unit size with its bulge is not zero). They are in range if and only if the exp model of size T/N and the dev model of that size (for bd, of that size times 10 to the power of the ratio parameter), with the same centre, shape and fluxes, are both in range; and then, after any histories of calls, the residuals of the bdf fit are (1 - fracdev) times those of the exp fit plus fracdev times those of the dev fit, element by element, for any fracdev. A coellip fit of at least one gaussian is in range if and only if the gauss fits at each of its pairs of size and flux are, and residuals plus data/error are the sum over its gaussians of the residuals plus data/error of those gauss fits, at each pixel.", "quantifier": "all observations, psfs, parameters, numbers of bands and gaussians, and histories of calls", "why_tests_cant": "A continuum of parameters and any number of images; a test compares mixtures at a few fractions, without psf.", "anchors": ["ngmix/fitting/results.py: FitModel.calc_fdiff, _fill_gmix_all, get_band_pars, CoellipFitModel", "ngmix/gmix/gmix_nb.py: gmix_fill_bd, gmix_fill_bdf, gmix_fill_coellip, gmix_fill_simple, get_cm_Tfactor, gmix_convolve_fill, fill_fdiff"]}
{"id": "C122", "title": "Fluxes and moment sums are linear in the image", "statement": "Take observations (any number, or an ObsList) whose images are a times those of a first set plus b times those of a second set, with everything else the same in the three sets. A psf flux fit of it with template images (of non-zero sum), with gaussian mixtures that can be rendered, or with galsim templates gives the flux a f + b g, where f and g are the fluxes found in the other two, and the same number of degrees of freedom; or, when the weighted sum of squares of the templates is zero, all three fits give the default flux and error and are flagged for division by zero. Gaussian weighted moments of such an image use the same number of pixels and give a times the sums (and flux) of the first plus b times those of the second, with the same covariance, errors of the sums and error of the flux among measurements that are not flagged; sums and flux of a flagged measurement are multiplied by the pixel area, those of an unflagged one are not. If a pixel inside the weight has zero weight all three measurements raise ZeroDivisionError.", "quantifier": "all images, weights, templates, mixtures, observations and factors, and all weight functions that can be made", "why_tests_cant": "A continuum of images; a test checks one flux of one simulated image to a tolerance.", "anchors": ["ngmix/fitting/results.py: PSFFluxFitModel.go", "ngmix/fitting/galsim_results.py: GalsimPSFFitModel", "ngmix/gaussmom.py: GaussMom.go", "ngmix/gmix/gmix_nb.py: get_weighted_sums, get_higher_order_weighted_sums"]}
{"id": "C123", "title": "Moments of higher order leave the basic measurement as it is", "statement": "Measure the gaussian weighted moments of the same pixels with and without moments of higher order. Either both raise ZeroDivisionError (a pixel of zero weight inside the weight function), or both give a result with the same number of pixels. The measurement with higher orders is unflagged if and only if the one without is and all higher order moments have a positive variance; then flux, size, shape, their errors, pars, the first six sums, errors and covariances and the norm are the same. If both are flagged, flux and the first six sums are still the same. (Violation: if only the one with higher orders is flagged its flux and first six sums are those of the other times the pixel area; a single pixel at an angle of thirty degrees is such a case.)", "quantifier": "all pixel lists of one pixel area and all weight functions that can be made", "why_tests_cant": "A continuum of images and weights; the exceptional case needs pixels chosen for it.", "anchors": ["ngmix/gaussmom.py: GaussMom.go, _measure_moments", "ngmix/moments.py: make_mom_result", "ngmix/gmix/gmix_nb.py: get_weighted_sums, get_higher_order_weighted_sums"]}
