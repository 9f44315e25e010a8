# Formal model of esheldon/ngmix in Lean 4

## Layout

* `lean/Verif/Model/*.lean`  – the model: one module per source area. Every
  definition cites file and lines in `/repo/ngmix` and says what it simplifies.
* `lean/Verif/Spec/*.lean`   – small, independent specifications (complex
  numbers, matrices, list/finite sums, derivative statements) that do not refer
  to model helpers.
* `lean/Verif/Proof/*.lean`  – helper lemmas.
* `lean/Verif/Props/*.lean`  – the property theorems (`C01_...`), each followed by
  a concrete `example` showing that its hypotheses can be met.
* `MANIFEST.json` – claim/theorem table; `properties.jsonl` – English properties;
  `seeded/LOG.jsonl` – wrong-program experiments.

## Trusted base

* Lean 4.33.0 kernel and Mathlib's definitions (reals, `exp`, `sqrt`, `tanh`,
  integrals, derivatives).
* Axioms: only `propext`, `Classical.choice`, `Quot.sound` (see the axiom listing
  at the end of this file). No axioms of our own, no `sorry`, `native_decide`, `bv_decide`.
* That the model is a faithful transcription of the Python (checked by reading;
  each definition cites its lines).

## General simplifications

* IEEE-754 doubles are modelled by the real numbers `ℝ`: no rounding, overflow.
  Where the code's behaviour depends on NaN (moment results, flags) a value type
  with an explicit `nan` is used.
* Python exceptions are values (`Except Err α`).  Mutable objects are state
  records; an operation that raises returns the state it leaves behind, so that
  crash points are visible.
* Numba kernels are modelled as the loop they are (folds over lists).
* Random generators are arbitrary streams (universally quantified).
* External libraries (galsim, scipy, MINPACK, FFT) are parameters: their outcome
  is universally quantified.

## Plan per property

| id | model | proof |
|----|-------|-------|
| C01 | `shear_reduced` over ℝ; `Shape` constructor | equality with complex Möbius map; norm identity `(1-|g'|²)·|1+g s̄|² = (1-|g|²)(1-|s|²)` |
| C02 | same | field identities from C01 |
| C03 | `rotate_shape`, `get_rotated` | complex multiplication by `exp(-2iθ)` |
| C04 | `Shape` as a state record, ops may fail leaving a state | induction over histories; counterexample by a concrete history |
| C05 | conversions with `tanh`/`artanh` | inverse pairs, norm and direction; error branches iff |
| C06 | `dgs_by_dgo_jacob` | `HasDerivAt` for the four partials, determinant identity |
| C07 | `get_round_factor`, `get_Tround`, `get_T` | algebra/inequalities |
| C08 | `e2mom`, `mom2e`, `g2mom`, `mom2g` | algebra, positivity iff |
| C09 | size converters | algebra, log 2 bounds |
| C10 | sheared moments | matrix identity `S M S`, determinant |
| C11 | `make_mom_result` over values with NaN | case analysis on all branches |
| C12 | `regularize_mom_shapes` | case analysis |
| C13 | `get_ratio_var` | quadratic form identity; counterexample at a=0 |
| C14–C16 | `Jacobian` record, keyword dictionaries | field algebra, case analysis |
| C17 | `make_pixels` as nested loops on a 2-d array | list induction, equality with filtered row-major enumeration |
| C18–C20, C24, C25 | `Gauss2D` record with norm fields, `GMix` = list; models with `_pars` | list induction; state machine; counterexamples |
| C21 | evaluation | Gaussian integral by completing the square and Fubini |
| C22–C23 | pvals/fvals tables, fills | rational arithmetic for the tables; algebra for all parameters |
| C26 | `exp5` with truncation and table of `exp` values | Taylor remainder bound |
| C27–C28 | loops over pixels | fold/sum equalities |
| C29–C34 | `Observation` state machine, shapes and contents abstract | invariants by induction over op histories; counterexamples |
| C35–C37 | runners and bootstrap with arbitrary fit outcomes | induction on tries/lists |
| C38 | flag string loop | bit enumeration, list lemmas; counterexample bit 31 |
| C39–C41 | bound transforms, run_leastsq decision tree, slot counts | trig/sqrt inequalities, `HasDerivAt`, case analysis, arithmetic for all nband |
| C42–C45 | priors, joint priors, rejection loop | algebra, list sums, induction on the loop |
| C46–C47 | PSF flux fit, band pars | quadratic minimisation; list lemmas |
| C48–C50 | EM sums and iteration | finite sum exchange, induction over iterations |
| C51–C52 | admom loop and deweighting | invariant over the loop; matrix identity |
| C53–C57 | metacal bookkeeping, cache state machine | list/set reasoning; crash-point counterexample |
| C58 | n-d mixture probability | `exp`/`log` of finite sums |
| C59–C61 | padding arithmetic, apodization polynomial, deconvolution, moment sums | integer arithmetic, derivative sign, complex norm, sums |
| C62–C63 | guessers, cache | loop reasoning; counterexample history |
| C64–C66 | bookkeeping of gaussap, weighted sums, simobs, medsreaders | list induction, case analysis |
| C67–C68 | the fit model as a state machine over evaluations | invariant over histories; equality of sum of squares and log probability |
| C69 | adaptive moments result | case analysis on the stored flags |
| C70 | psf fit of metacal's fitted target | case analysis on arbitrary outcomes of the two fits |
| C71–C74 | pre-psf moments on the discrete torus, with arbitrary padding | discrete Fourier and Parseval identities, caches as state machines |
| C75 | gaussian weighted moments | algebra of the pixel area, list sums |
| C76 | psf guessers over arbitrary random streams | interval bounds for all draws; counterexample |
| C77–C78 | fitters with an arbitrary adaptive minimiser (`Proc`) acting on the hidden state | simulation: invariant along the dialogue; algebra of the statistics |
| C79 | k-space observations, metadata as addresses in a memory | frame lemmas over lists; counterexample |
| C80–C81 | galsim fits: model images live in the memory of the metadata | frame lemmas, simulation of the minimiser, counterexamples |
| C82 | template fluxes with galsim | reduction to the sums of C46; counterexample |
| C83–C84 | probability and array methods of the 1-d, shape, centre and joint priors | pointwise lemmas; induction over the list of priors; monotonicity of erf; counterexamples |
| C85 | sizes of samples, `sample_brute`, `LogNormal.fit` with any minimiser | simulation of the rejection loop; induction over the tries |
| C86 | `make_galsim_object` with galsim Gaussian/shear/shift/Add as their defining formulas | algebra of shapes and moments; induction over the components |
| C87 | MEDS cutouts with an arbitrary file layer | case analysis of the exception order |
| C88 | `make_image` of mixtures, EM and adaptive moment results, sizes, statistics, `run_em` | rendering sets the norms once, then pixel by pixel; the results of C48, C51 give usable mixtures |
| C89 | the `lru_cache` of galsim objects with addresses; any galsim | invariant of the cache over histories |
| C90 | `GMixND` with its attributes, files and sampler | invariant over histories against a specification of "sent last", "written last", "sampled from" |
| C91 | `make_rng`, `srandu`, `KDE.sample` with generators as objects | induction over histories of draws |
| C92 | constructor of `FitModel` and `CoellipFitModel` with the mixtures it makes, against `Feasible`, `guessLength`, `psfRefusal` | outcome of each band and image, induction over bands and images; positive semidefinite plus positive definite covariance for "in range" |
| C93 | rendering, pixels, likelihoods, convolution, fill functions and fits as modelled for the other properties, against an affine `SkyMap` | invariance of chi square and of norm times area; induction over components, pixels, images and bands |
| C94 | attributes of `GPriorBA` and all operations that change them; minimisers arbitrary | induction over histories; Lebesgue measure of the kept uniforms; intermediate value theorem for the stale maximum; outcomes of `run_leastsq` |
| C95 | moment results, GaussMom, pre-psf moments | all float cases of products with a positive number; induction over the pixels; linearity of the transforms |
| C96 | EM fits on corresponding inputs | a relation between the states of the two fits kept by every step, for any number of iterations; the two violations computed on one pixel |
| C97 | adaptive moments on corresponding inputs | relation between weight and record of the two runs kept by sums, deweighting and tests, induction over the passes; ratio errors in all float cases; violation computed on one pixel |
| C98 | model fits on images with other units of brightness, flux priors in other units | the fit as a function of the parameters only (no history), pixel by pixel equality of residuals; each prior class by cases, joint priors by position of the fluxes |
| C99 | gaussian weighted moments on turned pixels | positions as complex numbers, each pair of moments of spin k multiplied by the k-th power of the phase; for multiples of 90 degrees a signed permutation of the 17 moments; flags computed on three pixels for the violation |
| C100 | the samplers on infinite sequences of independent deviates (product measure); the batches of a rejection loop are consecutive parts of the sequence of trials, the deviates of one trial (arrays drawn one after the other in the code) are independent | probability of a run of the loop by first step analysis of the sequence; change of variables for densities in one dimension, polar coordinates in two; independence of the values as a product over any sets; for the joint priors the values of the parts as random vectors, exchange of rows and columns of a product measure, and the density of a product |
| C101 | mixtures and Jacobians on a heap with the addresses of their arrays, programs as lists of calls | separation invariant (no two objects, and no object and the caller, hold the same array), kept by every call; frame by induction over the program |
| C102 | constructors of the four Metacal classes; GalSim operations arbitrary, with a Fourier transform of every profile that they respect as a hypothesis | the transform of each profile followed through constructor, cache (C57) and requests; algebra of transforms; a GalSim whose profiles are their transforms shows the hypotheses can be met |
| C103 | the iterations of C48 as a path of points; Poisson log likelihood in a separate specification | Jensen's inequality in every pixel with the shares of the components as weights, the M step of fluxes, centres and covariances (log determinant inequality for two by two matrices), the error of the fast exponential (C26); for the maximum, concavity and the conditions for a fixed point; a run of two pixels for the violation |
| C104 | two observations that differ in masked values, as modelled for the other properties | pixel by pixel relation; a product with inverse error zero is zero (also with model values that are not finite), filled pixels are equal; induction over pixels, images, bands; violations on two or three pixels |
| C105 | the same observation with other weights, as modelled for the other properties | the sums accumulated do not contain the weights, only the covariance does, with entries of the same sign; induction over pixels and iterations; errors and residuals scale term by term |
| C106 | fits of C41, C46, C47, C80 on images that equal the model | residuals term by term zero; sums of squares for the maximum; error of the fast exponential (C26) and the cutoff at five sigma for images drawn exactly |
| C107 | the fits of C41, C46, C47, C80, C82 on permuted bands | induction over the permutation: the mixture of each image goes with it, sums over pairs are invariant; two observations for the violation |
| C108 | `makePixels` on two arrays whose used pixels correspond; everything computed from lists of pixels (C19, C31, C41, C46, C47, C95) on permuted lists | bijection of the used pixels; loops over pixels are folds of steps that commute; for residuals an index list independent of the parameters, by induction over images and bands |
| C109 | the fits of C41, C47, C80 on permuted lists of bands, each with its flux and flux prior | the mixture of a band depends on the shared parameters and its own flux only; sums over bands are invariant, addition of doubles in the prior included |
| C110 | `preGo` on the same images with turned Jacobians, and on exchanged rows and columns | the frequencies of each mode turn with the axes, kernels and moments by a linear map, the covariance by the same map on both sides; sums over modes reindexed for the exchange |
| C111 | Python's `%` on a tuple as a machine over the characters of the format; how one value is written is an arbitrary function | what a character does depends on the kind of mode only, so copies of a format take the same number of values; induction over the copies |
| C112 | the fits of C41 and C80 and the fluxes of C46 and C82 on two sets of observations and on both together | numerator and denominator of the flux add; chi squared completes the square; model images of the bands append, residuals by permutation |
| C113 | mixtures, EM, fits and fluxes of C20, C41, C46, C47 and C67 on permuted lists of gaussians | sums over gaussians are invariant; EM by a simulation that carries each gaussian with its block of the convolved mixture and its sums; fits by the pure form of the evaluations of C67 |
| C114 | the mixtures of C58 with components permuted, parameters mapped by an invertible matrix and an offset, weights multiplied, a component split | the density of C58 is a sum over components; the quadratic form is invariant and the determinant is multiplied by the square of that of the matrix |
| C115 | `convolve` applied twice, on concatenations, with a point, with arguments exchanged, after shears; images of `gmix_concat` and of a mixture with one gaussian split | equality of the lists of gaussians (associativity of the pair list, linearity of the shear of covariances from C10); each pixel is a sum over gaussians of a term linear in the flux |
| C116 | `make_round` of C20 and C24 on mixtures of one centre, of one shape, of simple models, applied twice and followed by `get_sheared` | second moments of the rounded list; the larger eigenvalue is the maximum of the quadratic form over unit vectors; explicit counterexamples with two centres and with two shapes |
| C117 | `get_sheared` and `make_round` of C24 on every model object, compared with `fill` at the changed parameters | all models fill gaussians of one shape with sizes proportional to `T`; the shear of such a gaussian (C10, C116) is one with sheared shape and size times a factor that is that of `get_sheared_g1g2T` |
| C118 | the fits of C41, C47 and C67 at parameters with the flux of each band multiplied | the mixtures of each band are multiplied (C98's lemma, any factor), so are their pixel values; the log probability is a sum of quadratics, completed to squares |
| C119 | `convolve` (C19), model fits (C41, C47, C67) `Fitter.go` (C77) and `EMFitter.go` (C48) with psf mixtures related by any chain of moves, flux factors, permutations and splits | induction over the chain: moved psfs give equal lists, split and permuted ones mixtures whose pixel values agree; fits by their pure form (C67, C77) |
| C120 | gaussian weighted moments (C75) on pixels and a weight in another unit of length | each moment of a pixel is homogeneous in the lengths, the weight function and the radius of the pixels used have no unit; both results by C75, the flags by the signs of multiplied sums |
| C121 | fits (C41, C67, C92) of bd, bdf and coellip models and of their parts, on the same observations | the mixture of each image is the union of the mixtures of the parts with multiplied fluxes (C23), also after convolution (C115) and setting norms; values add; lists assembled by band and image |
| C122 | psf flux fits (C46), galsim template fluxes (C82), gaussian weighted moments (C75) on three sets of images | the sum of squares of the templates does not read the image, the cross correlation is linear in it; the flux is their ratio; the moment sums by induction over the pixels inside the weight |
| C123 | gaussian weighted moments with six and with seventeen sums | both measurements from C75 on the same pixels; the first six moments are the same numbers, the decision differs in the variances it asks for; a pixel whose offset has a cube without real part for the violation |

## What is modelled and what is not

Modelled (each definition cites its lines): `shape.py`, `moments.py`, `jacobian/`,
`pixels/`, `flags.py`, `gmix/gmix.py`, `gmix/gmix_nb.py`,
`fastexp_nb.py`, `observation.py` (real and k-space), `runners.py`, `bootstrap.py`
and `metacal/bootstrap.py` (as functions), `fitting/leastsqbound.py`,
`fitting/results.py`, `fitting/fitters.py`, `fitting/galsim_results.py`,
`fitting/galsim_fitters.py`, `priors/priors.py`, `joint_prior.py`, `guessers.py`,
`em/`, `admom/`, `gmix_ndim/`, `priors/random.py`, `priors/kde.py`, `metacal/`, `prepsfmom.py`,
`ksigmamom.py`, `gaussmom.py`, `gaussap.py`, `simobs.py`,
`medsreaders.py` (assembly of observations).

Parameters of the model (any behaviour allowed unless a theorem's hypothesis says
otherwise): galsim drawing, interpolation and convolution; scipy's MINPACK (an
arbitrary adaptive procedure); `numpy.linalg.eig` and `inv` (where needed: `inv` is exact on finite matrices and does not turn a NaN into a finite matrix, `eig` refuses what is not finite); random generators; MEDS files.
FFTs are the exact discrete Fourier transform. LAPACK results are the exact ones.

Not modelled, and not expressible here: floating point rounding and overflow,
numba compilation, plotting (`GMixND.plot`), printing (`__repr__`; `print_pars` is C111),
the inside of scikit-learn's fit and sampling behind `GMixND` and of scipy's kernel density estimate behind `KDE`
(arbitrary functions), the inside of the file layers (fitsio, meds), speed.
Observation arrays whose memory is read-only at its owner are not modelled, nor is a caller who changes an observation
between making a metacal object from it and calling `get_all`.

## Where the code disagrees with its documentation or with itself

Each of these is a theorem (suffix `_wrong`, `_lost`, `_stale`, ... or named in the
statement of the property), or a branch of the model that shows it.

Observations
* A Jacobian kept from a writeable block can be changed after the block without the pixels following (C30).
* Results of moment and shape functions, caches and locks: see the statements C04, C13, C29–C34, C38, C41, C52–C57, C62, C63.
* `KObservation.set_psf` stores a psf before it refuses it; `make_kobs` works on the metadata dictionaries of the
  observations themselves (C79); galsim fits keep model image and errors in the metadata, so observations sharing a
  dictionary are compared with the wrong image (C80).

* `regularize_mom_shapes` changes its argument and leaves zeros for NaN centroid sums when it raises; `pars` of a moment result
  holds centroid sums that are not divided by the flux (C11, C12, C95).

Mixtures
* `make_round` leaves the stored determinant stale and does not move the centers although its docstring says so (C20).  A copy of a round model mixture is the mixture before rounding (C24_make_round).
* `get_cm_Tfactor` raises ZeroDivisionError for some `fracdev` outside [0,1] (C23).
* The model tables disagree for `cm`, `bdc`, `full`, `coellip`, and know some models by number only (C25).
* `GMixND`: `set_mixture` and `load_mixture` do not change the mixture that `sample` uses; a singular covariance leaves the
  new means with the former norms (C90).
* The documented error bound of `exp4` is wrong (C26).
* `make_galsim_object` accepts a negative definite component and silently draws it with the floor size (C86).

Fits
* Psf observations made with the same metadata dictionary share the result of the psf fit: a failed psf shows the success of
  another and its observation is kept (C36, C37).
* A fit whose first image has no psf mixture compares all images with the unconvolved mixture, while
  `get_convolved_gmix` and `make_image` convolve those images that have one (C78).
* `chi2per` counts the terms of the prior, the scaling of the covariance does not (C77); the residuals of the simple
  models overlap the last slot of the prior's (C41).
* galsim: `flux` of spergel and moffat fits is `nu`/`beta` (C81); chi squared and flux error of template fits are those
  of a template of unit sum (C82); the inherited `get_gmix`, `make_image`, `calc_lnprob` of galsim results raise; the first
  parameter is the shift in x (u), not v as elsewhere; the constructor changes metadata even when it refuses the guess.
* `PriorCoellipSame` adds a second draw of T to column 4 of its samples, and its bounds are nested lists that the minimiser
  cannot use (C43); its inherited array methods take the second size for the flux (C84).
* `PriorBDSep` and `PriorBDFSep` accept a shape prior without `get_fdiff` (`ZDisk2D`, `GPriorGauss`); `fill_fdiff` then
  raises AttributeError, so such a prior cannot be used by a least squares fit (C42).
* Priors: `FlatPrior.get_lnprob_array` returns one number, `TwoSidedErf` is negative far out if its widths differ (C83);
  `CenPrior.get_prob_array` takes one position only, `ZDisk2D` has no array of log probabilities for the joint priors,
  `get_widths` returns the stored array (C84); `LogNormal.fit` ignores the shift and retries from the same guess (C85).
* `GPriorBA`: the maximum used by `sample1d` is never renewed; after a failed `fit` the prior is at the last point tried (C94).
* `PSFFluxFitModel`: ZERO_DOF cannot occur (C46).
* ZeroDivisionError inside `calc_fdiff` is not caught (C67).

Guessers
* `BDGuesser` writes [0.4, 0.6] into the column of logTratio and leaves fracdev as drawn from the prior; fixing of guesses
  gives up after four samples, the last unchecked; `get_shape_guess` can exceed its maximum; the cached psf flux is stale
  after a failure (C62, C63).
* The R50 guesser's message says `<=`, but only negative values are refused.
* psf guessers: tables for 4 and 5 gaussians reuse an entry (fluxes sum to 1.058 of the flux), covariances can fail to be
  positive definite, the size is infinite when the measured size equals the weight's (C76).

Moments
* `GaussMom`: `pars[0:2]`, `MF` and `M00` keep the pixel area, failed results are unscaled, lists of observations raise
  AttributeError although documented, zero weight pixels raise ZeroDivisionError (C75).
* Pre-psf moments: the mask marks exact zeros only, non square psf raise IndexError, `no_psf=True` ignores a psf that is
  there, an empty image raises ZeroDivisionError (C71–C73).
- `format_pars` with a format that ends inside a conversion can return a text although the format fails on each
  parameter alone (`C111_stray`).
* Adaptive moments: the caller's guess is modified in place, MAXITER replaces any other flag, a round object is flagged,
  guesses with several gaussians only update the first (C51, C52, C69).
* `AdmomResult.make_image` is documented to include the psf but applies none, and takes the sum of all pixels, weighted
  or not, as the flux; the documented EM tolerance is 0.001, the default is 1e-5 (C88).
* EM: `prep_obs` drops the weights, a constant image is always out of range (C49, C50).
* `gaussap`: positions are ignored, zero width raises LinAlgError (C64).

Metacal, simulations
* `T_dilated` applies the ratio of lengths to T; the psf fit modifies the caller's psf observation; empty lists give None,
  TypeError or AttributeError depending on where they occur; list metadata are dropped (C53–C57, C70).
* Metacal uses the Jacobian of the psf for its axes only: a psf that is not at the centre of its stamp moves the galaxy
  (by -d, or by 2|g|d with MetacalDilatePSF), and the dilated psf leaves the centre its Jacobian gives (C102).
* `simulate_obs` ignores `noise_factor` without positive weights and drops masks, metadata and noise (C66).
* A MEDS psf image with peak zero gets infinite weights; any exception while reading an optional plane drops the plane
  silently (C87).
* With galsim caching on, metacal objects of equal images share their galsim images, and a wcs whose representation
  cannot be evaluated is refused (C89).
* `KDE.sample` returns points as rows, documented as columns (C91).
* With a psf, an EM fit that changes covariances depends on the angle of the sky axes; the convergence test of EM on the
  expected log likelihood depends on the unit of brightness (C96).
* `TruncatedGaussian.get_lnprob_array` gives minus infinity at its limits and never raises (C83).
* Adaptive moments depend on the angle of the sky axes: the shift of the centre is tested along each axis (C97).
* Which gaussian weighted moments are flagged depends on the angle of the sky axes: a component of the shape that is exactly
  zero is flagged (C99).
* `TwoSidedErf.sample` draws nothing beyond five widths from its limits; `ZDisk2D.get_lnprob_scalar1d` is not the log density
  of `ZDisk2D.sample1d` (C100).
* An EM iteration that moves centres can lower the likelihood by any amount, when a pixel with light falls beyond the five
  sigma cutoff of the fast exponential (C103).
* Masked pixels count in pre-psf moments, in EM without a starting sky and in the flux guessed for a psf; a pixel of negative
  weight counts in a psf flux (C104).
* Whether a model fit uses psfs depends on the order of the observations: the first of the first band decides (C107).
* The error estimate of exp, dev, gauss and turb fits with a prior depends on which pixel of the array comes first (C108, a
  consequence of C41).
* Weighted sums measure about the centre of the first gaussian of the weight, and whether a mixture with one unusable gaussian goes
  on raising depends on which gaussian is first (C113).
* `make_round` does not move the centres to the common mean, so mixtures with several centres do not become round, and leaves
  wrong determinants when the gaussians differ in shape (C116).
* Asking for moments of higher order can flag a gaussian weighted measurement that is good without them, and the flux and sums of
  the flagged result are then multiplied by the pixel area (C123).

## Axioms of each theorem

Printed by `#print axioms` for every theorem of `MANIFEST.json`.

* no axiom only: `C36_shared_metadata`, `C36_stale_gmix_after_failure`, `C36_wrong_type`, `C87_weight_names`.
* `propext` and `Quot.sound` only: `C33_members_typed`, `C35_calls`, `C35_ntry_nonpositive`, `C36_distinct`, `C36_no_set_result`, `C36_psf_runner_list`, `C36_psf_runner_multiband`, `C37_bootstrap_single`, `C37_kept_own_fit`, `C38_flags_distinct_bits`, `C40_dof`, `C55_later_empty`, `C55_list`, `C55_multiband`, `C66_meds_all`.
* `propext` only: `C33_append`, `C33_rejected_unchanged`, `C33_unchecked_paths`, `C34_get_mb_obs`, `C34_order_and_idempotence`, `C36_get_gmix_raises`, `C36_psf_runner_obs`, `C37_bootstrap_keep_all`, `C37_bootstrap_without_psf`, `C37_shared_metadata`, `C37_single`, `C37_unfitted`, `C38_bit31_dropped`, `C38_negative_iff`, `C55_bootstrap`, `C55_empty`, `C55_single`, `C66_meds_objects`.
* `propext`, `Classical.choice`, `Quot.sound` (real numbers are classical): the other 739 theorems of `MANIFEST.json`.
