# PyKrige in Lean 4: design of the formal model

Source modelled: `/repo/src/pykrige` (pinned commit), read as text, never executed.  Model, specification and proofs
live in `lean/Verif/`:

| directory | content |
|---|---|
| `Verif/Py.lean` | Python exceptions as values (`Py α := Except PyErr α`), indexing that raises |
| `Verif/Model/*.lean` | the code, function by function; every definition cites the file and lines it models and says where it simplifies |
| `Verif/Spec/*.lean` | small specifications that do not use the model's helpers: kriging equations, distances, drift values, best linear unbiased prediction, conditional negative definiteness, file formats as text, nearest neighbours, memory sessions |
| `Verif/Lemmas/*.lean` | lemmas (refinement of the code to the specifications, linear algebra, analysis) |
| `Verif/Examples/*.lean` | concrete data sets, objects and calls used to show that hypotheses can be met; `Objects.lean` builds one object of each class for arbitrary data values, `Use*.lean` apply the theorems to them by name |
| `Verif/Props/Cnn.lean` | the theorems of property Cnn, each accompanied by an `example` that a concrete non-trivial case meets its hypotheses |

`properties.jsonl` states the properties in English, `MANIFEST.json` maps them to theorem names, `seeded/LOG.jsonl`
records the wrong programs the theorems were tested against.

## Trusted base

* Lean 4.33.0's kernel and Mathlib's definitions.  Every theorem depends at most on the axioms `propext`,
  `Classical.choice` and `Quot.sound`.  No axiom is added; no `native_decide`, `bv_decide`; no unfinished proof.
* The reading of the Python/Cython source as Lean definitions.
* **Numbers are exact.**  Kriging works on real numbers `ℝ`, the file formats on rationals `ℚ` (every finite float is
  one) plus NaN/inf symbols where they are printed or read.  IEEE rounding is not modelled: every theorem is a statement
  "in exact arithmetic", except C78, which lets the linear algebra of `execute` have errors and shows that the exact results
  are the limit.  Where the code's behaviour hinges on NaN, inf or division by zero the model has an explicit case
  (square root of a negative variance in `_find_statistics`; log 0 at a well; infinite distances from the KD-tree when
  n_closest_points > n) or the theorem excludes it (`RangeOk`: range ≠ 0).
  Data values that are nan are a model of their own (`Model/Nan*.lean`, C77): every sum, product and mean with a nan is nan,
  also `0 * nan`; coordinates, parameters and drift values are numbers there too.
* **External code**, as definitions or as parameters with a contract that the theorems assume explicitly:
  * `scipy.linalg.inv`, `solve`, LAPACK `dgesv`: exact inverse/solution; an exception iff the determinant is 0.
  * `scipy.linalg.pinv`, `pinvh`: the Moore–Penrose inverse (four Penrose equations).
  * `scipy.optimize.least_squares`: any function that returns a point within its bounds, `ValueError` for an infeasible
    start or a lower bound not below its upper bound (`Spec.LsqSpec`). C76 also assumes that it finds a global minimum of
    the soft_l1 misfit within the bounds if there is one (`Spec.LsqOptimal`, an idealisation: scipy finds a local one;
    `Spec.bestEnv` satisfies it, so the assumption is consistent).
  * `scipy.spatial.cKDTree.query`: any procedure that returns k different nearest indices, ties broken arbitrarily, in
    any order (`Spec.KnnSpec`); k > n gives index n and infinite distance.
  * reads outside an array by the compiled loops: an arbitrary value (`Env.outOfBounds`).
  * variogram at infinite distance (k > n windows): an arbitrary value (`Env.atInfinity`).
  * custom variograms and functional drifts: arbitrary elementwise functions that may raise.
  * regression models and classifiers: arbitrary state machines with `fit`/`predict` (`Regressor`, `Classifier`);
    `sklearn`'s `OneHotEncoder`/label handling, `np.argmax` (first maximum), `scipy.linalg.helmert` and numpy
    broadcasting by their documented definition.
  * `float(text)`, `%`-formatting and `str(float)`: exact decimal reading and correctly rounded decimal printing; `str`
    of a float by the contract that reading it gives the float back (`Prints`).
* Python objects are records, methods functions from the state to outcome and state; an attribute assigned before an
  exception stays assigned (`update` returns the state also on failure).

## Which parts of the code are modelled

| source | modelled | not modelled |
|---|---|---|
| `variogram_models.py`, `lib/variogram_models.pyx` | all | – |
| `core.py` | all functions | printing; the float tie-breaker `dmax + 0.001` is modelled exactly |
| `lib/cok.pyx` | both loops, window selection, singular systems, unchecked reads | – |
| `ok.py`, `ok3d.py`, `uk.py`, `uk3d.py` | constructors, `update_variogram_model`, matrices, all `_exec_*`, `execute`, external drift lookup; reporting (`get_variogram_points`, `get_statistics`, `get_epsilon_residuals`); what `verbose` prints in constructors and updates | plots, `print_statistics`, the messages of `execute`, deprecation warnings, import of optional packages |
| `compat_gstools.py` | all | – |
| `compat.py` | `Krige`: `__init__`, `fit`, `predict`, `execute`, `get_params`/`set_params`/`clone` and a parameter search (C68); keyword dictionaries as records of optional entries | scikit-learn's own code (its protocol is modelled from its documentation) |
| `rk.py`, `ck.py` | `__init__`, `fit`, `predict`, `krige_residual`, ilr transforms, `score` with the two metrics of scikit-learn | printing |
| `kriging_tools.py` | all five functions at character level, with the file as state | `pandas`/locale effects, operating-system errors other than a missing file |

Arrays are values in `Model/OK*.lean`, `UK*.lean`; shape and dtype are modelled where behaviour depends on them (integer
query coordinates, mask shapes, integer parameter lists).  `Model/Heap*.lean` model the same code of all four classes by
reference (buffers, views, copies, in-place operations), and their refinement to the value model is proved (C44); there
the kriging matrices and right-hand sides that the code allocates and fills, the compiled loops, the k > n windows and
the drift sums of universal kriging are values, and drift callables are assumed not to write into their arguments.  Arrays of different lengths are
modelled for the constructors (C66).  Inputs that are not one-dimensional arrays of numbers (pandas objects, complex numbers,
ragged lists) are outside the model.

## Per property

"4 classes" means one theorem each for OrdinaryKriging, OrdinaryKriging3D, UniversalKriging, UniversalKriging3D, stated on
`create` followed by `execute` (the public API), not on internal functions.

| id | what is modelled | how proved | limits |
|---|---|---|---|
| C01 | `_make_variogram_parameter_list` on none/dict/list/other | case analysis over all inputs | |
| C02 | `variogram_models.py` over ℝ | exp/power inequalities, limits | |
| C03 | compiled variograms | equality of functions incl. `d = range` | |
| C04 | 4 classes, all backends and windows | last row of the kriging system | pseudo_inv=False or window (C39 shows a failure otherwise) |
| C05 | same | right-hand side at a datum is a column of the matrix | specified drift: see C24 |
| C06 | same | right-hand sides coincide | |
| C07 | same | linearity of the solve | |
| C08 | same | scaled system, scaled multipliers | pseudo_inv as C04 |
| C09 | all backends as separate functions | each equals a table of answers per point | specified drift: C24; wells: C43 |
| C10 | moving windows with arbitrary neighbour order | permutation of the system | |
| C11 | same | sub-matrix = matrix of sub-data | |
| C12, C13 | meshgrid/flatten/reshape, masks | index arithmetic on lists | |
| C14 | `execute('points')` | answers are per point | specified drift: vectorized |
| C15 | permuted data | conjugation by a permutation matrix; sums over pairs | windows without ties |
| C16 | `_adjust_for_anisotropy`; for the consequences all four constructors and `execute` | trigonometry; full turns of the angles, and with scaling 1 any angle, leave the results alone (universal kriging: turned coordinates are combinations of the old ones and constants, so the regional linear drift spans the same space; not functional drifts, which are functions of the turned coordinates) | |
| C17 | same plus execute | distances unchanged (shifts, rotations, reflections, exchange of the axes, motions of the globe); drift span unchanged, also with wells moved along and specified, external and functional drifts | windows without ties |
| C18 | lag binning | partition by increasing edges | |
| C19 | start vector and bounds; the constructors of the four classes with the pseudo-inverse | inequalities; `LsqSpec`; `C19_accepted_*` say that a data set on which a fit is possible is accepted | |
| C20 | `_krige`, `_find_statistics`, Q1/Q2/cR | induction on the data | |
| C21 | universal kriging | drift rows of the system | specified: vectorized |
| C22 | matrix assembly with threaded row counter | counter invariant, equality with ordinary kriging | |
| C23 | `_calculate_data_point_zscalars` | cell search, bilinear algebra | increasing axes (descending: witness) |
| C24 | specified drift in the loops | **false of the code**: negation with witness; exact description of what is read | partial |
| C25 | histories of update/execute | induction | wells + changed anisotropy: witness; partial |
| C26 | failed update | **false of the code**: witnesses | partial |
| C27 | variances ≥ 0 | conditional negative definiteness of all five models in ℝᵈ: integral representations of powers, Gaussian kernels as limits of positive definite power series, volumes of intersecting balls for the spherical model | near-duplicates + nugget: witness |
| C28 | optimality | quadratic form argument, from C27's definiteness | |
| C29 | solvability | strict conditional negative definiteness | |
| C30, C31 | great circle and chord distances; `C31_used` says which data a geographic moving-window call answers from | spherical trigonometry, arccos/arcsin | |
| C32, C33 | ASC writer and reader, character level | print/parse round trip; `C32_which`: exactly which grids are accepted | step > 0.005, ≥ 2×2 |
| C34 | ZMAP writer and reader, character level | same, `C34_which` | coord_sys and truncated files: witnesses |
| C35 | `Krige` | state machine, histories by induction | |
| C36 | `RegressionKriging` | composition with an arbitrary regressor | |
| C37 | ilr transform | orthonormality of the Helmert basis | |
| C38 | `ClassificationKriging` | **false of the code** for labels other than 0..k-1: witness | partial |
| C39 | pseudo-inverse; with it neither constructor nor global `execute` can meet a singular matrix, whatever the data | uniqueness and equivariance of the Moore–Penrose inverse | merging data at one place (`C39_merge_uk`, `C39_merge_uk3d`) excludes the loop backend with a specified drift, which is read at a place depending on the number of data (C24) |
| C40 | argument checks | complete case analysis of acceptance and refusal | |
| C41 | dtype of query arrays and wells | **false of the code** (Euclidean): witness | partial |
| C42 | windows larger than the data | loops raise; compiled loop: witness | partial |
| C43 | point-log drift at a well | **false of the code**: witness | partial |
| C44 | memory: buffers, views, in-place operations; all four classes: constructor, update, execute | refinement of heap programs to value programs (`Does`), invariant over sessions of calls and writes | parameter lists kept by reference: witness; partial |
| C45 | `_variogram_residuals` | calculus | |
| C46 | `validate_gstools`, constructor checks | case analysis | 2D classes accept dimension ≥ 4: witness |
| C47 | everything together | execute returns solutions of textbook equations written over the original coordinates; it only answers regular systems, so the solution is unique | |
| C48 | execute on nested data sets, windows and drift sets | optimality (C28) and embedding of weights | functional drift with anisotropy: added data within the extent (the code centres the coordinates) |
| C49 | execute, ordinary kriging | optimality against the predictor copying one datum | |
| C50 | execute with a constant variogram | the kriging equations of C47 solved; least squares by orthogonality | |
| C51 | reporting methods | C18, C20, invariants over call histories (C25) | |
| C52 | drift columns of both universal kriging classes | change of basis of the drift functions in the kriging equations, uniqueness | |
| C53 | all four classes, euclidean coordinates | both systems of equations have the same matrices (anisotropic distance is homogeneous, OtherUnit describes the variogram); universal kriging additionally by change of drift basis (log(c r) = log r + log c) | ordinary kriging: whole execute result; universal kriging: entry by entry, without pseudo-inverse, data and query not on a well |
| C54 | all four classes, moving windows, great-circle distance, external drift grid | the answer is a fixed matrix times the vector of semivariances and drift values, both continuous; the window is locally constant where distances differ | specified drift excluded (its values are given by the caller, not a function of the location) |
| C55 | OK3D vs OK (horizontal plane, vertical section), UK3D vs UK (horizontal plane) | the distances are those of the plane, everything else depends on distances only; drift blocks recombined (C52) | moving windows without ties; wells and external drift grids (not in UK3D) excluded |
| C56 | all four classes | a non-trivial solution of the homogeneous system is written down; with C29 an equivalence | exact arithmetic (in floating point a singular matrix may pass LAPACK's test) |
| C57 | `OrdinaryKriging` with geographic coordinates | the arcsine of a correlation is a covariance (derivative in r of arcsin(r t) is a Gaussian mixture of t·exp(s t²); Schur products), so the angle is conditionally negative definite; powers and exponentials by Schoenberg; the spherical model, for every range, is an overlap of sets: a point p of the unit ball with density 1/√(1-|p|²) and a height below an increasing profile of p·x (rotation invariance, Fubini, polar coordinates); then C27–C29 | the gaussian model is not claimed; negative variances proved for power exponents in (1,2) and for gaussian with range ≥ 240 degrees |
| C58 | `score` of `RegressionKriging` and `Krige`, scikit-learn's `r2_score` | sums of squares; training data by C35/C36 | masked predictions not scored |
| C59 | `ClassificationKriging.score`, `accuracy_score` | weighted counts; training data by C38 | integer labels; "1 on training data" only for labels 0, 1, 2, ...: negation proved for others |
| C60 | ordinary kriging with data on a line | the interpolation weights solve the equations of C47, uniqueness gives the rest | with exact values a query closer than 1e-10 to a datum must be at it |
| C61 | two objects, three `execute` calls | algebra on the equations of C47: subtracting the prediction of the new datum gives the old solution, unique by C47 | no moving window, no pseudo inverse; functional drifts: see C48 |
| C62 | all `execute` calls on one object | the coefficients solve the kriging system with the data values on the right-hand side; the matrix is symmetric, so the inverse moves over; one existential in front of all calls | no moving window, no pseudo inverse |
| C63 | `execute` far from the data; `LevelsOff`, `ConstantFrom` in the statement | ordinary kriging by continuity of the answer in the right-hand side, universal kriging by C62 (coefficients sum to zero); limits of the four models with a sill | no moving window (its neighbours depend on the direction), no pseudo inverse |
| C64 | sequences of objects and calls, all parts of the input disturbed at once; `VariogramsConverge` (convergence along converging distances) in the statement | the answer is inverse matrix times right-hand side (C47), both continuous in the entries; distances, centring, drift terms and built-in formulas are continuous in coordinates and parameters | no moving window (the set of neighbours jumps), no pseudo inverse; the disturbed problems are assumed to be answered; specified drift excluded |
| C65 | `_find_statistics`/`_krige` of core.py against `execute` of objects made from the data before each datum | both solve the same kriging equations (C20, uniqueness from C47) | no pseudo inverse; data at least 1e-10 apart (nearer than that `_krige` zeroes only the first match, `execute` all) |
| C66 | the four constructors with one-dimensional arrays of any lengths (`Model/Arrays.lean`: stacking, boolean masks of the bins) | a non-empty bin exists (C18), where the masks of pair distances and pair differences differ in length; equal lengths: stage by stage equal to the class model | arrays with several extended dimensions not modelled; what an object with mismatched arrays (nlags = 0) does afterwards is not modelled |
| C67 | constructors and `execute` of the four classes as step-by-step programs (`Model/Threads.lean`: one step per array made, per assignment into an array, per look at memory; generated from the definitions of `Model/Heap*.lean`), threads sharing all buffers that exist at the start, any schedule | every step of every program leaves the shared buffers alone (`Thr.Safe`), so each thread runs as it runs alone; alone it is the method of `Model/Heap*.lean` (`C67_alone`), for which C44 gives the values | arrays made during a call are private to the thread; steps are atomic; compiled loops, UK kernels and user callables are computations on values; attributes of objects are not reassigned while the threads run (`update_variogram_model` at the same time is not covered) |
| C68 | `get_params`, `set_params`, `clone` of scikit-learn's `BaseEstimator` over the named parameters of `Krige` (`Model/Sklearn.lean`), histories of calls, the table of a parameter search | the parameters are a fold of single assignments; `get_params` determines all attributes that `fit` reads, and a successful `fit` replaces the model | scikit-learn is not in the repository: its protocol is modelled from its documentation; `verbose` is left out; values passed by reference are values; negative facts (`C68_method_unchecked`, `C68_failed_set`, `C68_stale`) are proved as they are |
| C69 | `read_asc_grid(filename, footer)` with numpy's treatment of `skip_footer` (`Model/Footer.lean`): invalid lines are forgiven by their line number, then rows are dropped from the end | the rows of the longer file split into the rows above and the rows of the appended lines (`genfromtxtFooter_eq`); counting | numpy is not in the repository: `genfromtxt` is modelled from its source as known; comment lines among the first lines after the header behave as blank lines; the header must be complete before the appended lines (it is, since the original file can be read) |
| C70 | 4 classes (`C28` gives weights and variance); `Spec/Field.lean`: roughness of a field, validity of a variogram at all places, no jump at 0 | the error is a contrast of the field with variance `var`; Cauchy–Schwarz for conditionally negative forms (`cross_sq_le`); the worst field is the combination of variogram functions with the error's coefficients, and two best predictions of a smooth field agree (`IsBlue.same_smooth`); C49 for dense data | exact arithmetic, exact data (errors in the data: C64); density and sharpness for ordinary kriging only, sharpness without window; queries within 1e-10 of a datum with exact_values=True are C05 |
| C71 | `write_asc_grid`, `read_asc_grid` (`Model/Tools.lean`); a crash point is a beginning of the file (`<+:`) | lines and words of a beginning of a file are those of the file, the last one perhaps cut (`readLines_prefix`, `pySplit_prefix`); the header cannot be complete in the cut line, or no row is left; counting rows and columns against the header leaves only the last word (`C71_exact`); `C71_written` finds the last word of a written file; `C71_cut_number` shows that the cut number is really misread | buffering that reorders writes is not modelled: the file is a beginning of what was written |
| C72 | `read_zmap_grid` (`Model/Tools.lean`); the format of foreign files is specified in `Props/C72.lean` (`ZmapHead`, `ZmapBody`, `CommentsName`) | the header lines lead to one state (`zmapLoop_head`), from there the body is stored word by word (`zmapLoop_numbers`) | a comment inside the header counts as a header line and is excluded by `ZmapHead`; commas without blanks do not separate numbers (`1,2` is 12) |
| C73 | what `execute` returns (through C47); `WithinRange`, `Subadditive` in `Props/C73.lean` | two data: the difference of the weights is the difference of the two semivariances to the query over the semivariance of the data, at most one by the triangle inequality, monotonicity and subadditivity; the built-in variograms one by one; profile: C60; counterexample computed | three and more data off a line: weights may be negative also with these variograms, nothing is claimed |
| C74 | `Model/Race.lean`, `Race3`, `RaceUK`, `RaceUK3`: the states between the assignments of `update_variogram_model` (`OK.updateSteps`), `execute` with the state seen at each moment of reading (`OK.executeSeen`) | `C74_steps` ties the list of states to `OK.update`; agreement of all attributes read, for every state of the list; `C74_iteration*`, `C74_prefix*` by the loop over the points; counterexample (`OrdinaryKriging`) computed | one state per moment of reading (matrix, adjustment, rest, one loop iteration): finer interleavings are not modelled, they make no difference to `C74_same` since all states agree in every attribute read |
| C75 | the four `execute` functions and constructors (as for C28) | the error variance of any weights is linear in the variogram, and non-negative for the valid difference; minimum over weights (C28); Chebyshev's inequality for the sum of squared weights | moving window: only where no two data are equally far from the location |
| C76 | `experimentalVariogram`, `lsqProblem`, `calculateVariogramModel`, `initializeVariogramModel`, the constructors and (unit of length) `execute` of the four classes | the residuals in another unit are those of rescaled parameters, so best parameters correspond; an exact fit has misfit 0; a line through two lags is unique; `makeVariogramParameterList` undoes the sill; the unit of the values: four data on a line, stationary points of the convex soft_l1 misfit computed for two units (`C76_value_unit_false`) | assumes `LsqOptimal` where it says "best" |
| C77 | `Model/Nan*.lean`: values `Option ℝ` (nan = `none`); `_initialize_variogram_model`, `_krige`, `_find_statistics`, constructors and all backends of the four classes with such values | simulation: each nan function is related to the one on numbers (`PyRel`), results agree where no nan enters the sum and are nan otherwise; classes as in C18 over pairs with an optional half squared difference | window not larger than the data set |
| C78 | `Model/Inexact*.lean`: `execute` of the four classes, all backends and windows, over arbitrary routines `Arith` (inv, pinv, pinvh, solve, dgesv, inner product); kriging matrix and right-hand sides exact | limits pushed through every step of each backend (`PyLim`); the one-machine form by contradiction from a sequence of machines; exact routines give `execute` itself | window not larger than the data set; rounding in distances, variogram values, drifts and the fit is not covered |
| C79 | `read_zmap_grid` (`Model/Tools.lean`, `np.empty` = `env.fresh`), files as in C72, cut anywhere | words and lines of a prefix (`zfields_prefix`, `readLines_prefix`), state without a size (`NoSize`) for cuts in the header; `zmapStore_eq` for cuts in the body | partial: false of the code (`C79_not_noticed`, `C79_memory`); every cut is covered by `C79_cut_partial` |
| C80 | `execute` of the four classes without moving window; `Spec/Sums.lean`: mean squared error of a combination, unbiased weights, best prediction | weights that predict nothing are orthogonal to the best weights (`IsBlue.orthogonal`, from C28 by scaling), so combinations of best weights are best; the bound by convexity of the quadratic form on data and places together (`quad_withPlaces`) | moving windows excluded: different windows use different data; error variance bound needs the joint table of data and places to be valid, shown for built-in models away from the data |
| C81 | `read_asc_grid`, `read_zmap_grid` (`Model/Tools.lean`), `int()`, `float()`, `str.split` (`Model/Text.lean`); `Spec/Numbers.lean`: grammar of numbers with their values, words and rows of a text | the readers' functions are characterised by the grammar (`parseFloat_iff`, `parseInt_iff`, `Words.pySplit`, `RowText.genRow`), then C33 and C72 | underscores in numbers and blanks other than space, tab, newline, return are not modelled; values are the exact decimal values, not the nearest double |
| C82 | the constructors and `update_variogram_model` transcribed a second time with every `print` (`Model/Verbose.lean`): output lines and result; `Spec/Verbose.lean`: labelled numbers, which numbers describe which curve; `Props/C82Messages.lean`: all lines of text of a successful call | one walk through each function, stage by stage; the index reads of the report never raise because accepted or fitted parameter lists have the right length | `LsqSpec` for the verbose call; plotting, the line `Plotting Enabled` and the way `print` writes a number are not modelled |
| C83 | constructors, `update_variogram_model` and `execute` of the four classes | equations between the call with any value of the inapplicable argument and the call without it, by walking through the function up to where the argument is read; for histories an invariant (geographic coordinates unmoved, no specified drift) | the warning uk.py:1269 prints for superfluous arrays is not modelled; `len()` of an argument that is no list is assumed to exist (a number would raise `TypeError` there). Unexpected: a misspelt drift term is silently ignored (`C83_terms_uk`) |
| C84 | constructors, `update_variogram_model` and `execute` of the four classes; `pinvh` reads the lower triangle only (`scipyPinvh`) | every kriging matrix is symmetric in every state, so both routines give the same matrix; simulation between the two objects over the sequence of calls | both constructor calls are assumed to succeed (statistics may refuse a singular system) |

## Behaviour of the code that a user would not expect (each proved)

C19 constant data and equal lags cannot be fitted; C23 descending external-drift axes; C24 specified drift with 'loop';
C25 wells after an anisotropy update; C26 failed updates; C27 negative variances at duplicates with nugget; C32/C33 single
row/column grids, wide values; C34 coord_sys, truncated files; C35 one-element anisotropy tuples, specified drift, fewer
than ten data; C36 failed fit; C38 labels, single class, one-dimensional targets; C39 pinv loses unbiasedness for an
invalid variogram; C41 integer query coordinates; C42 compiled window loop; C43 queries at wells; C44 parameter lists;
C46 GSTools models of dimension ≥ 4; C57 negative variances on the sphere (power exponent > 1, long-ranged gaussian),
singular opposite pairs; C66 nlags=0 lets arrays of different lengths through; C68 set_params checks no values and is not atomic; C69
footer does not count blank or comment lines; C71 a file cut in its last number is read; C72 a blank line ends a ZMAP file, missing numbers are not noticed; C79 the same for files that were cut short: the missing cells are uninitialised memory and a cut number is read as another number; C59 perfect classification of labels 1, ..., c scores 0; C74 torn results of an update during
execute; C76 the automatic fit, and with it the estimates, depend on the unit of the values (soft_l1), and variogram_model_parameters fed back as a list is
another variogram for models with a sill; C77 one nan among the values makes every estimate nan without a warning, and distance classes with a nan pair
silently leave the fit.

## Testing the theorems

`seeded/LOG.jsonl`: one line per wrong program (an edit of a model definition), with the claim it breaks and the theorems
or lemmas whose proofs failed.  Edits that no theorem noticed led to tightened theorems or are explained (equivalent
programs).
