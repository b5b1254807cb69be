{"id": "C01", "title": "Variogram parameters mean the same in every accepted format", "statement": "For the models with a sill, passing variogram_parameters as the list [sill, range, nugget], as {'sill','range','nugget'} or as {'psill': sill-nugget,'range','nugget'} configures the same variogram; a dict that holds both 'sill' and 'psill' follows 'sill'; for linear and power the list and the dict agree; None leaves the parameters to be fitted; a missing key is a KeyError, a wrong list length a ValueError, a dict for 'custom' or a non-list/dict a TypeError, an unknown model a ValueError.", "quantifier": "every model name, every parameter list or dictionary and every real parameter value", "why_tests_cant": "Tests check a handful of literals; the claim is an equality over all parameter values and a complete case split over malformed inputs.", "anchors": ["src/pykrige/core.py:_make_variogram_parameter_list"]}
{"id": "C02", "title": "Built-in variograms start at the nugget, grow with distance and stop at the sill", "statement": "With non-negative partial sill/slope/scale and positive range (exponent > 0), every built-in model returns the nugget at distance 0; linear, power, gaussian, exponential and spherical never decrease with distance; gaussian, exponential and spherical stay in [nugget, sill] and tend to the sill; spherical equals the sill from the range on, gaussian/exponential have reached at least 95% of the partial sill there; hole-effect stays within [nugget, nugget + psill*(1+exp(-2))] and exceeds the sill exactly beyond range/3.", "quantifier": "all admissible parameters and all distances >= 0", "why_tests_cant": "Monotonicity and bounds are statements over a continuum of distances and parameters.", "anchors": ["src/pykrige/variogram_models.py"]}
{"id": "C03", "title": "The compiled variograms agree with the Python ones", "statement": "For linear, power, gaussian, exponential and spherical the function used by backend='C' returns the same value as the Python function for every parameter vector with non-zero range and every distance (including distance = range, where the two branch differently); for hole-effect and custom variograms backend='C' raises NotImplementedError and returns nothing.", "quantifier": "all parameters, all distances, all vector lengths", "why_tests_cant": "The two implementations use different branch boundaries and loops; agreement must hold at every point including the boundary.", "anchors": ["src/pykrige/lib/variogram_models.pyx", "src/pykrige/variogram_models.py", "src/pykrige/lib/cok.pyx"]}
{"id": "C04", "title": "Ordinary kriging is unbiased", "statement": "Whenever ordinary or universal kriging returns a value (pseudo_inv=False, or any moving window), the weights it gives the data sum to 1: if all data values equal c every visible estimate is c, and adding c to all data values (also when the variogram is fitted automatically) adds c to every estimate and leaves every variance and the mask unchanged.", "quantifier": "all data sets, query points, variogram functions, 2D/3D, euclidean/geographic, exact_values on or off, every backend, moving window or not", "why_tests_cant": "The weights are implicit in a matrix solve; tests can only sample data sets.", "anchors": ["src/pykrige/ok.py:OrdinaryKriging.execute", "src/pykrige/ok3d.py:OrdinaryKriging3D.execute", "src/pykrige/lib/cok.pyx"]}
{"id": "C05", "title": "Kriging honours the data at data locations", "statement": "With exact_values=True (and pseudo_inv=False, or a moving window), evaluating at the coordinates of a data point whose distance to every other data point exceeds 1e-10 returns exactly that point's value with variance 0, for any variogram, for ordinary and universal kriging, whenever execute returns at all (for a specified drift: backend 'vectorized' and the drift value of that datum passed in).", "quantifier": "all data sets, all variogram functions (also with nugget), all data points, all drifts, all backends", "why_tests_cant": "Must hold for every data configuration and variogram; tests check a few.", "anchors": ["src/pykrige/ok.py:OrdinaryKriging._exec_loop", "src/pykrige/ok.py:OrdinaryKriging._exec_vector", "src/pykrige/uk.py:UniversalKriging._exec_vector", "src/pykrige/ok3d.py", "src/pykrige/uk3d.py", "src/pykrige/lib/cok.pyx:check_b_vect"]}
{"id": "C06", "title": "exact_values only matters where a query coincides with a datum and there is a nugget", "statement": "If the variogram is 0 at distance 0 and every query-to-datum distance is either 0 or greater than 1e-10, exact_values=True and False return the same estimates and variances; and for any variogram they return the same at every query point farther than 1e-10 from all data.", "quantifier": "all data, queries, variograms, backends", "why_tests_cant": "Equality of two code paths over all inputs.", "anchors": ["src/pykrige/ok.py:OrdinaryKriging._exec_loop", "src/pykrige/ok.py:OrdinaryKriging._exec_vector"]}
{"id": "C07", "title": "Estimates are linear in the data values and variances do not depend on them", "statement": "With given variogram parameters, kriging a*z1+b*z2 returns a*(estimate from z1)+b*(estimate from z2) at every point, and the variance is the same for all data values at the same locations.", "quantifier": "all locations, value vectors, scalars, query points, classes and backends", "why_tests_cant": "Universally quantified algebraic law.", "anchors": ["src/pykrige/ok.py:OrdinaryKriging.execute", "src/pykrige/uk.py:UniversalKriging.execute"]}
{"id": "C08", "title": "Rescaling the variogram rescales only the variance", "statement": "Multiplying the variogram by c > 0 (sill/slope/scale and nugget times c, or a custom callable times c) leaves every estimate unchanged and multiplies every variance by c, provided pseudo_inv=False or a moving window is used.", "quantifier": "all data, queries, variograms, c > 0", "why_tests_cant": "Universally quantified algebraic law through a matrix inverse.", "anchors": ["src/pykrige/ok.py:OrdinaryKriging._get_kriging_matrix", "src/pykrige/ok.py:OrdinaryKriging._exec_loop"]}
{"id": "C09", "title": "All backends return the same answer", "statement": "For every problem the backends accept, 'vectorized', 'loop' and 'C' return the same estimates, variances and mask, and agree on success or failure: ordinary kriging 2D (with and without moving window) and 3D; universal kriging 2D and 3D without specified drift (see C24). For 2D universal kriging success may differ in two ways only: 'loop' fails where a visible query point is on a point-log well (see C43), 'vectorized' fails where the external drift grid does not cover a masked cell.", "quantifier": "all data, queries, masks, variograms, flags", "why_tests_cant": "Two or three separate implementations must agree on every input.", "anchors": ["src/pykrige/ok.py:OrdinaryKriging._exec_vector", "src/pykrige/ok.py:OrdinaryKriging._exec_loop", "src/pykrige/lib/cok.pyx:_c_exec_loop", "src/pykrige/uk.py:UniversalKriging._exec_vector", "src/pykrige/uk.py:UniversalKriging._exec_loop", "src/pykrige/ok3d.py", "src/pykrige/uk3d.py"]}
{"id": "C10", "title": "A moving window holding every datum is ordinary kriging", "statement": "With n_closest_points equal to the number of data, whatever global kriging (pseudo_inv=False) returns the moving window returns too, and conversely when at least one point is visible, whatever order the neighbour search returns the points in; two neighbour searches that select the same data lead to the same result; the Python and C moving-window loops agree for every window size.", "quantifier": "all data, queries, variograms and all neighbour orderings", "why_tests_cant": "The neighbour order is chosen by an external KD-tree; the claim covers every order.", "anchors": ["src/pykrige/ok.py:OrdinaryKriging._exec_loop_moving_window", "src/pykrige/ok3d.py:OrdinaryKriging3D._exec_loop_moving_window", "src/pykrige/lib/cok.pyx:_c_exec_loop_moving_window"]}
{"id": "C11", "title": "A moving window krige uses its neighbours and nothing else", "statement": "The moving-window estimate and variance at a point equal what global ordinary kriging would return from only the selected data points with the same variogram; the values and locations of all other data have no effect.", "quantifier": "all data, windows, queries", "why_tests_cant": "Non-interference over all values of the unselected data.", "anchors": ["src/pykrige/ok.py:OrdinaryKriging._exec_loop_moving_window", "src/pykrige/lib/cok.pyx:_c_exec_loop_moving_window"]}
{"id": "C12", "title": "Grid output is indexed [y, x] (2D) and [z, y, x] (3D)", "statement": "execute('grid', xs, ys) returns arrays of shape (len(ys), len(xs)) whose entry [j, i] is what execute('points', [xs[i]], [ys[j]]) returns; in 3D the shape is (len(zs), len(ys), len(xs)) and entry [k, j, i] is the result at (xs[i], ys[j], zs[k]).", "quantifier": "all grids of all sizes, all classes, backends", "why_tests_cant": "Index arithmetic of meshgrid/flatten/reshape must be right for every size.", "anchors": ["src/pykrige/ok.py:OrdinaryKriging.execute", "src/pykrige/ok3d.py:OrdinaryKriging3D.execute", "src/pykrige/uk.py:UniversalKriging.execute", "src/pykrige/uk3d.py:UniversalKriging3D.execute"]}
{"id": "C13", "title": "Masks hide exactly the requested cells and change nothing else", "statement": "execute('masked', xs, ys, mask) masks exactly the cells where mask is True and returns at the others what 'grid' returns; a mask of shape (nx, ny) != (ny, nx) is accepted and read transposed (3D: first and last axis swapped); any other shape is a ValueError and a missing mask an IOError.", "quantifier": "all masks, grid sizes, backends and classes", "why_tests_cant": "2^(n*m) masks; must hold for all.", "anchors": ["src/pykrige/ok.py:OrdinaryKriging.execute", "src/pykrige/ok3d.py:OrdinaryKriging3D.execute"]}
{"id": "C14", "title": "The answer at a point does not depend on which other points are asked for", "statement": "Splitting, concatenating, permuting or repeating the query points of execute('points', ...) splits, concatenates, permutes or repeats the results (with per-point values of a specified drift carried along, backend='vectorized', see C24).", "quantifier": "all lists of query points, all classes and backends", "why_tests_cant": "Relates unboundedly many different calls.", "anchors": ["src/pykrige/ok.py:OrdinaryKriging.execute", "src/pykrige/uk.py:UniversalKriging.execute"]}
{"id": "C15", "title": "The order of the data does not matter", "statement": "Permuting the data points (coordinates, values and specified drift values together) changes neither estimates nor variances, nor the experimental variogram, for ordinary and universal kriging (with a moving window: if no tie in distance decides who is in the window). The fit statistics depend on the order by definition (C20).", "quantifier": "all data sets, all permutations, all queries", "why_tests_cant": "n! orders for every data set.", "anchors": ["src/pykrige/ok.py:OrdinaryKriging", "src/pykrige/core.py:_initialize_variogram_model"]}
{"id": "C16", "title": "Anisotropy correction rotates then stretches distances, and nothing else", "statement": "The distance used between two points is sqrt(u^2 + (s v)^2) (3D: sqrt(u^2+(sy v)^2+(sz w)^2)) where (u,v[,w]) is their difference in the rotated frame; it does not depend on the centre; with scaling 1 it is the plain distance for every angle; angles are periodic mod 360; scaling 1 and angle 0 leave coordinates unchanged. Hence full turns of the angles change no result of any kriging class, and with scaling 1 no angle does (universal kriging: without functional drifts).", "quantifier": "all points, centres, scalings, angles, 2D and 3D", "why_tests_cant": "Trigonometric identities over all real angles.", "anchors": ["src/pykrige/core.py:_adjust_for_anisotropy"]}
{"id": "C17", "title": "Predictions follow the data under translations, rotations and reflections", "statement": "Shifting data and query points by a common vector, or rotating or reflecting both (with the anisotropy direction turned along), exchanging the roles of x and y included, changes neither estimates nor variances; on the sphere, any rotation or reflection of the globe, and other coordinates of the same places (longitudes wrapped datum by datum, any longitude at a pole); universal kriging is invariant too, wells moved along, specified drifts unchanged, external and functional drifts taking the same values at the moved places (with a moving window: if no tie in distance decides who is in the window).", "quantifier": "all data, shifts, angles, queries", "why_tests_cant": "Relates pairs of executions over all inputs.", "anchors": ["src/pykrige/ok.py:OrdinaryKriging.__init__", "src/pykrige/ok.py:OrdinaryKriging.execute", "src/pykrige/core.py:_adjust_for_anisotropy"]}
{"id": "C18", "title": "The experimental variogram bins every pair exactly once", "statement": "Each of the n(n-1)/2 pair distances falls into exactly one of the nlags bins; empty bins are dropped; the reported lags are strictly increasing, at most nlags many, between the smallest and largest distance; semivariances are >= 0; the count-weighted mean of the semivariances is the mean of half squared differences over all pairs. A data set with fewer than two points is rejected.", "quantifier": "all data sets, all nlags >= 1, euclidean and geographic, any rounding of interior bin edges", "why_tests_cant": "Partition property over all real distance multisets.", "anchors": ["src/pykrige/core.py:_initialize_variogram_model"]}
{"id": "C19", "title": "The automatic fit starts from a feasible guess and returns parameters within bounds", "statement": "If not all semivariances are 0 (and, for linear/power, there are two different lags; for the other models the largest lag is positive; with weight=True two different lags) the start vector lies within the bounds handed to least_squares and every lower bound is below its upper bound; the fitted parameters are non-negative, the power exponent is in [0.001,1.999], nugget <= largest semivariance, range <= largest lag. If all semivariances are 0 (constant data), or for linear/power all lags are equal, the fit is rejected with a ValueError. A constructor of any of the four classes, called without variogram parameters and with pseudo_inv=True (or, for OrdinaryKriging, without fit statistics), accepts every data set on which the fit is possible.", "quantifier": "all experimental variograms and all built-in models", "why_tests_cant": "Feasibility must hold for every experimental variogram.", "anchors": ["src/pykrige/core.py:_calculate_variogram_model"]}
{"id": "C20", "title": "Variogram-fit statistics are well formed and causal", "statement": "delta, sigma and epsilon have equal length <= n-1, sigma > 1e-10 entrywise and epsilon = delta/sigma; appending data never changes the entries produced by the earlier points; Q1 = |sum eps|/(m-1) >= 0, Q2 = sum eps^2/(m-1) >= 0 and cR = Q2 * geometric mean of sigma^2 >= 0 for m >= 2; the i-th residual is y_i minus the ordinary kriging estimate from the first i points.", "quantifier": "all data sequences, variograms, coordinate types", "why_tests_cant": "Prefix-stability over all extensions of all sequences.", "anchors": ["src/pykrige/core.py:_find_statistics", "src/pykrige/core.py:_krige", "src/pykrige/core.py:calcQ1", "src/pykrige/core.py:calcQ2", "src/pykrige/core.py:calc_cR"]}
{"id": "C21", "title": "Universal kriging reproduces its drift", "statement": "If the data values are an exact linear combination of a constant and the drift terms (regional linear, point-log, external Z, functional and, with backend='vectorized', specified), every estimate equals the same combination of the drift values at the query point; in particular with regional_linear any affine function of the original coordinates is reproduced, under any anisotropy.", "quantifier": "all data, drifts, coefficients, queries, variograms", "why_tests_cant": "Implicit in the linear system; universally quantified.", "anchors": ["src/pykrige/uk.py:UniversalKriging._get_kriging_matrix", "src/pykrige/uk.py:UniversalKriging._exec_vector", "src/pykrige/uk3d.py"]}
{"id": "C22", "title": "Universal kriging without drift terms is ordinary kriging", "statement": "With no drift terms UniversalKriging and OrdinaryKriging (and their 3D versions) return the same estimates, variances and errors; the drift bookkeeping always fills exactly the allotted rows, so the 'Kriging may fail' warnings are never issued.", "quantifier": "all data, queries, variograms, drift combinations", "why_tests_cant": "Equality of two implementations on all inputs.", "anchors": ["src/pykrige/uk.py:UniversalKriging._get_kriging_matrix", "src/pykrige/ok.py:OrdinaryKriging._get_kriging_matrix"]}
{"id": "C23", "title": "External drift is interpolated bilinearly inside the grid and refused outside", "statement": "With strictly increasing grid axes the external drift at a point is the bilinear interpolant of the enclosing cell: equal to the node value at nodes, between the smallest and largest of the corner values, exact for functions a+bx+cy+dxy; a point outside the grid's bounding box raises ValueError; a (nx, ny) grid with nx != ny is accepted transposed.", "quantifier": "all grids with increasing axes, all values and all query points", "why_tests_cant": "All cells, nodes, edges and sizes.", "anchors": ["src/pykrige/uk.py:UniversalKriging._calculate_data_point_zscalars", "src/pykrige/uk.py:UniversalKriging.__init__"]}
{"id": "C24", "title": "Specified drift works the same with backend='loop' as with 'vectorized'", "statement": "With 'specified' drift terms, execute(..., backend='loop') returns the same estimates and variances as backend='vectorized' (2D and 3D).", "quantifier": "all data, drift arrays, queries", "why_tests_cant": "Equality over all inputs (the code violates it: the loop indexes the drift array with the row number of the system, not with the point number).", "anchors": ["src/pykrige/uk.py:UniversalKriging._exec_loop", "src/pykrige/uk3d.py:UniversalKriging3D._exec_loop"]}
{"id": "C25", "title": "update_variogram_model is equivalent to constructing afresh", "statement": "After any history of successful update_variogram_model and execute calls, the object predicts exactly like one newly constructed with the arguments of the last update.", "quantifier": "all data sets and all finite histories of updates and executes", "why_tests_cant": "Histories are unbounded; tests cover one or two steps (for UniversalKriging with point_log drift the code violates it: well coordinates keep the old anisotropy frame).", "anchors": ["src/pykrige/ok.py:OrdinaryKriging.update_variogram_model", "src/pykrige/uk.py:UniversalKriging.update_variogram_model", "src/pykrige/ok3d.py", "src/pykrige/uk3d.py"]}
{"id": "C26", "title": "A failed update leaves the object as it was", "statement": "If update_variogram_model raises, later execute calls return what they would have returned before the failed call.", "quantifier": "all states and all rejected arguments", "why_tests_cant": "Crash points inside a mutating method (the code violates it: function and anisotropy are assigned before the parameters are validated).", "anchors": ["src/pykrige/ok.py:OrdinaryKriging.update_variogram_model", "src/pykrige/core.py:_make_variogram_parameter_list"]}
{"id": "C27", "title": "Kriging variances are never negative", "statement": "For the linear, power (0<exponent<2), gaussian, exponential and spherical models with non-negative psill/slope/scale and nugget and positive range, given or fitted, every variance returned in Euclidean 2D and 3D (any anisotropy) is >= 0; likewise for any custom variogram that is conditionally negative definite on the data plus the query point. (With exact_values=True and a nugget the code violates this at duplicated data locations and at queries within 1e-10 of a datum but not on it.)", "quantifier": "all data configurations, queries and admissible parameters", "why_tests_cant": "Non-negativity over a continuum of configurations of any size is a positive-definiteness theorem, not a test.", "anchors": ["src/pykrige/ok.py:OrdinaryKriging._exec_loop", "src/pykrige/variogram_models.py"]}
{"id": "C28", "title": "Kriging returns the best linear unbiased predictor", "statement": "Among all weights summing to 1 (and, for universal kriging, reproducing the drift at the query point) the weights used minimise the estimation variance 2*sum w_i g_i0 - sum w_i w_j g_ij, and the returned variance is that minimum, for every conditionally negative definite variogram.", "quantifier": "all data, queries, competing weights", "why_tests_cant": "Optimality over an infinite set of competitors.", "anchors": ["src/pykrige/ok.py:OrdinaryKriging._exec_loop", "src/pykrige/uk.py:UniversalKriging._exec_loop"]}
{"id": "C29", "title": "Kriging systems of valid models are solvable", "statement": "For pairwise distinct adjusted data locations and linear, power, gaussian, exponential or spherical models with positive slope/scale/psill, the ordinary kriging matrix is invertible, so execute never fails with a singular matrix; with a positive nugget it is invertible even with repeated locations.", "quantifier": "all numbers and configurations of data points, all admissible parameters", "why_tests_cant": "Strict positive definiteness for all configurations.", "anchors": ["src/pykrige/ok.py:OrdinaryKriging._get_kriging_matrix"]}
{"id": "C30", "title": "Great-circle distance is a distance in degrees on the sphere", "statement": "great_circle_distance is symmetric, 0 from a point to itself, in [0, 180], unchanged when longitudes shift by 360 or both by the same amount, equals the angle between the two unit vectors, satisfies the triangle inequality, and is 180 for antipodes.", "quantifier": "all longitudes and latitudes", "why_tests_cant": "Trigonometric identities over all reals.", "anchors": ["src/pykrige/core.py:great_circle_distance"]}
{"id": "C31", "title": "Nearest neighbours found in 3D chord space are nearest on the sphere", "statement": "For geographic moving windows, ranking data by the Euclidean distance of their unit vectors is ranking by great-circle distance; euclid3_to_great_circle maps the chord to the great-circle distance and clips chords above 2.", "quantifier": "all pairs of points on the sphere", "why_tests_cant": "Monotone correspondence over a continuum.", "anchors": ["src/pykrige/ok.py:OrdinaryKriging.execute", "src/pykrige/core.py:euclid3_to_great_circle"]}
{"id": "C32", "title": "ASC grids survive writing and reading", "statement": "read_asc_grid after write_asc_grid (style 1 or 2) returns the grid in the original orientation with every value, cell size, origin and no-data value rounded to two decimals, for every grid with >= 2 rows and columns, regular axes with step > 0.005, whose formatted values (but for the last column) are shorter than 16 characters; wider values run together and are refused. write_asc_grid accepts exactly the axes whose mean step is close (1e-8 + 1e-5 of it) to the first step - interior irregularities are not noticed - and style 2 only if moreover the two first steps are equal; otherwise it raises ValueError and does not touch the file.", "quantifier": "all grid sizes and values", "why_tests_cant": "All sizes and values; field-width overflow and rounding are corner cases tests miss.", "anchors": ["src/pykrige/kriging_tools.py:write_asc_grid", "src/pykrige/kriging_tools.py:read_asc_grid"]}
{"id": "C33", "title": "ASC headers may come in any order and letter case", "statement": "For the header fields of either style, any permutation of the header lines and any capitalisation of the keywords yields the same grid, coordinates, cell size and no-data value; an unknown keyword is an IOError; a body whose size disagrees with NCOLS/NROWS is an IOError, and so is every body of a single row or a single column.", "quantifier": "all permutations, all capitalisations, all bodies", "why_tests_cant": "Combinatorially many headers.", "anchors": ["src/pykrige/kriging_tools.py:read_asc_grid"]}
{"id": "C34", "title": "ZMAP grids survive writing and reading", "statement": "read_zmap_grid after write_zmap_grid returns the same orientation and node count, values rounded as printed (4 decimals below 1e6, 8 significant digits above), NaN/masked as no_data; no two printed fields run together; the coordinate system string comes back; a truncated file is refused.", "quantifier": "all grids and values", "why_tests_cant": "All sizes/values (two clauses are violated by the code: coord_sys gains a blank and is cut at ':', and a short body is accepted with uninitialised cells).", "anchors": ["src/pykrige/kriging_tools.py:write_zmap_grid", "src/pykrige/kriging_tools.py:read_zmap_grid", "src/pykrige/kriging_tools.py:space_back_to_front"]}
{"id": "C35", "title": "The scikit-learn wrapper forwards faithfully", "statement": "Krige.fit constructs the kriging class of its method with exactly the stored settings (3D scalings/angles mapped in order), predict equals that object's execute at the given points, n_closest_points is used only by ordinary kriging, predicting before fitting raises, points of the wrong dimension raise ValueError, refitting forgets the earlier fit, a failed fit leaves the earlier one in place. Anisotropy tuples that are too short are refused, specified drifts cannot be used, and the default window of ten refuses to predict from fewer than ten data.", "quantifier": "all settings, all methods, all data, all fit/predict histories", "why_tests_cant": "All combinations and histories.", "anchors": ["src/pykrige/compat.py:Krige"]}
{"id": "C36", "title": "Regression kriging is regression plus kriged residual", "statement": "RegressionKriging.predict(p, x) = regression prediction at p + kriged training residual at x, for every regression model; at a training point (exact_values, distinct locations, same predictors) it returns the training target exactly. If the kriging part of a fit fails, the new regression is left combined with the residuals of the earlier fit.", "quantifier": "all regression models, data, queries", "why_tests_cant": "Quantifies over all models and data.", "anchors": ["src/pykrige/rk.py:RegressionKriging"]}
{"id": "C37", "title": "The ilr transform is invertible", "statement": "inverse_ilr_transformation(ilr_transformation(p)) = p/sum(p) for every composition with entries >= machine epsilon, ilr_transformation(inverse_ilr_transformation(v)) = v up to the eps floor, outputs of closure are positive and sum to 1, and ilr is unchanged by scaling the composition.", "quantifier": "all dimensions, all compositions, all real vectors", "why_tests_cant": "All dimensions and values.", "anchors": ["src/pykrige/ck.py:ilr_transformation", "src/pykrige/ck.py:inverse_ilr_transformation", "src/pykrige/ck.py:closure"]}
{"id": "C38", "title": "Classification kriging returns the training class at training points", "statement": "With exact residual kriging, ClassificationKriging.predict at a training point returns the label of its training class.", "quantifier": "all classifiers, class sets and data", "why_tests_cant": "All classifiers; (the code returns the position of the class in classes_, not the label; with a single class it never predicts; one-dimensional targets are refused).", "anchors": ["src/pykrige/ck.py:ClassificationKriging"]}
{"id": "C39", "title": "Pseudo-inverse kriging agrees where the inverse exists and averages redundant points", "statement": "With pseudo_inv=True (global kriging) a constructor given a model with admissible parameters, and every well-posed execute, succeed wherever the data are; results equal those with pseudo_inv=False whenever the latter returns; data points at the same location (with equal specified drift) receive equal weights, so with given variogram parameters estimates depend only on the mean of their values, and merging them into one datum with the mean value changes nothing.", "quantifier": "all data, duplicates, queries", "why_tests_cant": "All configurations.", "anchors": ["src/pykrige/core.py:P_INV", "src/pykrige/ok.py:OrdinaryKriging._exec_vector"]}
{"id": "C40", "title": "Invalid requests are refused, valid ones are not", "statement": "execute raises ValueError (IOError for a missing mask) for an unknown style, unknown backend, n_closest_points <= 1 (2D), mismatched points lengths (2D and 3D), wrong mask shape; the constructor for an unknown model, coordinate type, pseudo inverse type, non-boolean exact_values, custom model without callable or parameters; otherwise it returns a result unless the system is singular.", "quantifier": "all argument combinations", "why_tests_cant": "Complete decision table over all arguments.", "anchors": ["src/pykrige/ok.py", "src/pykrige/ok3d.py", "src/pykrige/uk.py", "src/pykrige/uk3d.py", "src/pykrige/core.py"]}
{"id": "C41", "title": "Integer query coordinates behave like the equal floats", "statement": "execute with integer coordinate arrays returns the same as with the equal float arrays; UniversalKriging with integer well locations (point_drift) is the same as with the equal floats.", "quantifier": "all integer query coordinates and wells, classes and coordinate types", "why_tests_cant": "Violated by the code for euclidean coordinates: the in-place centre subtraction cannot cast float to int and raises.", "anchors": ["src/pykrige/core.py:_adjust_for_anisotropy", "src/pykrige/ok.py:OrdinaryKriging.execute"]}
{"id": "C42", "title": "A moving window larger than the data set is refused", "statement": "If n_closest_points exceeds the number of data points, execute raises instead of returning numbers.", "quantifier": "all data sets and window sizes, backends loop and C", "why_tests_cant": "Depends on out-of-range indices; the C loop has bounds checks off and reads outside the data array.", "anchors": ["src/pykrige/ok.py:OrdinaryKriging.execute", "src/pykrige/lib/cok.pyx:_c_exec_loop_moving_window"]}
{"id": "C43", "title": "Point-log drift at a well location does not depend on the backend", "statement": "Evaluating universal kriging with point_log drift exactly at a well returns the same with backend 'loop' as with 'vectorized'.", "quantifier": "all wells, data, queries", "why_tests_cant": "Violated: the loop backend assigns into a numpy scalar and raises TypeError.", "anchors": ["src/pykrige/uk.py:UniversalKriging._exec_loop"]}
{"id": "C44", "title": "execute has no side effects", "statement": "Between two update calls, any sequence of execute calls with any arguments, failing or not, leaves every later execute result unchanged; no call modifies the arrays the caller passed in, nothing the caller later writes into them (or into returned arrays) changes any later result, and every result is new memory. (Lists given as variogram_parameters of linear, power and custom models are kept by reference, and later writes to them do change results.)", "quantifier": "all histories of calls", "why_tests_cant": "Unbounded histories and aliasing.", "anchors": ["src/pykrige/ok.py:OrdinaryKriging.execute", "src/pykrige/ok3d.py:OrdinaryKriging3D.execute", "src/pykrige/uk.py:UniversalKriging.execute", "src/pykrige/uk3d.py:UniversalKriging3D.execute", "src/pykrige/core.py:_adjust_for_anisotropy"]}
{"id": "C45", "title": "Lag weights in the automatic fit are a decreasing probability vector", "statement": "With weight=True the residual weights are positive, sum to 1, decrease with lag, are half their logistic ceiling at 70% of the lag span; with weight=False the residual is model minus data.", "quantifier": "all lag vectors with at least two different lags", "why_tests_cant": "All lag vectors.", "anchors": ["src/pykrige/core.py:_variogram_residuals"]}
{"id": "C46", "title": "GSTools models are accepted exactly when supported", "statement": "A GSTools model is used iff GSTools is installed with version >= 1.3 (>= 1.4 for latlon), it is a CovModel, its dimension fits the class (1-2 for 2D, 3 or more for 3D) and latlon models are only used with geographic ordinary kriging; then its variogram, anisotropy and angles replace the user's.", "quantifier": "all versions, models and classes", "why_tests_cant": "Complete decision table.", "anchors": ["src/pykrige/compat_gstools.py:validate_gstools", "src/pykrige/ok.py:OrdinaryKriging.__init__", "src/pykrige/uk.py", "src/pykrige/ok3d.py", "src/pykrige/uk3d.py"]}
{"id": "C47", "title": "execute solves the textbook kriging equations", "statement": "Every number execute returns without pseudo-inverse is the estimate, respectively variance, of a solution of the kriging equations written with the documented variogram formula of the requested model, the (anisotropic or great-circle) distances of the original coordinates and the requested drift terms; with a moving window the equations of the k data nearest to the query point. That solution is the only one: whoever solves these equations finds the numbers execute returns.", "quantifier": "all data sets, queries, built-in models, parameters, classes, backends, anisotropies and drift combinations", "why_tests_cant": "The equations are a specification over all real inputs; a test compares with numbers from the same code or another program.", "anchors": ["src/pykrige/ok.py:OrdinaryKriging.execute", "src/pykrige/uk.py:UniversalKriging.execute", "src/pykrige/ok3d.py:OrdinaryKriging3D.execute", "src/pykrige/uk3d.py:UniversalKriging3D.execute"]}
{"id": "C48", "title": "More information never increases the variance", "statement": "With a valid (conditionally negative definite) variogram fixed by the user: adding data, whatever their values, or replacing a moving window by a larger one (when no two data are equally far) or by all data, does not increase the variance execute reports at a location; adding drift terms, or using universal instead of ordinary kriging, does not decrease it. (Functional drift with an anisotropy: the added data lie within the extent of the old.)", "quantifier": "all data sets and supersets, all values of the added data, all windows, drift sets, queries, backends", "why_tests_cant": "Relates results on two data sets of unbounded size; no finite sample of pairs settles monotonicity.", "anchors": ["src/pykrige/ok.py:OrdinaryKriging.execute", "src/pykrige/ok3d.py:OrdinaryKriging3D.execute", "src/pykrige/uk.py:UniversalKriging.execute", "src/pykrige/uk3d.py:UniversalKriging3D.execute"]}
{"id": "C49", "title": "The variance is at most twice the semivariance to any datum", "statement": "Ordinary kriging (2D, 3D) with a valid variogram: the variance execute reports at a location is at most twice the variogram at the distance to each datum - with all data, and with a moving window also for the data outside it when the variogram does not decrease (every built-in model with admissible parameters).", "quantifier": "all data sets, locations, valid variograms, windows and backends", "why_tests_cant": "A bound over all inputs.", "anchors": ["src/pykrige/ok.py:OrdinaryKriging.execute", "src/pykrige/ok3d.py:OrdinaryKriging3D.execute"]}
{"id": "C50", "title": "Without spatial correlation kriging is the mean, respectively least squares", "statement": "With a pure nugget variogram c > 0, at a location away from the data, ordinary kriging returns the arithmetic mean of the n data it uses with variance c(1+1/n) (the window's data with a moving window); universal kriging returns the value of the ordinary least squares trend at the location, with variance c(1+sum of squared weights).", "quantifier": "all data sets, locations away from data, drift terms, windows, backends", "why_tests_cant": "Identity with a minimiser over all real coefficients, for all inputs.", "anchors": ["src/pykrige/ok.py:OrdinaryKriging.execute", "src/pykrige/ok3d.py:OrdinaryKriging3D.execute", "src/pykrige/uk.py:UniversalKriging.execute", "src/pykrige/uk3d.py:UniversalKriging3D.execute"]}
{"id": "C51", "title": "The reporting methods describe the variogram in use", "statement": "get_variogram_points (2D classes) returns the mean distances of the lag bins and, at each of them, the variogram execute uses; get_epsilon_residuals and get_statistics return the standardised residuals of predicting each datum from those before it and their Q1, Q2, cR under that variogram (None for OrdinaryKriging constructed without enable_statistics). After any history of calls, a successful update and any execute calls, the reports are those of an object newly constructed with the settings of the update (with statistics).", "quantifier": "all data sets, variograms, anisotropies and call histories", "why_tests_cant": "Unbounded histories and all inputs.", "anchors": ["src/pykrige/ok.py:OrdinaryKriging.get_variogram_points", "src/pykrige/ok.py:OrdinaryKriging.get_statistics", "src/pykrige/ok.py:OrdinaryKriging.get_epsilon_residuals", "src/pykrige/uk.py:UniversalKriging.get_variogram_points", "src/pykrige/ok3d.py:OrdinaryKriging3D.get_statistics", "src/pykrige/uk3d.py:UniversalKriging3D.get_statistics"]}
{"id": "C52", "title": "Universal kriging depends on drift terms only through the trends they span", "statement": "If two sets of drift arguments (regional linear, wells, external grid, specified arrays, functions) take values at the data and at the query point that are linear combinations of each other and constants, the two objects return the same estimate and variance there. In particular each drift may be given in other units (a*v+b, a != 0: external grid values, specified arrays, functions; well strengths times a factor), and a regional linear drift is the functional drift by the coordinates.", "quantifier": "all data sets, drift arguments, recombinations, query points, backends", "why_tests_cant": "Quantifies over all pairs of equivalent drift descriptions.", "anchors": ["src/pykrige/uk.py:UniversalKriging.__init__", "src/pykrige/uk.py:UniversalKriging.execute", "src/pykrige/uk3d.py:UniversalKriging3D.execute"]}
{"id": "C53", "title": "Changing the unit of length changes nothing", "statement": "Multiplying all data coordinates, wells, external grid axes and query coordinates by c > 0 while giving the variogram in the new unit (range times c, linear slope divided by c, power scale divided by c^exponent; custom functions and functional drifts composed with the change of unit) leaves every estimate and variance unchanged. Caveats of the code: with exact values the test 'at a datum' uses an absolute 1e-10, and a point exactly on a well gets the absolute drift value -100.", "quantifier": "all data sets, units c > 0, variograms, anisotropies, windows without ties, drift arguments, query points, backends", "why_tests_cant": "Quantifies over all data sets and units.", "anchors": ["src/pykrige/ok.py:OrdinaryKriging.execute", "src/pykrige/ok3d.py:OrdinaryKriging3D.execute", "src/pykrige/uk.py:UniversalKriging.execute", "src/pykrige/uk3d.py:UniversalKriging3D.execute"]}
{"id": "C54", "title": "Estimates and variances vary continuously with the location", "statement": "With a continuous variogram (every built-in model, nugget included) the estimate and variance execute returns are continuous functions of the query location: for every location p and eps there is a delta such that any two calls, at p and at a location within delta of p, return numbers closer than eps - for universal kriging with continuous drift functions, away from wells, with an external drift grid (its interpolation is continuous), and with a moving window wherever no two data are equally far from p. With exact values p must not be at distance exactly 1e-10 from a datum.", "quantifier": "all data sets, locations, variograms, classes, backends, grids", "why_tests_cant": "Continuity quantifies over all neighbourhoods of all points.", "anchors": ["src/pykrige/ok.py:OrdinaryKriging.execute", "src/pykrige/ok3d.py:OrdinaryKriging3D.execute", "src/pykrige/uk.py:UniversalKriging.execute", "src/pykrige/uk.py:UniversalKriging._calculate_data_point_zscalars", "src/pykrige/uk3d.py:UniversalKriging3D.execute"]}
{"id": "C55", "title": "Three-dimensional kriging of data in a plane is two-dimensional kriging", "statement": "If all data and query points lie in one horizontal plane z = z0 (any vertical anisotropy scaling) or in one vertical section y = y0, OrdinaryKriging3D finds the same experimental variogram, fitted parameters and statistics and returns the same estimates and variances as OrdinaryKriging in that plane with the same variogram and anisotropy, for points, grids with one level and masks, with and without moving window. UniversalKriging3D on a horizontal plane agrees with UniversalKriging when the linear trend in x and y is given as functional drifts (its own regional_linear has a z term, which data in a plane cannot identify, see C56).", "quantifier": "all data sets, plane positions, variograms (given or fitted), anisotropies, scalings across the plane, query sets", "why_tests_cant": "Identity between two classes for all inputs.", "anchors": ["src/pykrige/ok3d.py:OrdinaryKriging3D.__init__", "src/pykrige/ok3d.py:OrdinaryKriging3D.execute", "src/pykrige/ok.py:OrdinaryKriging.execute", "src/pykrige/uk3d.py:UniversalKriging3D.execute", "src/pykrige/core.py:_adjust_for_anisotropy"]}
{"id": "C56", "title": "Problems without a unique solution are refused, not answered", "statement": "Without pseudo_inv, execute never returns numbers when the kriging equations do not determine the weights (in exact arithmetic): two data at the same place under a variogram with zero nugget (globally, or inside a moving window holding both); drift terms that are linearly dependent on the data - as many or more terms than data, regional_linear with all data on one line (2D) or in one plane (3D), whatever the anisotropy. For the valid variogram models linear independence of the drift terms on the data is also sufficient: a well-posed universal kriging request is answered if and only if it holds.", "quantifier": "all data sets, variograms, drift arguments, anisotropies, requests", "why_tests_cant": "Quantifies over all degenerate configurations.", "anchors": ["src/pykrige/ok.py:OrdinaryKriging.execute", "src/pykrige/ok3d.py:OrdinaryKriging3D.execute", "src/pykrige/uk.py:UniversalKriging._get_kriging_matrix", "src/pykrige/uk.py:UniversalKriging.execute", "src/pykrige/uk3d.py:UniversalKriging3D._get_kriging_matrix", "src/pykrige/uk3d.py:UniversalKriging3D.execute"]}
{"id": "C57", "title": "Geographic coordinates: which variograms are safe on the sphere", "statement": "With coordinates_type='geographic' and the linear, exponential or spherical model, or the power model with exponent at most 1 (admissible parameters, given or - all but power - fitted), execute returns the best linear unbiased predictor for great-circle distances, its kriging variances are never negative (at locations that are clear of the 1e-10 coincidence rule, see C27), and constructor and execute never meet a singular matrix if the nugget is positive, or the model grows, the places are different and (models proportional to the distance) no two data are opposite each other. The restrictions are needed: the power model with any exponent between 1 and 2, and the gaussian model with a long range, return negative variances for data at right angles on a meridian circle; two pairs of opposite data make the linear model singular.", "quantifier": "all longitudes and latitudes (wrapped or not, poles included), data values, parameters, requests, moving windows, backends", "why_tests_cant": "Quantifies over all configurations on the sphere; validity of a covariance model is a statement about every finite point set.", "anchors": ["src/pykrige/core.py:great_circle_distance", "src/pykrige/ok.py:OrdinaryKriging.__init__", "src/pykrige/ok.py:OrdinaryKriging.execute", "src/pykrige/variogram_models.py"]}
{"id": "C58", "title": "The score of a regression is the coefficient of determination of its predictions", "statement": "score of RegressionKriging and of Krige (two or more samples, positive sample weights or none) is at most 1 and is 1 if and only if every prediction equals its target; if the targets differ it is 1 - (weighted squared errors)/(weighted squared deviations from the weighted mean), if they do not differ and some prediction is wrong it is 0. On its own training data (in the plane and in space) it is exactly 1 wherever kriging honours its data (C05) - whatever the regression model. It raises what predict raises, and ValueError if the numbers of targets and predictions differ; a single sample gives nan.", "quantifier": "all regression models, training sets, query sets, targets, weights", "why_tests_cant": "Bounds and characterisation of equality for all real vectors and models.", "anchors": ["src/pykrige/rk.py:RegressionKriging.score", "src/pykrige/compat.py:Krige"]}
{"id": "C59", "title": "The score of a classification is the fraction of samples classified rightly", "statement": "score of ClassificationKriging is the weighted fraction of samples for which predict returns the label; it lies in [0,1], is 1 if and only if all and 0 if and only if none are right. On its own training data, where kriging honours the data (C05), it is 1. (The last clause fails for labels other than 0,1,2,...: predict returns the position of the class, so that on training labels 1..c a perfect classification scores 0.)", "quantifier": "all classifiers with integer labels, training sets, query sets, weights", "why_tests_cant": "For all classifiers, data sets and weights.", "anchors": ["src/pykrige/ck.py:ClassificationKriging.score", "src/pykrige/ck.py:ClassificationKriging.predict"]}
{"id": "C60", "title": "Along a profile the linear variogram interpolates linearly", "statement": "With a linear variogram of slope b and zero nugget, when all data and the query point lie on one straight line (any anisotropy) or on one meridian (geographic coordinates), ordinary kriging returns the linear interpolation between the two neighbouring data, with variance 2b(t-t0)(t1-t)/(t1-t0), and beyond the first or last datum the value of that datum with variance 2b times the distance to it; with a moving window the neighbours are those in the window.", "quantifier": "all positions of data and query on a line in the plane or in space or on a meridian, data values, slopes, anisotropies, windows, backends", "why_tests_cant": "Closed form for all data sets on a line.", "anchors": ["src/pykrige/ok.py:OrdinaryKriging.execute", "src/pykrige/ok3d.py:OrdinaryKriging3D.execute", "src/pykrige/variogram_models.py:linear_variogram_model", "src/pykrige/core.py:great_circle_distance"]}
{"id": "C61", "title": "What one more datum changes", "statement": "If one datum (p, zp) is added, the variogram staying the same, there is at every location q a weight c - the one the new datum gets - such that the estimate changes by c(zp - est(p)) and the variance decreases by c^2 var(p), where est(p) and var(p) are the prediction at p from the other data. In particular a datum equal to its prediction changes no estimate anywhere.", "quantifier": "all data sets, added data, locations, variograms (valid or not), classes, drift terms, backends", "why_tests_cant": "Identity between three calls on two objects for all inputs.", "anchors": ["src/pykrige/ok.py:OrdinaryKriging.execute", "src/pykrige/ok3d.py:OrdinaryKriging3D.execute", "src/pykrige/uk.py:UniversalKriging.execute", "src/pykrige/uk3d.py:UniversalKriging3D.execute"]}
{"id": "C62", "title": "All estimates of one object are values of one function", "statement": "For every kriging object (no moving window, no pseudo inverse) there are coefficients, one per datum, for the constant and for each drift term, fixed by the data alone, such that every estimate execute returns, in whatever call, style and backend, is constant + drift combination at the query + sum of the coefficients times the semivariances to the data. The data coefficients sum to zero and are orthogonal to the drift terms, and the same combination gives the data values. Hence estimates never depend on which other points were queried, in which call or in which order.", "quantifier": "all data sets, variograms (valid or not), arguments, and all queries of all calls", "why_tests_cant": "One set of coefficients for infinitely many queries.", "anchors": ["src/pykrige/ok.py:OrdinaryKriging.execute", "src/pykrige/ok3d.py:OrdinaryKriging3D.execute", "src/pykrige/uk.py:UniversalKriging.execute", "src/pykrige/uk3d.py:UniversalKriging3D.execute"]}
{"id": "C63", "title": "Far from the data: the mean, or the fitted trend", "statement": "If the variogram levels off at sigma, the ordinary kriging estimates far away from all data tend to the best estimate of the mean (the same for all directions) and the variances to sigma plus the variance of that estimate; universal kriging tends to the fitted trend. Beyond the range of a spherical variogram this holds exactly. gaussian, spherical, exponential and hole-effect models level off at partial sill + nugget.", "quantifier": "all data sets, variograms that level off, parameters with range > 0, query locations, classes, drift terms, backends", "why_tests_cant": "A statement about limits: infinitely many locations, arbitrarily far away.", "anchors": ["src/pykrige/ok.py:OrdinaryKriging.execute", "src/pykrige/ok3d.py:OrdinaryKriging3D.execute", "src/pykrige/uk.py:UniversalKriging.execute", "src/pykrige/uk3d.py:UniversalKriging3D.execute", "src/pykrige/variogram_models.py"]}
{"id": "C64", "title": "Small errors in the input make small errors in the output", "statement": "If data coordinates, data values, variogram (its parameters, or the function), anisotropy and query location all converge to those of a problem that execute answers, then estimates and variances converge to those of that problem (no moving window; with exact_values the query must not lie exactly on the 1e-10 threshold around a datum; drift terms must vary continuously). The built-in variograms converge when their parameters do, also where distance and range cross.", "quantifier": "all sequences of data sets, values, variograms, parameters, anisotropies, queries, all four classes, backends, calling styles", "why_tests_cant": "A statement about limits of infinitely many inputs.", "anchors": ["src/pykrige/ok.py:OrdinaryKriging.execute", "src/pykrige/ok3d.py:OrdinaryKriging3D.execute", "src/pykrige/uk.py:UniversalKriging.execute", "src/pykrige/uk3d.py:UniversalKriging3D.execute", "src/pykrige/variogram_models.py"]}
{"id": "C65", "title": "The fit statistics are prediction errors of execute", "statement": "The residuals, standard deviations and standardised residuals an object reports (delta, sigma, epsilon, hence Q1, Q2, cR) are those of the predictions execute makes for each datum with an object built from the data before it in the order given, with the same variogram and anisotropy and without drift (also for the universal classes: the statistics ignore the drift terms). The second datum, for which there is no such object, is predicted by the first with twice the semivariance.", "quantifier": "all data sets (no two data closer than 1e-10), variograms, anisotropies, classes, backends and styles of the comparison calls", "why_tests_cant": "Relates two separate implementations for all data sets and all prefixes.", "anchors": ["src/pykrige/core.py:_find_statistics", "src/pykrige/core.py:_krige", "src/pykrige/ok.py:OrdinaryKriging.execute", "src/pykrige/uk.py:UniversalKriging.execute"]}
{"id": "C66", "title": "Arrays of different lengths are refused", "statement": "A constructor called with one-dimensional arrays of coordinates and values that do not all have the same length raises, whatever the other arguments (provided nlags is positive; with nlags = 0 nothing compares the number of values with the number of coordinates); called with arrays of one length it gives the object the other properties speak about, or the error of that construction.", "quantifier": "all arrays of all lengths, all constructor arguments, all four classes", "why_tests_cant": "All lengths and all contents: whether the mismatch is noticed depends on which bins of the variogram are empty.", "anchors": ["src/pykrige/ok.py:OrdinaryKriging.__init__", "src/pykrige/ok3d.py:OrdinaryKriging3D.__init__", "src/pykrige/uk.py:UniversalKriging.__init__", "src/pykrige/uk3d.py:UniversalKriging3D.__init__", "src/pykrige/core.py:_initialize_variogram_model"]}
{"id": "C67", "title": "Threads that krige at the same time do not disturb each other", "statement": "Any number of threads of one process call execute on kriging objects, and build objects and call execute, all at the same time; objects, data arrays, query arrays, masks and parameter lists may be shared between them. Whatever the interleaving of their array operations: every call returns (or raises) exactly what it would return alone; nothing that existed before is modified; the arrays returned are the thread's own; and every thread that is given enough steps finishes.", "quantifier": "all numbers of threads, lists of calls, objects, arguments (all four classes and backends), memory contents and all interleavings", "why_tests_cant": "A statement about all schedules: a race shows up in a test only by luck.", "anchors": ["src/pykrige/ok.py:OrdinaryKriging.execute", "src/pykrige/ok3d.py:OrdinaryKriging3D.execute", "src/pykrige/uk.py:UniversalKriging.execute", "src/pykrige/uk3d.py:UniversalKriging3D.execute", "src/pykrige/core.py:_adjust_for_anisotropy"]}
{"id": "C68", "title": "Krige parameters: get_params, set_params, clone and parameter search", "statement": "get_params lists every documented parameter once, with the value given last (by set_params in any calls since, else by the constructor, else the documented default). What fit does, and everything after a successful fit, depends only on those values and the data - not on how or in which order they were given, nor on earlier fits, predictions or failed calls. clone gives an object with the same parameters and none of the training. Hence every entry of the table of a parameter search (clone, set_params, fit, score) is the score of a new object with the candidate's parameters, and the refitted best object behaves like such an object. set_params checks names but no values (a method the constructor refuses is accepted and fit then raises KeyError), keeps what it assigned before an unknown name, and does not touch the fitted model: predictions stay those of the last fit unless the method or the window was changed.", "quantifier": "all keyword settings, histories of fit/predict/score/get_params/set_params calls (failing ones included), candidate lists and divisions of the data", "why_tests_cant": "A statement about all histories and all combinations of parameters; tests run one grid search on one data set.", "anchors": ["src/pykrige/compat.py:Krige.__init__", "src/pykrige/compat.py:Krige.fit", "src/pykrige/compat.py:Krige.predict", "src/pykrige/compat.py:validate_method"]}
{"id": "C69", "title": "Lines after an ASC grid", "statement": "Take any ASC file that read_asc_grid reads and append any lines. If every appended line has a word on it (outside a comment), reading the longer file with footer = the number of appended lines gives exactly the grid, coordinates, cell size and no-data value of the original file, whatever the lines say - also when they look like rows of the grid. With any other lines and any other footer the longer file is either refused or read as the original file: a wrong footer never gives a wrong grid. Unannounced lines with words are refused. Blank lines and comment lines do not count: if footer counts one of them, the file is refused, although the documentation says footer is the number of lines to skip.", "quantifier": "all readable files, all lists of appended lines, all integers footer", "why_tests_cant": "Tests read one file without a footer; whether a wrong count can silently shift the grid depends on every possible footer text.", "anchors": ["src/pykrige/kriging_tools.py:read_asc_grid"]}
{"id": "C70", "title": "The variance bounds the error, and dense data give the truth", "statement": "Measure the roughness of a field by the variogram: f has roughness at most E if the square of every contrast of its values (coefficients of sum zero) is at most E times the variance the variogram gives to that contrast. If the data are exact values of such a field (universal kriging: plus any combination of the drift terms), then at every query that is not within 1e-10 of a datum (or with exact_values=False) the squared error of the estimate is at most E times the returned variance, for every layout of the data and every moving window. No smaller bound is possible: for every layout and query (all data, no nugget) some field of roughness E = var is missed by exactly var. Hence for ordinary kriging without nugget the estimates converge to the field where the data become dense: for every accuracy there is a distance, the same for all data sets of any size, such that a datum within that distance suffices. Combinations of variogram functions around fixed places are such fields.", "quantifier": "all fields, data layouts of any size, variograms, queries, windows, backends, accuracies", "why_tests_cant": "Quantifies over fields and over all data layouts of unbounded size; a test can only sample a few.", "anchors": ["src/pykrige/ok.py:OrdinaryKriging.execute", "src/pykrige/ok3d.py:OrdinaryKriging3D.execute", "src/pykrige/uk.py:UniversalKriging.execute", "src/pykrige/uk3d.py:UniversalKriging3D.execute"]}
{"id": "C71", "title": "ASC files that end too early", "statement": "If writing an ASC grid is interrupted at any point (crash, full disk), or a readable ASC file is cut at any character, then reading what is left raises an error, or returns the same coordinates, cell size, no-data value and grid except perhaps for one number, the last one of the file (right end of the row at the bottom). It raises exactly if the last number has not begun: a written file that lacks its last field of 16 characters or more is refused, in the header as well as in the body. If the cut goes through the last number, what is left of it is returned without complaint (1.75 as 1.7; undefined if what is left is not a number); behind the last number a cut does no harm.", "quantifier": "all readable ASC files of any size, written by write_asc_grid or by hand; all crash points (all beginnings of the file)", "why_tests_cant": "Quantifies over all files and all crash points; a test tries a few.", "anchors": ["src/pykrige/kriging_tools.py:write_asc_grid", "src/pykrige/kriging_tools.py:read_asc_grid"]}
{"id": "C72", "title": "ZMAP files of other programs", "statement": "For every ZMAP file with comments (first word beginning with !), a header (a line beginning with @, the line with the no-data value, the line with rows, columns and extent, any further lines, a line beginning with @) and a body of words: what read_zmap_grid returns or raises depends only on the header values and the sequence of words of the body, not on how they are distributed over lines, nor on comments before the header and inside the body, nor on a newline at the end. As many numbers as announced fill the grid column by column, each column from the last row to the first; x, y and the cell sizes divide the extent evenly; no-data value and coordinate system are those of the header (the text between the first two colons of the last comment naming one). More numbers than announced raise IndexError, words that are no numbers raise. A blank line ends the file. Fewer numbers are not noticed: the missing cells hold whatever the memory held.", "quantifier": "all headers, grid sizes, numbers, layouts of the body in lines, comments", "why_tests_cant": "Quantifies over all files and layouts; a test reads a few files, mostly written by the library itself.", "anchors": ["src/pykrige/kriging_tools.py:read_zmap_grid"]}
{"id": "C73", "title": "Estimates between two data, and the range of the data", "statement": "If ordinary kriging uses two data (all there are, without pseudo-inverse, or a moving window of two) and the variogram never decreases and is subadditive (built-in: linear, spherical, exponential, and power with exponent at most one, nonnegative parameters, with or without nugget), then every estimate lies between the two values, whatever the positions, anisotropy, geographic coordinates, exact_values and backend (with exact_values, a query within 1e-10 of a datum must be at it). Along a profile with the linear variogram without nugget the same holds for any number of data: the estimate lies between the smallest and the largest value of the data used. It does not hold for every valid variogram: with the power variogram of exponent 3/2 two measurements 0 and 1 give the estimate sqrt 2.", "quantifier": "all pairs of data, data sets and windows, positions, parameters, queries", "why_tests_cant": "Quantifies over all data, parameters and queries; a test finds no overshoot on a sample and proves nothing about the rest.", "anchors": ["src/pykrige/ok.py:OrdinaryKriging.execute", "src/pykrige/ok3d.py:OrdinaryKriging3D.execute", "src/pykrige/variogram_models.py"]}
{"id": "C74", "title": "execute while another thread updates the variogram", "statement": "One thread calls execute, another update_variogram_model on the same object (OrdinaryKriging, OrdinaryKriging3D, UniversalKriging or UniversalKriging3D), without a lock; execute sees, at each of its moments of reading (kriging matrix, query adjustment, distances and vectorized or C loop, every iteration of the Python loops), some state between the assignments of the update. If the update repeats the settings the object was constructed with, execute returns the same numbers or exception as without the update, under every interleaving. If all reads come before the first or all after the last assignment, it returns what it returns before or after the update. Each iteration of the loops over the points reads anew: its prediction depends on the states seen up to the loop and in that iteration only, and if the update begins during the loop of the loop backend, the points already done keep their numbers. In general it need not return either: with the update between the kriging matrix and the right-hand sides it returns a negative variance, without any exception (data at distance 1, linear variogram, slope 1 changed to 1/10: before 2, after 1/5, in between -41/200). So calls that change the variogram need a lock.", "quantifier": "all data, settings, queries, backends, windows, and all interleavings of the reads of execute with the assignments of the update", "why_tests_cant": "Quantifies over all schedules; a test runs a few and cannot force the interleaving.", "anchors": ["src/pykrige/ok.py:OrdinaryKriging.execute", "src/pykrige/ok.py:OrdinaryKriging.update_variogram_model", "src/pykrige/ok3d.py:OrdinaryKriging3D.update_variogram_model", "src/pykrige/uk.py:UniversalKriging.update_variogram_model", "src/pykrige/uk3d.py:UniversalKriging3D.update_variogram_model"]}
{"id": "C75", "title": "A rougher variogram never gives a smaller variance; the nugget is a lower bound", "statement": "If the variogram of one object is that of another plus a valid (conditionally negative definite) variogram - for the linear, power, gaussian, exponential and spherical models: slope, scale or partial sill and nugget not smaller, range or exponent the same - then at every location the variance it reports is not smaller (same data locations, drift terms and anisotropy; data values arbitrary; with a moving window, no two data equally far). Away from the data, and with exact_values=False everywhere, the variance is at least nugget*(1+1/k), k the number of data used (all, or the window).", "quantifier": "all data configurations, variogram pairs, locations, four classes, backends and windows", "why_tests_cant": "inequality over all data layouts and all pairs of variograms", "anchors": ["src/pykrige/ok.py:OrdinaryKriging.execute", "src/pykrige/ok3d.py:OrdinaryKriging3D.execute", "src/pykrige/uk.py:UniversalKriging.execute", "src/pykrige/uk3d.py:UniversalKriging3D.execute", "src/pykrige/variogram_models.py"]}
{"id": "C76", "title": "The automatic fit", "statement": "variogram_parameters=None with a built-in model: if best parameters (bounds of C19, smallest total soft_l1 misfit to the experimental variogram, with the documented lag weights if weight=True) exist, the object uses best ones; a variogram of the family that goes through every experimental point exactly is matched exactly, and a line is recovered exactly by the linear model; constructing again with the fitted parameters given explicitly (sill = partial sill + nugget) gives the same object; with a unique best fit, the coordinates multiplied by c > 0 give the range multiplied by c (slope divided by c, scale by c^exponent) and the same answers. NOT true: with values multiplied by c the estimates need not be multiplied by c (soft_l1 has an absolute scale); variogram_model_parameters fed back as a list is a different variogram for the models with a sill (nugget subtracted again).", "quantifier": "all data, built-in models, lags, weights, four classes, all units of length, all optimal minimisers", "why_tests_cant": "the minimiser is external; the statements are about every data set and every unit", "anchors": ["src/pykrige/core.py:_initialize_variogram_model", "src/pykrige/core.py:_calculate_variogram_model", "src/pykrige/core.py:_variogram_residuals", "src/pykrige/core.py:_make_variogram_parameter_list", "src/pykrige/ok.py:OrdinaryKriging.__init__", "src/pykrige/ok3d.py:OrdinaryKriging3D.__init__", "src/pykrige/uk.py:UniversalKriging.__init__", "src/pykrige/uk3d.py:UniversalKriging3D.__init__"]}
{"id": "C77", "title": "Missing values (nan) among the data", "statement": "Data values may be nan (positions are numbers). Without nans nothing changes. With the variogram parameters given, whether the constructor accepts, the parameters and the variances of the fit statistics do not depend on the values, nan or not; a residual of the statistics is nan exactly if its value or an earlier one is, otherwise it is what it is with any numbers in place of the nans. Without a moving window one nan makes every visible estimate nan, while shape, masks, variances and exceptions are those of an object with any other values; with a moving window an estimate is nan exactly if one of the window's values is, otherwise it is the estimate with any numbers in place of the nans. The experimental variogram drops, without notice, every distance class that contains a pair with a nan and keeps the others unchanged (classes are formed as usual); the automatic fit uses what is left, with bounds computed from it, and with at most one number the constructor refuses.", "quantifier": "all data sets with any pattern of nans, settings, queries, masks, backends and windows, four classes", "why_tests_cant": "nan spreads through sums over all data; the statement is about every pattern of nans and every query", "anchors": ["src/pykrige/core.py:_initialize_variogram_model", "src/pykrige/core.py:_krige", "src/pykrige/core.py:_find_statistics", "src/pykrige/ok.py:OrdinaryKriging.execute", "src/pykrige/ok3d.py:OrdinaryKriging3D.execute", "src/pykrige/uk.py:UniversalKriging.execute", "src/pykrige/uk3d.py:UniversalKriging3D.execute", "src/pykrige/lib/cok.pyx:_c_exec_loop_moving_window"]}
{"id": "C78", "title": "Exact results are what accurate machines approach", "statement": "Let the inverses, pseudo-inverses, solutions of linear systems, matrix products and sums of execute be computed with errors. If execute returns results in exact arithmetic (with a moving window not larger than the data set), then with linear algebra of growing accuracy execute returns in the end, with the same shape and the same masked entries, and every estimate and variance tends to the exact one; for every object, request and eps > 0 there is an accuracy such that every machine of that accuracy, however it errs within it and on ill-conditioned systems, returns results within eps of the exact ones. With exact routines they are the exact results.", "quantifier": "all objects, requests, backends and masks of the four classes, all linear algebra routines of the given accuracy, all eps > 0", "why_tests_cant": "a test sees one machine and compares with a tolerance; the statement is about every accuracy and every pattern of rounding errors", "anchors": ["src/pykrige/ok.py:OrdinaryKriging.execute", "src/pykrige/ok3d.py:OrdinaryKriging3D.execute", "src/pykrige/uk.py:UniversalKriging.execute", "src/pykrige/uk3d.py:UniversalKriging3D.execute", "src/pykrige/lib/cok.pyx:_c_exec_loop", "src/pykrige/lib/cok.pyx:_c_exec_loop_moving_window"]}
{"id": "C79", "title": "ZMAP files that end too early", "statement": "A ZMAP file that was cut short (interrupted write_zmap_grid, full disk, interrupted copy) is not taken by read_zmap_grid for a grid with other values: it is refused, or what is returned is what the whole file contains. (True of the code only for files that end before the sixth word of the size line; later cuts are read: the numbers that are there, the last one perhaps cut, the rest of the grid uninitialised memory.)", "quantifier": "all ZMAP files with any header, comments and body, all points at which they end, all contents of memory", "why_tests_cant": "every byte of every file is a crash point, and the missing cells show whatever the allocator returns", "anchors": ["src/pykrige/kriging_tools.py:read_zmap_grid", "src/pykrige/kriging_tools.py:write_zmap_grid"]}
{"id": "C80", "title": "Sums, means and differences of estimates", "statement": "Without a moving window, adding up returned estimates with any coefficients (the mean of a grid, a total, the difference between two places) gives the best linear unbiased prediction of the same combination of the unknown values: no other unbiased weighting of the data has a smaller mean squared error. For a mean (coefficients not negative, summing to one) at places that are not data and a built-in variogram model in its validity range, that mean squared error is not negative and not larger than the same mean of the returned variances. For OrdinaryKriging, OrdinaryKriging3D, UniversalKriging and UniversalKriging3D.", "quantifier": "all data, variograms with a conditionally negative definite matrix, drifts, finite sets of prediction places (of any size) and all coefficients", "why_tests_cant": "optimality is over all weightings of the data and must hold for every set of places and coefficients", "anchors": ["src/pykrige/ok.py:OrdinaryKriging.execute", "src/pykrige/ok3d.py:OrdinaryKriging3D.execute", "src/pykrige/uk.py:UniversalKriging.execute", "src/pykrige/uk3d.py:UniversalKriging3D.execute"]}
{"id": "C81", "title": "Numbers and words in grid files of other programs", "statement": "read_asc_grid and read_zmap_grid give grid files of other programs their meaning: numbers may have a sign, a decimal point before, between or after digits, a power of ten with e or E, or be nan/inf/infinity in any letter case; words are separated by any blanks. ASC: header entries in any order, letter case and layout, body with blank lines and comments beginning with #; the result is the numbers, top row of the file last, with coordinates of the cell centres (half a cell added for corners, none for centres), cell size and no-data value; words of the body that are not numbers become nan; a header value that is not a number (or not an integer for ncols and nrows) is refused with ValueError. ZMAP: commas do not count, comments may stand between the numbers; the numbers fill the columns from the last row to the first; surplus numbers and words that are no numbers are refused.", "quantifier": "all ASC and ZMAP files of the format, all notations of numbers, all layouts, all grid sizes from 2 x 2", "why_tests_cant": "the notations and layouts other programs use are unbounded; tests read a handful of files", "anchors": ["src/pykrige/kriging_tools.py:read_asc_grid", "src/pykrige/kriging_tools.py:read_zmap_grid"]}
{"id": "C82", "title": "Verbose output", "statement": "verbose=True changes nothing but what is printed: constructors and update_variogram_model return, raise and leave behind exactly what they do with verbose=False, which prints nothing. The report of a call that succeeds is true of the object: it names the variogram model, its labelled numbers (slope, scale, exponent, partial sill, full sill, range, nugget) are the parameters of the curve the object uses, Q1, Q2 and cR are the statistics the object reports, and the number of wells is the number of wells given. The messages are exactly those of the steps that take place, in order: in particular regional linear and external drift, and the adjustment of the coordinates by an update, are announced if and only if they happen. For OrdinaryKriging, OrdinaryKriging3D, UniversalKriging and UniversalKriging3D.", "quantifier": "all data, arguments (given and fitted parameters, every model) and, for updates, all objects in any state", "why_tests_cant": "the report reads parameters by index and could raise for some argument combination; tests with verbose output cover single cases and do not compare the printed numbers", "anchors": ["src/pykrige/ok.py:OrdinaryKriging.__init__", "src/pykrige/ok.py:OrdinaryKriging.update_variogram_model", "src/pykrige/ok3d.py:OrdinaryKriging3D.__init__", "src/pykrige/ok3d.py:OrdinaryKriging3D.update_variogram_model", "src/pykrige/uk.py:UniversalKriging.__init__", "src/pykrige/uk.py:UniversalKriging.update_variogram_model", "src/pykrige/uk3d.py:UniversalKriging3D.__init__", "src/pykrige/uk3d.py:UniversalKriging3D.update_variogram_model"]}
{"id": "C83", "title": "Arguments that do not apply have no effect", "statement": "An argument that matters only together with another one is ignored without it, whatever its value: the call returns the same object, grid or exception. This covers: anisotropy_scaling and anisotropy_angle with geographic coordinates (constructor and any later update_variogram_model); variogram_function with a model other than 'custom'; variogram_parameters, variogram_function and the anisotropy arguments beside a GSTools model; weight when parameters or a GSTools model are given; point_drift, external_drift and its coordinates, specified_drift and functional_drift when the drift term is not requested; specified_drift_arrays of execute for an object without specified drift (apart from the warning); mask without style='masked'. Of drift_terms only matters which of the known names it contains, so order, repetition and unknown (misspelt) words change nothing.", "quantifier": "all data, arguments, values of the inapplicable argument, objects in any state and histories of calls", "why_tests_cant": "a test can only try a few of the combinations; the claim compares every value of the ignored argument, including malformed ones, on every object", "anchors": ["src/pykrige/ok.py:OrdinaryKriging.__init__", "src/pykrige/ok.py:OrdinaryKriging.update_variogram_model", "src/pykrige/ok.py:OrdinaryKriging.execute", "src/pykrige/ok3d.py:OrdinaryKriging3D.__init__", "src/pykrige/ok3d.py:OrdinaryKriging3D.execute", "src/pykrige/uk.py:UniversalKriging.__init__", "src/pykrige/uk.py:UniversalKriging.execute", "src/pykrige/uk3d.py:UniversalKriging3D.__init__", "src/pykrige/uk3d.py:UniversalKriging3D.execute", "src/pykrige/core.py:_initialize_variogram_model"]}
{"id": "C84", "title": "Settings of the fit and of the diagnostics do not influence predictions", "statement": "Two objects constructed from the same data with arguments that differ only in pseudo_inv_type ('pinv' or 'pinvh') and enable_statistics, and, if variogram parameters or a GSTools model are given, also in nlags and weight, answer every later sequence of update_variogram_model and execute calls with the same results and the same exceptions, for every backend, style, mask and window and with or without pseudo_inv.", "quantifier": "all data, arguments, pairs of settings and sequences of later calls", "why_tests_cant": "two pseudo-inverse routines agree only because every kriging matrix is symmetric, which must hold for all variograms, drifts and coordinates; tests compare single runs", "anchors": ["src/pykrige/core.py:P_INV", "src/pykrige/core.py:_initialize_variogram_model", "src/pykrige/ok.py:OrdinaryKriging._exec_vector", "src/pykrige/ok.py:OrdinaryKriging._exec_loop", "src/pykrige/lib/cok.pyx:_c_exec_loop", "src/pykrige/ok3d.py:OrdinaryKriging3D._exec_vector", "src/pykrige/uk.py:UniversalKriging._exec_vector", "src/pykrige/uk.py:UniversalKriging._get_kriging_matrix", "src/pykrige/uk3d.py:UniversalKriging3D._exec_vector", "src/pykrige/uk3d.py:UniversalKriging3D._get_kriging_matrix"]}
