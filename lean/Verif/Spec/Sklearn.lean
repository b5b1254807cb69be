import Verif.Model.Sklearn

/-! What the parameters of a `Krige` object should be after a history of calls (C68): for every name the value given last,
the documented defaults being the first values given. -/

namespace PyKrige.Spec
noncomputable section

/-- The last setting of the parameter `name` in a sequence of settings. -/
def latest (l : List KParam) (name : String) : Option KParam := (l.filter fun p => p.name == name).getLast?

/-- The documented parameters in alphabetical order. -/
def paramNames : List String :=
  ["anisotropy_angle", "anisotropy_scaling", "coordinates_type", "drift_terms", "enable_statistics", "exact_values",
   "ext_drift_grid", "functional_drift", "method", "n_closest_points", "nlags", "point_drift", "pseudo_inv",
   "pseudo_inv_type", "variogram_function", "variogram_model", "variogram_parameters", "weight"]

/-- The documented defaults. -/
def defaults : List KParam :=
  [.method "ordinary", .variogramModel (.name "linear"), .nlags 6, .weight false, .nClosest (some 10),
   .exactValues (.bool true), .pseudoInv false, .pseudoInvType "pinv", .variogramParameters .none false,
   .variogramFunction .none, .anisotropyScaling [1, 1], .anisotropyAngle [0, 0, 0], .enableStatistics false,
   .coordinatesType "euclidean", .driftTerms [], .pointDrift none false, .extDriftGrid none none none,
   .functionalDrift (.list []) (.list [])]

/-- What the calls of a history set: everything given to `set_params`, up to a name that is not a parameter. -/
def settings (calls : List SCall) : List KParam :=
  calls.flatMap fun
    | .setParams kw => kw.takeWhile KParam.known
    | _ => []

/-- Two sequences of settings that leave the same parameters. -/
def SameParams (l l' : List KParam) : Prop := ∀ name, latest l name = latest l' name

/-- The score of an object made with the settings `kw`, fitted and scored. -/
def freshScore (env : Env) (kw : List KParam) (f : Fold) : Py (Option ℝ) :=
  match Krige.new kw with
  | .error e => .error e
  | .ok k =>
    match k.fit env f.trainX f.trainY with
    | (.error e, _) => .error e
    | (.ok (), k) => k.score env f.testX f.testY none

end
end PyKrige.Spec
