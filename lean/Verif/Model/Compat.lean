import Verif.Model.UK3D

/-! The scikit-learn wrapper `Krige` (compat.py). The code collects keyword arguments in dictionaries and passes them on
with `**`; a dictionary is modelled as a record of optional entries. -/

namespace PyKrige
noncomputable section

/-- The settings of a `Krige` object, with the defaults of its constructor; compat.py:143-164. `paramsAllInt` belongs to
`variogram_parameters` (as in `OKArgs`), `functionalDrift2/3` are the same list of callables, of two or three coordinates.
Simplification: `ext_drift_grid` is a tuple of three. -/
structure KrigeArgs where
  method : String := "ordinary"
  variogramModel : ModelArg := .name "linear"
  nlags : ℕ := 6
  weight : Bool := false
  nClosest : Option ℤ := some 10
  exactValues : BoolArg := .bool true
  pseudoInv : Bool := false
  pseudoInvType : String := "pinv"
  params : ParamArg := .none
  paramsAllInt : Bool := false
  variogramFunction : FunArg := .none
  anisotropyScaling : List ℝ := [1, 1]
  anisotropyAngle : List ℝ := [0, 0, 0]
  enableStatistics : Bool := false
  coordinatesType : String := "euclidean"
  driftTerms : List String := []
  pointDrift : Option (List (ℝ × ℝ × ℝ)) := none
  pointDriftInt : Bool := false
  externalDrift : Option ExtArg := none
  externalDriftX : Option (List ℝ) := none
  externalDriftY : Option (List ℝ) := none
  functionalDrift2 : ListArg (ℝ → ℝ → ℝ) := .list []
  functionalDrift3 : ListArg (ℝ → ℝ → ℝ → ℝ) := .list []

/-- A dictionary of keyword arguments for a constructor: `none` means that the key is absent. -/
structure InitKw (n : ℕ) where
  x : Option (Fin n → ℝ) := none
  y : Option (Fin n → ℝ) := none
  z : Option (Fin n → ℝ) := none
  val : Option (Fin n → ℝ) := none
  variogramModel : Option ModelArg := none
  params : Option (ParamArg × Bool) := none
  variogramFunction : Option FunArg := none
  nlags : Option ℕ := none
  weight : Option Bool := none
  exactValues : Option BoolArg := none
  pseudoInv : Option Bool := none
  pseudoInvType : Option String := none
  anisotropyScaling : Option ℝ := none
  anisotropyAngle : Option ℝ := none
  enableStatistics : Option Bool := none
  coordinatesType : Option String := none
  scalingY : Option ℝ := none
  scalingZ : Option ℝ := none
  angleX : Option ℝ := none
  angleY : Option ℝ := none
  angleZ : Option ℝ := none
  driftTerms : Option (List String) := none
  pointDrift : Option (Option (List (ℝ × ℝ × ℝ)) × Bool) := none
  externalDrift : Option (Option ExtArg) := none
  externalDriftX : Option (Option (List ℝ)) := none
  externalDriftY : Option (Option (List ℝ)) := none
  functionalDrift : Option (ListArg (ℝ → ℝ → ℝ) × ListArg (ℝ → ℝ → ℝ → ℝ)) := none

/-- `OrdinaryKriging(**kw)`: the parameters of ok.py:187-206, other keywords are a `TypeError`. -/
def OK.call {n : ℕ} (env : Env) (kw : InitKw n) : Py (OK n) :=
  if kw.val.isSome ∨ kw.scalingY.isSome ∨ kw.scalingZ.isSome ∨ kw.angleX.isSome ∨ kw.angleY.isSome ∨ kw.angleZ.isSome ∨
      kw.driftTerms.isSome ∨ kw.pointDrift.isSome ∨ kw.externalDrift.isSome ∨ kw.externalDriftX.isSome ∨
      kw.externalDriftY.isSome ∨ kw.functionalDrift.isSome then .error .typeError
  else match kw.x, kw.y, kw.z with
    | some x, some y, some z => OK.create env x y z
        { variogramModel := kw.variogramModel.getD (.name "linear")
          params := (kw.params.getD (.none, false)).1
          paramsAllInt := (kw.params.getD (.none, false)).2
          variogramFunction := kw.variogramFunction.getD .none
          nlags := kw.nlags.getD 6
          weight := kw.weight.getD false
          anisotropyScaling := kw.anisotropyScaling.getD 1
          anisotropyAngle := kw.anisotropyAngle.getD 0
          enableStatistics := kw.enableStatistics.getD false
          coordinatesType := kw.coordinatesType.getD "euclidean"
          exactValues := kw.exactValues.getD (.bool true)
          pseudoInv := kw.pseudoInv.getD false
          pseudoInvType := kw.pseudoInvType.getD "pinv" }
    | _, _, _ => .error .typeError

/-- `UniversalKriging(**kw)`: the parameters of uk.py:220-244. -/
def UK.call {n : ℕ} (env : Env) (kw : InitKw n) : Py (UK n) :=
  if kw.val.isSome ∨ kw.scalingY.isSome ∨ kw.scalingZ.isSome ∨ kw.angleX.isSome ∨ kw.angleY.isSome ∨ kw.angleZ.isSome ∨
      kw.enableStatistics.isSome ∨ kw.coordinatesType.isSome then .error .typeError
  else match kw.x, kw.y, kw.z with
    | some x, some y, some z => UK.create env x y z
        { variogramModel := kw.variogramModel.getD (.name "linear")
          params := (kw.params.getD (.none, false)).1
          variogramFunction := kw.variogramFunction.getD .none
          nlags := kw.nlags.getD 6
          weight := kw.weight.getD false
          anisotropyScaling := kw.anisotropyScaling.getD 1
          anisotropyAngle := kw.anisotropyAngle.getD 0
          driftTerms := kw.driftTerms.getD []
          pointDrift := (kw.pointDrift.getD (none, false)).1
          pointDriftInt := (kw.pointDrift.getD (none, false)).2
          externalDrift := kw.externalDrift.getD none
          externalDriftX := kw.externalDriftX.getD none
          externalDriftY := kw.externalDriftY.getD none
          functionalDrift := (kw.functionalDrift.getD (.list [], .list [])).1
          exactValues := kw.exactValues.getD (.bool true)
          pseudoInv := kw.pseudoInv.getD false
          pseudoInvType := kw.pseudoInvType.getD "pinv" }
    | _, _, _ => .error .typeError

/-- `OrdinaryKriging3D(**kw)`: the parameters of ok3d.py:198-219. -/
def OK3D.call {n : ℕ} (env : Env) (kw : InitKw n) : Py (OK3D n) :=
  if kw.anisotropyScaling.isSome ∨ kw.anisotropyAngle.isSome ∨ kw.enableStatistics.isSome ∨ kw.coordinatesType.isSome ∨
      kw.driftTerms.isSome ∨ kw.pointDrift.isSome ∨ kw.externalDrift.isSome ∨ kw.externalDriftX.isSome ∨
      kw.externalDriftY.isSome ∨ kw.functionalDrift.isSome then .error .typeError
  else match kw.x, kw.y, kw.z, kw.val with
    | some x, some y, some z, some v => OK3D.create env x y z v
        { variogramModel := kw.variogramModel.getD (.name "linear")
          params := (kw.params.getD (.none, false)).1
          variogramFunction := kw.variogramFunction.getD .none
          nlags := kw.nlags.getD 6
          weight := kw.weight.getD false
          aniso := { scalingY := kw.scalingY.getD 1, scalingZ := kw.scalingZ.getD 1, angleX := kw.angleX.getD 0
                     angleY := kw.angleY.getD 0, angleZ := kw.angleZ.getD 0 }
          exactValues := kw.exactValues.getD (.bool true)
          pseudoInv := kw.pseudoInv.getD false
          pseudoInvType := kw.pseudoInvType.getD "pinv" }
    | _, _, _, _ => .error .typeError

/-- `UniversalKriging3D(**kw)`: the parameters of uk3d.py:215-239. -/
def UK3D.call {n : ℕ} (env : Env) (kw : InitKw n) : Py (UK3D n) :=
  if kw.anisotropyScaling.isSome ∨ kw.anisotropyAngle.isSome ∨ kw.enableStatistics.isSome ∨ kw.coordinatesType.isSome ∨
      kw.pointDrift.isSome ∨ kw.externalDrift.isSome ∨ kw.externalDriftX.isSome ∨
      kw.externalDriftY.isSome then .error .typeError
  else match kw.x, kw.y, kw.z, kw.val with
    | some x, some y, some z, some v => UK3D.create env x y z v
        { variogramModel := kw.variogramModel.getD (.name "linear")
          params := (kw.params.getD (.none, false)).1
          variogramFunction := kw.variogramFunction.getD .none
          nlags := kw.nlags.getD 6
          weight := kw.weight.getD false
          aniso := { scalingY := kw.scalingY.getD 1, scalingZ := kw.scalingZ.getD 1, angleX := kw.angleX.getD 0
                     angleY := kw.angleY.getD 0, angleZ := kw.angleZ.getD 0 }
          driftTerms := kw.driftTerms.getD []
          functionalDrift := (kw.functionalDrift.getD (.list [], .list [])).2
          exactValues := kw.exactValues.getD (.bool true)
          pseudoInv := kw.pseudoInv.getD false
          pseudoInvType := kw.pseudoInvType.getD "pinv" }
    | _, _, _, _ => .error .typeError

/-- A fitted model: an object of one of the four classes. -/
inductive KModel
  | ordinary {n : ℕ} (s : OK n)
  | universal {n : ℕ} (s : UK n)
  | ordinary3d {n : ℕ} (s : OK3D n)
  | universal3d {n : ℕ} (s : UK3D n)

/-- A `Krige` object. -/
structure Krige where
  args : KrigeArgs
  model : Option KModel

/-- `krige_methods_kws`; compat.py:41-74. -/
def krigeMethodsKws : List (String × List String) :=
  [("ordinary", ["anisotropy_scaling", "anisotropy_angle", "enable_statistics", "coordinates_type"]),
   ("universal", ["anisotropy_scaling", "anisotropy_angle", "drift_terms", "point_drift", "external_drift",
     "external_drift_x", "external_drift_y", "functional_drift"]),
   ("ordinary3d", ["anisotropy_scaling_y", "anisotropy_scaling_z", "anisotropy_angle_x", "anisotropy_angle_y",
     "anisotropy_angle_z"]),
   ("universal3d", ["anisotropy_scaling_y", "anisotropy_scaling_z", "anisotropy_angle_x", "anisotropy_angle_y",
     "anisotropy_angle_z", "drift_terms", "functional_drift"])]

/-- `krige_methods[method](**kw)`; compat.py:32-37, 233. -/
def krigeMethods {n : ℕ} (env : Env) (method : String) (kw : InitKw n) : Py KModel :=
  if method = "ordinary" then KModel.ordinary <$> OK.call env kw
  else if method = "universal" then KModel.universal <$> UK.call env kw
  else if method = "ordinary3d" then KModel.ordinary3d <$> OK3D.call env kw
  else if method = "universal3d" then KModel.universal3d <$> UK3D.call env kw
  else .error .keyError

/-- compat.py:165-185: the constructor, with `validate_method` (compat.py:81-86). -/
def Krige.init (args : KrigeArgs) : Py Krige :=
  if args.method ∉ ["ordinary", "universal", "ordinary3d", "universal3d"] then .error .valueError
  else .ok { args := args, model := none }

/-- scikit-learn's `set_params`: it assigns attributes, and checks no value. -/
def Krige.setParams (k : Krige) (args : KrigeArgs) : Krige := { k with args := args }

/-- `dst[kw] = src[kw]`; compat.py:228-229. -/
def InitKw.copy {n : ℕ} (src dst : InitKw n) (kw : String) : Py (InitKw n) :=
  if kw = "anisotropy_scaling" then .ok { dst with anisotropyScaling := src.anisotropyScaling }
  else if kw = "anisotropy_angle" then .ok { dst with anisotropyAngle := src.anisotropyAngle }
  else if kw = "enable_statistics" then .ok { dst with enableStatistics := src.enableStatistics }
  else if kw = "coordinates_type" then .ok { dst with coordinatesType := src.coordinatesType }
  else if kw = "anisotropy_scaling_y" then .ok { dst with scalingY := src.scalingY }
  else if kw = "anisotropy_scaling_z" then .ok { dst with scalingZ := src.scalingZ }
  else if kw = "anisotropy_angle_x" then .ok { dst with angleX := src.angleX }
  else if kw = "anisotropy_angle_y" then .ok { dst with angleY := src.angleY }
  else if kw = "anisotropy_angle_z" then .ok { dst with angleZ := src.angleZ }
  else if kw = "drift_terms" then .ok { dst with driftTerms := src.driftTerms }
  else if kw = "point_drift" then .ok { dst with pointDrift := src.pointDrift }
  else if kw = "external_drift" then .ok { dst with externalDrift := src.externalDrift }
  else if kw = "external_drift_x" then .ok { dst with externalDriftX := src.externalDriftX }
  else if kw = "external_drift_y" then .ok { dst with externalDriftY := src.externalDriftY }
  else if kw = "functional_drift" then .ok { dst with functionalDrift := src.functionalDrift }
  else .error .keyError

/-- compat.py:200-210: `setup`. -/
def Krige.setup (a : KrigeArgs) (n : ℕ) : InitKw n :=
  { variogramModel := some a.variogramModel, params := some (a.params, a.paramsAllInt)
    variogramFunction := some a.variogramFunction, nlags := some a.nlags, weight := some a.weight
    exactValues := some a.exactValues, pseudoInv := some a.pseudoInv, pseudoInvType := some a.pseudoInvType }

/-- compat.py:211-227: `add_setup`. Tuples that are too short are an `IndexError`, for every method. -/
def Krige.addSetup (a : KrigeArgs) (n : ℕ) : Py (InitKw n) := do
  let s ← pyGet a.anisotropyScaling 0
  let g ← pyGet a.anisotropyAngle 0
  let sy ← pyGet a.anisotropyScaling 0
  let sz ← pyGet a.anisotropyScaling 1
  let gx ← pyGet a.anisotropyAngle 0
  let gy ← pyGet a.anisotropyAngle 1
  let gz ← pyGet a.anisotropyAngle 2
  return { anisotropyScaling := some s, anisotropyAngle := some g, enableStatistics := some a.enableStatistics
           coordinatesType := some a.coordinatesType, scalingY := some sy, scalingZ := some sz
           angleX := some gx, angleY := some gy, angleZ := some gz, driftTerms := some a.driftTerms
           pointDrift := some (a.pointDrift, a.pointDriftInt), externalDrift := some a.externalDrift
           externalDriftX := some a.externalDriftX, externalDriftY := some a.externalDriftY
           functionalDrift := some (a.functionalDrift2, a.functionalDrift3) }

/-- What `_dimensionality_check` returns for an array of points: its columns. -/
structure Columns (n : ℕ) where
  x : Fin n → ℝ
  y : Fin n → ℝ
  z : Option (Fin n → ℝ)

/-- compat.py:235-249, for an array with `d` columns. `none`: no branch applies and the function returns `None`. -/
def dimensionalityCheck (method : String) {n d : ℕ} (x : Fin n → Fin d → ℝ) : Py (Option (Columns n)) :=
  if method ∈ ["ordinary", "universal"] then
    if h : d = 2 then .ok (some { x := fun i => x i ⟨0, by omega⟩, y := fun i => x i ⟨1, by omega⟩, z := none })
    else .error .valueError
  else if method ∈ ["ordinary3d", "universal3d"] then
    if h : d = 3 then .ok (some { x := fun i => x i ⟨0, by omega⟩, y := fun i => x i ⟨1, by omega⟩
                                  z := some fun i => x i ⟨2, by omega⟩ })
    else .error .valueError
  else .ok none

/-- compat.py:187-233, `fit`: what it raises, if anything, and the object afterwards. Simplification: as many targets as
points. -/
def Krige.fit {n d : ℕ} (env : Env) (k : Krige) (x : Fin n → Fin d → ℝ) (y : Fin n → ℝ) : Py Unit × Krige :=
  let a := k.args
  let built : Py KModel := do
    let add ← Krige.addSetup a n
    let kws ← match krigeMethodsKws.lookup a.method with
      | some l => .ok l
      | none => .error .keyError
    let setup ← kws.foldlM (fun dst kw => add.copy dst kw) (Krige.setup a n)
    match ← dimensionalityCheck a.method x with
    | none => .error .attributeError
    | some c =>
      let kw := { setup with x := some c.x, y := some c.y, z := c.z }
      let kw := if a.method ∈ ["ordinary3d", "universal3d"] then { kw with val := some y } else { kw with z := some y }
      krigeMethods env a.method kw
  match built with
  | .ok m => (.ok (), { k with model := some m })
  | .error e => (.error e, k)

/-- Keyword arguments of `predict`, passed on to `execute`: `none` means that the key is absent. Simplification: no other
keywords; the mask and the drift arrays are given in the dimension of the class. -/
structure PredictKw where
  style : Option String := none
  backend : Option String := none
  mask2 : Option (Option Mask2) := none
  mask3 : Option (Option Mask3) := none
  nClosest : Option (Option ℤ) := none
  spec2 : Option SpecArg := none
  spec3 : Option SpecArg3 := none

/-- The keyword arguments of the call of the model's `execute`. -/
structure ExecKw extends PredictKw where
  xpoints : QArray
  ypoints : QArray
  zpoints : Option QArray

/-- `model.execute(**kw)`: ok.py:760-768, uk.py:1090-1098, ok3d.py:735-744, uk3d.py:877-886. Keywords that a class does not
have are a `TypeError`, and so is a missing one. -/
def KModel.execute (env : Env) (m : KModel) (kw : ExecKw) : Py ExecResult :=
  match kw.style with
  | none => .error .typeError
  | some style =>
    match m with
    | .ordinary s =>
      if kw.zpoints.isSome ∨ kw.spec2.isSome ∨ kw.spec3.isSome then .error .typeError
      else s.execute env { style := style, xpoints := kw.xpoints, ypoints := kw.ypoints, mask := kw.mask2.getD none
                           backend := kw.backend.getD "vectorized", nClosest := kw.nClosest.getD none }
    | .universal s =>
      if kw.zpoints.isSome ∨ kw.nClosest.isSome then .error .typeError
      else s.execute { toExec := { style := style, xpoints := kw.xpoints, ypoints := kw.ypoints, mask := kw.mask2.getD none
                                   backend := kw.backend.getD "vectorized" }
                       spec := kw.spec2.getD .none }
    | .ordinary3d s =>
      match kw.zpoints with
      | none => .error .typeError
      | some z =>
        if kw.spec2.isSome ∨ kw.spec3.isSome then .error .typeError
        else s.execute env { style := style, xpoints := kw.xpoints, ypoints := kw.ypoints, zpoints := z
                             mask := kw.mask3.getD none, backend := kw.backend.getD "vectorized"
                             nClosest := kw.nClosest.getD none }
    | .universal3d s =>
      match kw.zpoints with
      | none => .error .typeError
      | some z =>
        if kw.nClosest.isSome then .error .typeError
        else s.execute { toExec := { style := style, xpoints := kw.xpoints, ypoints := kw.ypoints, zpoints := z
                                     mask := kw.mask3.getD none, backend := kw.backend.getD "vectorized" }
                         spec := kw.spec3.getD .none }

/-- An array of query points; `isInt` as in `QArray`. -/
structure Points where
  n : ℕ
  d : ℕ
  val : Fin n → Fin d → ℝ
  isInt : Bool := false

/-- compat.py:269-291, `execute`. -/
def Krige.executeOn (env : Env) (k : Krige) (m : KModel) (kw : ExecKw) : Py ExecResult :=
  -- default_kw.update(kwargs)
  let kw := { kw with style := some (kw.style.getD "points"), backend := some (kw.backend.getD "loop") }
  let kw := match m with
    | .ordinary _ | .ordinary3d _ => { kw with nClosest := some k.args.nClosest }
    | _ => kw
  m.execute env kw

/-- compat.py:251-267, `predict`; the value of a masked entry is `none`. -/
def Krige.predict (env : Env) (k : Krige) (x : Points) (kw : PredictKw) : Py (List (Option ℝ)) :=
  match k.model with
  | none => .error .notFitted
  | some m => do
    match ← dimensionalityCheck k.args.method x.val with
    | none => .error .attributeError
    | some c =>
      let col (f : Fin x.n → ℝ) : QArray := { vals := List.ofFn f, isInt := x.isInt }
      let r ← k.executeOn env m { kw with xpoints := col c.x, ypoints := col c.y, zpoints := c.z.map col }
      return r.z

/-- A call on a `Krige` object. -/
inductive KCall
  | fit {n d : ℕ} (x : Fin n → Fin d → ℝ) (y : Fin n → ℝ)
  | predict (x : Points) (kw : PredictKw)
  | setParams (a : KrigeArgs)

/-- What it returned. -/
inductive KOutcome
  | fit (r : Py Unit)
  | predict (r : Py (List (Option ℝ)))
  | setParams

/-- One call: what it returns and the object afterwards. `predict` assigns no attribute. -/
def Krige.step (env : Env) (k : Krige) : KCall → KOutcome × Krige
  | .fit x y => let r := k.fit env x y; (.fit r.1, r.2)
  | .predict x kw => (.predict (k.predict env x kw), k)
  | .setParams a => (.setParams, k.setParams a)

/-- A sequence of calls. -/
def Krige.run (env : Env) : Krige → List KCall → List KOutcome × Krige
  | k, [] => ([], k)
  | k, c :: l =>
    let r := k.step env c
    let t := Krige.run env r.2 l
    (r.1 :: t.1, t.2)

end
end PyKrige
