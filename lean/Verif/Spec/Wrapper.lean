import Verif.Model.Compat
import Verif.Spec.Setting

/-! What a `Krige` object should ask of the kriging classes (C35): the settings of the same name; the first entry of
`anisotropy_scaling` and `anisotropy_angle` in two dimensions, in three dimensions the scalings of y and z and the angles
about x, y and z. -/

namespace PyKrige.Spec
noncomputable section

def ordinaryArgs (a : KrigeArgs) (scaling angle : ℝ) : OKArgs where
  variogramModel := a.variogramModel
  params := a.params
  paramsAllInt := a.paramsAllInt
  variogramFunction := a.variogramFunction
  nlags := a.nlags
  weight := a.weight
  anisotropyScaling := scaling
  anisotropyAngle := angle
  enableStatistics := a.enableStatistics
  coordinatesType := a.coordinatesType
  exactValues := a.exactValues
  pseudoInv := a.pseudoInv
  pseudoInvType := a.pseudoInvType

def universalArgs (a : KrigeArgs) (scaling angle : ℝ) : UKArgs where
  variogramModel := a.variogramModel
  params := a.params
  variogramFunction := a.variogramFunction
  nlags := a.nlags
  weight := a.weight
  anisotropyScaling := scaling
  anisotropyAngle := angle
  driftTerms := a.driftTerms
  pointDrift := a.pointDrift
  pointDriftInt := a.pointDriftInt
  externalDrift := a.externalDrift
  externalDriftX := a.externalDriftX
  externalDriftY := a.externalDriftY
  functionalDrift := a.functionalDrift2
  exactValues := a.exactValues
  pseudoInv := a.pseudoInv
  pseudoInvType := a.pseudoInvType

def ordinary3dArgs (a : KrigeArgs) (sy sz ax ay az : ℝ) : OK3DArgs where
  variogramModel := a.variogramModel
  params := a.params
  variogramFunction := a.variogramFunction
  nlags := a.nlags
  weight := a.weight
  aniso := { scalingY := sy, scalingZ := sz, angleX := ax, angleY := ay, angleZ := az }
  exactValues := a.exactValues
  pseudoInv := a.pseudoInv
  pseudoInvType := a.pseudoInvType

def universal3dArgs (a : KrigeArgs) (sy sz ax ay az : ℝ) : UK3DArgs where
  variogramModel := a.variogramModel
  params := a.params
  variogramFunction := a.variogramFunction
  nlags := a.nlags
  weight := a.weight
  aniso := { scalingY := sy, scalingZ := sz, angleX := ax, angleY := ay, angleZ := az }
  driftTerms := a.driftTerms
  functionalDrift := a.functionalDrift3
  exactValues := a.exactValues
  pseudoInv := a.pseudoInv
  pseudoInvType := a.pseudoInvType

/-- Columns of an array of points as query coordinates. -/
def column (x : Points) (j : Fin x.d) : QArray := { vals := List.ofFn fun i => x.val i j, isInt := x.isInt }

/-- How an object should be after `fit`: unchanged, with the same exception, if the class refuses the data; with the new
object as its model otherwise. -/
def fitted {α : Type} (k : Krige) (made : Py α) (wrap : α → KModel) : Py Unit × Krige :=
  match made with
  | .ok m => (.ok (), { k with model := some (wrap m) })
  | .error e => (.error e, k)

/-- When a fitted `Krige` object should honour its data (C05), in the plane: exact values are asked for, no two of the
points `x` are within `1e-10` of each other, the window is not larger than the data set, the range is not zero and a
custom callable is not named like a built-in. -/
def ExactPlane {n : ℕ} (env : Env) (k : Krige) (x : Fin n → Fin 2 → ℝ) : Prop :=
  k.args.exactValues = .bool true ∧
  ((∃ s : OK n, k.model = some (.ordinary s) ∧ KnnSpec env ∧ k.args.variogramFunction.NoClash ∧
      RangeOk s.functionName s.params ∧ WindowFits n k.args.nClosest ∧ (k.args.pseudoInv = false ∨ k.args.nClosest ≠ none) ∧
      ∀ i l, l ≠ i → 1 / 10 ^ 10 <
        distance2 k.args.coordinatesType s.anisotropyScaling s.anisotropyAngle (x l 0, x l 1) (x i 0, x i 1)) ∨
   (∃ s : UK n, k.model = some (.universal s) ∧ k.args.pseudoInv = false ∧
      ∀ i l, l ≠ i → 1 / 10 ^ 10 < anisoDist2 s.anisotropyScaling s.anisotropyAngle (x l 0, x l 1) (x i 0, x i 1)))

/-- The same in space. -/
def ExactSpace {n : ℕ} (env : Env) (k : Krige) (x : Fin n → Fin 3 → ℝ) : Prop :=
  k.args.exactValues = .bool true ∧
  ((∃ s : OK3D n, k.model = some (.ordinary3d s) ∧ KnnSpec env ∧ WindowFits n k.args.nClosest ∧
      (k.args.pseudoInv = false ∨ k.args.nClosest ≠ none) ∧
      ∀ i l, l ≠ i → 1 / 10 ^ 10 < distance3 s.aniso (x l 0, x l 1, x l 2) (x i 0, x i 1, x i 2)) ∨
   (∃ s : UK3D n, k.model = some (.universal3d s) ∧ k.args.pseudoInv = false ∧
      ∀ i l, l ≠ i → 1 / 10 ^ 10 < distance3 s.aniso (x l 0, x l 1, x l 2) (x i 0, x i 1, x i 2)))

/-- A result of kriging `m` points of which some are data: one estimate for each point, at a datum its value. -/
def Honours {n m d : ℕ} (x : Fin n → Fin d → ℝ) (y : Fin n → ℝ) (u : Fin m → Fin d → ℝ) (e : List (Option ℝ)) : Prop :=
  e.length = m ∧ ∀ j : Fin m, ∃ v, e[j.val]? = some (some v) ∧ ∀ i, u j = x i → v = y i

end
end PyKrige.Spec
