import Verif.Model.UK3D

/-! What "constructing the object with the settings of the last update" means: the arguments that
`update_variogram_model` takes replace those of the constructor, all others stay. -/

namespace PyKrige
noncomputable section

/-- The constructor arguments `args`, with the variogram and anisotropy settings of the update `u`. -/
def OKArgs.withUpdate (args : OKArgs) (u : OKUpdate) : OKArgs :=
  { args with
    variogramModel := u.variogramModel
    params := u.params
    paramsAllInt := u.paramsAllInt
    variogramFunction := u.variogramFunction
    nlags := u.nlags
    weight := u.weight
    anisotropyScaling := u.anisotropyScaling
    anisotropyAngle := u.anisotropyAngle }

/-- The constructor arguments `args`, with the variogram and anisotropy settings of the update `u`. -/
def OK3DArgs.withUpdate (args : OK3DArgs) (u : Update3D) : OK3DArgs :=
  { args with
    variogramModel := u.variogramModel
    params := u.params
    variogramFunction := u.variogramFunction
    nlags := u.nlags
    weight := u.weight
    aniso := u.aniso }

/-- The constructor arguments `args`, with the variogram and anisotropy settings of the update `u`. -/
def UKArgs.withUpdate (args : UKArgs) (u : OKUpdate) : UKArgs :=
  { args with
    variogramModel := u.variogramModel
    params := u.params
    variogramFunction := u.variogramFunction
    nlags := u.nlags
    weight := u.weight
    anisotropyScaling := u.anisotropyScaling
    anisotropyAngle := u.anisotropyAngle }

/-- The constructor arguments `args`, with the variogram and anisotropy settings of the update `u`. -/
def UK3DArgs.withUpdate (args : UK3DArgs) (u : Update3D) : UK3DArgs :=
  { args with
    variogramModel := u.variogramModel
    params := u.params
    variogramFunction := u.variogramFunction
    nlags := u.nlags
    weight := u.weight
    aniso := u.aniso }

end
end PyKrige
