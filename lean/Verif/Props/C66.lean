import Verif.Lemmas.Arrays
import Verif.Lemmas.Create
import Verif.Lemmas.SameModel
import Verif.Examples.Demo
import Verif.Lemmas.Metric


/-!
# C66  Arrays of different lengths are refused

`createArr` is the constructor called with one-dimensional arrays of any lengths.  If not all arrays have one length the call raises,
whatever the other arguments (with at least one lag); if they have, the result is the object of the class model - the one all other theorems
are about.  The lengths are compared by nothing but the stacking of the coordinates and the boolean masks of the variogram bins, so
with `nlags = 0` the check is gone (`C66_zero_lags`).
-/

set_option linter.unusedSectionVars false
set_option linter.unusedSimpArgs false

namespace PyKrige
noncomputable section
open Spec

theorem checkStack_eq {n : ℕ} (x y : Fin n → ℝ) (ct : String) (sc an : ℝ) :
    OK.checkStack ⟨n, x⟩ ⟨n, y⟩ ct = (fun _ => ()) <$> OK.setupCoordinates x y ct sc an := by
  unfold OK.checkStack OK.setupCoordinates
  by_cases hc : ct = "euclidean"
  · rw [if_pos hc, if_pos hc]
    cases hx : midrange x with
    | error e => rfl
    | ok xc =>
      cases hy : midrange y with
      | error e => rfl
      | ok yc => simp
  · rw [if_neg hc, if_neg hc]
    by_cases hg : ct = "geographic"
    · rw [if_pos hg, if_pos hg]; rfl
    · rw [if_neg hg, if_neg hg]; rfl

theorem init_of_variogram {n m : ℕ} {env : Env} {X : Fin n → Fin m → ℝ} {y : Fin n → ℝ} {model : String} {params : Option (List ℝ)} {f : VFun}
    {nlags : ℕ} {weight : Bool} {ct : String} {e : PyErr} (h : experimentalVariogram X y nlags ct = .error e) :
    initializeVariogramModel env X y model params f nlags weight ct = .error e := by
  unfold initializeVariogramModel
  rw [h]; rfl

/-- Arrays of one length: the object of the class model, or its error. -/
theorem C66_equal_2d {n : ℕ} (env : Env) (x y z : Fin n → ℝ) (args : OKArgs) :
    OK.createArr env ⟨n, x⟩ ⟨n, y⟩ ⟨n, z⟩ args = (fun s => some (⟨n, s⟩ : Σ n, OK n)) <$> OK.create env x y z args := by
  by_cases h1 : args.pseudoInvType ∉ ["pinv", "pinvh"]
  · unfold OK.createArr OK.create
    rw [if_pos h1, if_pos h1]; rfl
  cases h2 : args.exactValues with
  | notBool =>
    unfold OK.createArr OK.create
    rw [if_neg h1, if_neg h1, h2]; rfl
  | bool b =>
  cases h3 : OK.resolveModel env args.coordinatesType args.variogramModel args.variogramFunction args.params args.anisotropyScaling args.anisotropyAngle with
  | error e =>
    unfold OK.createArr OK.create
    rw [if_neg h1, if_neg h1, h2, h3]; rfl
  | ok r =>
  obtain ⟨name, model, fArg, pArg, scaling, angle⟩ := r
  cases h4 : chooseFunction name fArg with
  | error e =>
    unfold OK.createArr OK.create
    rw [if_neg h1, if_neg h1, h2, h3]
    simp only [py_pure, py_ok_bind, h4, py_error_bind, py_map_error]
  | ok f =>
  cases h5 : OK.setupCoordinates x y args.coordinatesType scaling angle with
  | error e =>
    have hR : OK.create env x y z args = .error e := by
      unfold OK.create
      rw [if_neg h1, h2, h3]
      simp only [py_pure, py_ok_bind, h4, h5, py_error_bind]
    rw [hR]
    unfold OK.createArr
    rw [if_neg h1, h2, h3]
    simp only [checkStack_eq x y args.coordinatesType scaling angle, py_map_ok, py_map_error, dif_pos, Fin.cast_eq_self, and_self, py_pure, py_ok_bind, h4, h5, py_error_bind, py_map_error]
  | ok st =>
  obtain ⟨xc, yc, sc, an, adj⟩ := st
  cases h6 : makeVariogramParameterList name pArg with
  | error e =>
    have hR : OK.create env x y z args = .error e := by
      unfold OK.create
      rw [if_neg h1, h2, h3]
      simp only [py_pure, py_ok_bind, h4, h5, h6, py_error_bind]
    rw [hR]
    unfold OK.createArr
    rw [if_neg h1, h2, h3]
    simp only [checkStack_eq x y args.coordinatesType scaling angle, py_map_ok, py_map_error, dif_pos, Fin.cast_eq_self, and_self, py_pure, py_ok_bind, h4, h5, h6, py_error_bind, py_map_error]
  | ok vp =>
  cases h7 : experimentalVariogram adj z args.nlags args.coordinatesType with
  | error e =>
    have hR : OK.create env x y z args = .error e := by
      unfold OK.create
      rw [if_neg h1, h2, h3]
      simp only [py_pure, py_ok_bind, h4, h5, h6, init_of_variogram h7, py_error_bind]
    rw [hR]
    unfold OK.createArr
    rw [if_neg h1, h2, h3]
    simp only [checkStack_eq x y args.coordinatesType scaling angle, py_map_ok, py_map_error, dif_pos, Fin.cast_eq_self, variogramArr_eq, and_self, py_pure, py_ok_bind, h4, h5, h6, h7, py_error_bind, py_map_error]
  | ok ev =>
  unfold OK.createArr
  rw [if_neg h1, h2, h3]
  simp only [checkStack_eq x y args.coordinatesType scaling angle, py_map_ok, py_map_error, dif_pos, Fin.cast_eq_self, variogramArr_eq, and_self, py_pure, py_ok_bind, h4, h5, h6, h7]
  cases OK.create env x y z args <;> rfl

/-- Arrays of one length: the object of the class model, or its error. -/
theorem C66_equal_3d {n : ℕ} (env : Env) (x y z val : Fin n → ℝ) (args : OK3DArgs) :
    OK3D.createArr env ⟨n, x⟩ ⟨n, y⟩ ⟨n, z⟩ ⟨n, val⟩ args = (fun s => some (⟨n, s⟩ : Σ n, OK3D n)) <$> OK3D.create env x y z val args := by
  by_cases h1 : args.pseudoInvType ∉ ["pinv", "pinvh"]
  · unfold OK3D.createArr OK3D.create
    rw [if_pos h1, if_pos h1]; rfl
  cases h2 : args.exactValues with
  | notBool =>
    unfold OK3D.createArr OK3D.create
    rw [if_neg h1, if_neg h1, h2]; rfl
  | bool b =>
  cases h3 : OK3D.resolveModel env args.variogramModel args.variogramFunction args.params args.aniso with
  | error e =>
    unfold OK3D.createArr OK3D.create
    rw [if_neg h1, if_neg h1, h2, h3]; rfl
  | ok r =>
  obtain ⟨name, model, fArg, pArg, an⟩ := r
  cases h4 : chooseFunction name fArg with
  | error e =>
    unfold OK3D.createArr OK3D.create
    rw [if_neg h1, if_neg h1, h2, h3]
    simp only [py_pure, py_ok_bind, h4, py_error_bind, py_map_error]
  | ok f =>
  cases h5 : midrange x with
  | error e =>
    have hR : OK3D.create env x y z val args = .error e := by
      unfold OK3D.create
      rw [if_neg h1, h2, h3]
      simp only [py_pure, py_ok_bind, h4, h5, py_error_bind]
    rw [hR]
    unfold OK3D.createArr
    rw [if_neg h1, h2, h3]
    simp only [dif_pos, Fin.cast_eq_self, and_self, py_pure, py_ok_bind, h4, h5, py_error_bind, py_map_error]
  | ok xc =>
  cases h6 : midrange y with
  | error e =>
    have hR : OK3D.create env x y z val args = .error e := by
      unfold OK3D.create
      rw [if_neg h1, h2, h3]
      simp only [py_pure, py_ok_bind, h4, h5, h6, py_error_bind]
    rw [hR]
    unfold OK3D.createArr
    rw [if_neg h1, h2, h3]
    simp only [dif_pos, Fin.cast_eq_self, and_self, py_pure, py_ok_bind, h4, h5, h6, py_error_bind, py_map_error]
  | ok yc =>
  cases h7 : midrange z with
  | error e =>
    have hR : OK3D.create env x y z val args = .error e := by
      unfold OK3D.create
      rw [if_neg h1, h2, h3]
      simp only [py_pure, py_ok_bind, h4, h5, h6, h7, py_error_bind]
    rw [hR]
    unfold OK3D.createArr
    rw [if_neg h1, h2, h3]
    simp only [dif_pos, Fin.cast_eq_self, and_self, py_pure, py_ok_bind, h4, h5, h6, h7, py_error_bind, py_map_error]
  | ok zc =>
  cases h8 : makeVariogramParameterList name pArg with
  | error e =>
    have hR : OK3D.create env x y z val args = .error e := by
      unfold OK3D.create
      rw [if_neg h1, h2, h3]
      simp only [py_pure, py_ok_bind, h4, h5, h6, h7, h8, py_error_bind]
    rw [hR]
    unfold OK3D.createArr
    rw [if_neg h1, h2, h3]
    simp only [dif_pos, Fin.cast_eq_self, and_self, py_pure, py_ok_bind, h4, h5, h6, h7, h8, py_error_bind, py_map_error]
  | ok vp =>
  cases h9 : experimentalVariogram (fun i => adjustPoint3 xc yc zc an (x i) (y i) (z i)) val args.nlags "euclidean" with
  | error e =>
    have hR : OK3D.create env x y z val args = .error e := by
      unfold OK3D.create
      rw [if_neg h1, h2, h3]
      simp only [py_pure, py_ok_bind, h4, h5, h6, h7, h8, init_of_variogram h9, py_error_bind]
    rw [hR]
    unfold OK3D.createArr
    rw [if_neg h1, h2, h3]
    simp only [dif_pos, Fin.cast_eq_self, variogramArr_eq, and_self, py_pure, py_ok_bind, h4, h5, h6, h7, h8, h9, py_error_bind, py_map_error]
  | ok ev =>
  unfold OK3D.createArr
  rw [if_neg h1, h2, h3]
  simp only [dif_pos, Fin.cast_eq_self, variogramArr_eq, and_self, py_pure, py_ok_bind, h4, h5, h6, h7, h8, h9]
  cases OK3D.create env x y z val args <;> rfl

/-- Arrays of one length: the object of the class model, or its error. -/
theorem C66_equal_uk {n : ℕ} (env : Env) (x y z : Fin n → ℝ) (args : UKArgs) :
    UK.createArr env ⟨n, x⟩ ⟨n, y⟩ ⟨n, z⟩ args = (fun s => some (⟨n, s⟩ : Σ n, UK n)) <$> UK.create env x y z args := by
  by_cases h1 : args.pseudoInvType ∉ ["pinv", "pinvh"]
  · unfold UK.createArr UK.create
    rw [if_pos h1, if_pos h1]; rfl
  cases h2 : args.exactValues with
  | notBool =>
    unfold UK.createArr UK.create
    rw [if_neg h1, if_neg h1, h2]; rfl
  | bool b =>
  cases h3 : UK.resolveModel env args.variogramModel args.variogramFunction args.params args.anisotropyScaling args.anisotropyAngle with
  | error e =>
    unfold UK.createArr UK.create
    rw [if_neg h1, if_neg h1, h2, h3]; rfl
  | ok r =>
  obtain ⟨name, model, fArg, pArg, scaling, angle⟩ := r
  cases h4 : chooseFunction name fArg with
  | error e =>
    unfold UK.createArr UK.create
    rw [if_neg h1, if_neg h1, h2, h3]
    simp only [py_pure, py_ok_bind, h4, py_error_bind, py_map_error]
  | ok f =>
  cases h5 : midrange x with
  | error e =>
    have hR : UK.create env x y z args = .error e := by
      unfold UK.create
      rw [if_neg h1, h2, h3]
      simp only [py_pure, py_ok_bind, h4, h5, py_error_bind]
    rw [hR]
    unfold UK.createArr
    rw [if_neg h1, h2, h3]
    simp only [dif_pos, Fin.cast_eq_self, and_self, py_pure, py_ok_bind, h4, h5, py_error_bind, py_map_error]
  | ok xc =>
  cases h6 : midrange y with
  | error e =>
    have hR : UK.create env x y z args = .error e := by
      unfold UK.create
      rw [if_neg h1, h2, h3]
      simp only [py_pure, py_ok_bind, h4, h5, h6, py_error_bind]
    rw [hR]
    unfold UK.createArr
    rw [if_neg h1, h2, h3]
    simp only [dif_pos, Fin.cast_eq_self, and_self, py_pure, py_ok_bind, h4, h5, h6, py_error_bind, py_map_error]
  | ok yc =>
  cases h7 : makeVariogramParameterList name pArg with
  | error e =>
    have hR : UK.create env x y z args = .error e := by
      unfold UK.create
      rw [if_neg h1, h2, h3]
      simp only [py_pure, py_ok_bind, h4, h5, h6, h7, py_error_bind]
    rw [hR]
    unfold UK.createArr
    rw [if_neg h1, h2, h3]
    simp only [dif_pos, Fin.cast_eq_self, and_self, py_pure, py_ok_bind, h4, h5, h6, h7, py_error_bind, py_map_error]
  | ok vp =>
  cases h8 : experimentalVariogram (adjustData2 x y xc yc scaling angle) z args.nlags "euclidean" with
  | error e =>
    have hR : UK.create env x y z args = .error e := by
      unfold UK.create
      rw [if_neg h1, h2, h3]
      simp only [py_pure, py_ok_bind, h4, h5, h6, h7, init_of_variogram h8, py_error_bind]
    rw [hR]
    unfold UK.createArr
    rw [if_neg h1, h2, h3]
    simp only [dif_pos, Fin.cast_eq_self, variogramArr_eq, and_self, py_pure, py_ok_bind, h4, h5, h6, h7, h8, py_error_bind, py_map_error]
  | ok ev =>
  unfold UK.createArr
  rw [if_neg h1, h2, h3]
  simp only [dif_pos, Fin.cast_eq_self, variogramArr_eq, and_self, py_pure, py_ok_bind, h4, h5, h6, h7, h8]
  cases UK.create env x y z args <;> rfl

/-- Arrays of one length: the object of the class model, or its error. -/
theorem C66_equal_uk3d {n : ℕ} (env : Env) (x y z val : Fin n → ℝ) (args : UK3DArgs) :
    UK3D.createArr env ⟨n, x⟩ ⟨n, y⟩ ⟨n, z⟩ ⟨n, val⟩ args = (fun s => some (⟨n, s⟩ : Σ n, UK3D n)) <$> UK3D.create env x y z val args := by
  by_cases h1 : args.pseudoInvType ∉ ["pinv", "pinvh"]
  · unfold UK3D.createArr UK3D.create
    rw [if_pos h1, if_pos h1]; rfl
  cases h2 : args.exactValues with
  | notBool =>
    unfold UK3D.createArr UK3D.create
    rw [if_neg h1, if_neg h1, h2]; rfl
  | bool b =>
  cases h3 : OK3D.resolveModel env args.variogramModel args.variogramFunction args.params args.aniso with
  | error e =>
    unfold UK3D.createArr UK3D.create
    rw [if_neg h1, if_neg h1, h2, h3]; rfl
  | ok r =>
  obtain ⟨name, model, fArg, pArg, an⟩ := r
  cases h4 : chooseFunction name fArg with
  | error e =>
    unfold UK3D.createArr UK3D.create
    rw [if_neg h1, if_neg h1, h2, h3]
    simp only [py_pure, py_ok_bind, h4, py_error_bind, py_map_error]
  | ok f =>
  cases h5 : midrange x with
  | error e =>
    have hR : UK3D.create env x y z val args = .error e := by
      unfold UK3D.create
      rw [if_neg h1, h2, h3]
      simp only [py_pure, py_ok_bind, h4, h5, py_error_bind]
    rw [hR]
    unfold UK3D.createArr
    rw [if_neg h1, h2, h3]
    simp only [dif_pos, Fin.cast_eq_self, and_self, py_pure, py_ok_bind, h4, h5, py_error_bind, py_map_error]
  | ok xc =>
  cases h6 : midrange y with
  | error e =>
    have hR : UK3D.create env x y z val args = .error e := by
      unfold UK3D.create
      rw [if_neg h1, h2, h3]
      simp only [py_pure, py_ok_bind, h4, h5, h6, py_error_bind]
    rw [hR]
    unfold UK3D.createArr
    rw [if_neg h1, h2, h3]
    simp only [dif_pos, Fin.cast_eq_self, and_self, py_pure, py_ok_bind, h4, h5, h6, py_error_bind, py_map_error]
  | ok yc =>
  cases h7 : midrange z with
  | error e =>
    have hR : UK3D.create env x y z val args = .error e := by
      unfold UK3D.create
      rw [if_neg h1, h2, h3]
      simp only [py_pure, py_ok_bind, h4, h5, h6, h7, py_error_bind]
    rw [hR]
    unfold UK3D.createArr
    rw [if_neg h1, h2, h3]
    simp only [dif_pos, Fin.cast_eq_self, and_self, py_pure, py_ok_bind, h4, h5, h6, h7, py_error_bind, py_map_error]
  | ok zc =>
  cases h8 : makeVariogramParameterList name pArg with
  | error e =>
    have hR : UK3D.create env x y z val args = .error e := by
      unfold UK3D.create
      rw [if_neg h1, h2, h3]
      simp only [py_pure, py_ok_bind, h4, h5, h6, h7, h8, py_error_bind]
    rw [hR]
    unfold UK3D.createArr
    rw [if_neg h1, h2, h3]
    simp only [dif_pos, Fin.cast_eq_self, and_self, py_pure, py_ok_bind, h4, h5, h6, h7, h8, py_error_bind, py_map_error]
  | ok vp =>
  cases h9 : experimentalVariogram (fun i => adjustPoint3 xc yc zc an (x i) (y i) (z i)) val args.nlags "euclidean" with
  | error e =>
    have hR : UK3D.create env x y z val args = .error e := by
      unfold UK3D.create
      rw [if_neg h1, h2, h3]
      simp only [py_pure, py_ok_bind, h4, h5, h6, h7, h8, init_of_variogram h9, py_error_bind]
    rw [hR]
    unfold UK3D.createArr
    rw [if_neg h1, h2, h3]
    simp only [dif_pos, Fin.cast_eq_self, variogramArr_eq, and_self, py_pure, py_ok_bind, h4, h5, h6, h7, h8, h9, py_error_bind, py_map_error]
  | ok ev =>
  unfold UK3D.createArr
  rw [if_neg h1, h2, h3]
  simp only [dif_pos, Fin.cast_eq_self, variogramArr_eq, and_self, py_pure, py_ok_bind, h4, h5, h6, h7, h8, h9]
  cases UK3D.create env x y z val args <;> rfl

/-- Arrays of different lengths: an error. -/
theorem C66_unequal_2d (env : Env) (x y z : NdArray) (args : OKArgs) (hn : 0 < args.nlags) (hne : ¬ (y.1 = x.1 ∧ z.1 = x.1)) :
    ∃ e, OK.createArr env x y z args = .error e := by
  cases hc : OK.createArr env x y z args with
  | error e => exact ⟨e, rfl⟩
  | ok r =>
    exfalso
    unfold OK.createArr at hc
    by_cases h1 : args.pseudoInvType ∉ ["pinv", "pinvh"]
    · rw [if_pos h1] at hc; cases hc
    rw [if_neg h1] at hc
    cases h2 : args.exactValues with
    | notBool => rw [h2] at hc; cases hc
    | bool b =>
    rw [h2] at hc
    dsimp only at hc
    obtain ⟨_, -, hc⟩ := py_bind_eq_ok.1 hc
    obtain ⟨⟨name, model, fArg, pArg, scaling, angle⟩, -, hc⟩ := py_bind_eq_ok.1 hc
    obtain ⟨_, -, hc⟩ := py_bind_eq_ok.1 hc
    obtain ⟨_, -, hc⟩ := py_bind_eq_ok.1 hc
    obtain ⟨_, -, hc⟩ := py_bind_eq_ok.1 hc
    by_cases hy : y.1 = x.1
    · rw [dif_pos hy] at hc
      obtain ⟨⟨xc, yc, sc, an, adj⟩, -, hc⟩ := py_bind_eq_ok.1 hc
      obtain ⟨ev, hev, -⟩ := py_bind_eq_ok.1 hc
      obtain ⟨e, he⟩ := variogramArr_ne adj (y := z) (fun h => hne ⟨hy, h⟩) hn args.coordinatesType
      rw [he] at hev; cases hev
    · rw [dif_neg hy] at hc; cases hc

/-- Arrays of different lengths: an error. -/
theorem C66_unequal_3d (env : Env) (x y z val : NdArray) (args : OK3DArgs) (hn : 0 < args.nlags) (hne : ¬ (y.1 = x.1 ∧ z.1 = x.1 ∧ val.1 = x.1)) :
    ∃ e, OK3D.createArr env x y z val args = .error e := by
  cases hc : OK3D.createArr env x y z val args with
  | error e => exact ⟨e, rfl⟩
  | ok r =>
    exfalso
    unfold OK3D.createArr at hc
    by_cases h1 : args.pseudoInvType ∉ ["pinv", "pinvh"]
    · rw [if_pos h1] at hc; cases hc
    rw [if_neg h1] at hc
    cases h2 : args.exactValues with
    | notBool => rw [h2] at hc; cases hc
    | bool b =>
    rw [h2] at hc
    dsimp only at hc
    obtain ⟨_, -, hc⟩ := py_bind_eq_ok.1 hc
    obtain ⟨⟨name, model, fArg, pArg, an⟩, -, hc⟩ := py_bind_eq_ok.1 hc
    obtain ⟨_, -, hc⟩ := py_bind_eq_ok.1 hc
    obtain ⟨xc, -, hc⟩ := py_bind_eq_ok.1 hc
    obtain ⟨yc, -, hc⟩ := py_bind_eq_ok.1 hc
    obtain ⟨zc, -, hc⟩ := py_bind_eq_ok.1 hc
    by_cases hy : y.1 = x.1 ∧ z.1 = x.1
    · rw [dif_pos hy] at hc
      obtain ⟨_, -, hc⟩ := py_bind_eq_ok.1 hc
      obtain ⟨ev, hev, -⟩ := py_bind_eq_ok.1 hc
      obtain ⟨e, he⟩ := variogramArr_ne _ (y := val) (fun h => hne ⟨hy.1, hy.2, h⟩) hn "euclidean"
      rw [he] at hev; cases hev
    · rw [dif_neg hy] at hc; cases hc

/-- Arrays of different lengths: an error. -/
theorem C66_unequal_uk (env : Env) (x y z : NdArray) (args : UKArgs) (hn : 0 < args.nlags) (hne : ¬ (y.1 = x.1 ∧ z.1 = x.1)) :
    ∃ e, UK.createArr env x y z args = .error e := by
  cases hc : UK.createArr env x y z args with
  | error e => exact ⟨e, rfl⟩
  | ok r =>
    exfalso
    unfold UK.createArr at hc
    by_cases h1 : args.pseudoInvType ∉ ["pinv", "pinvh"]
    · rw [if_pos h1] at hc; cases hc
    rw [if_neg h1] at hc
    cases h2 : args.exactValues with
    | notBool => rw [h2] at hc; cases hc
    | bool b =>
    rw [h2] at hc
    dsimp only at hc
    obtain ⟨_, -, hc⟩ := py_bind_eq_ok.1 hc
    obtain ⟨⟨name, model, fArg, pArg, scaling, angle⟩, -, hc⟩ := py_bind_eq_ok.1 hc
    obtain ⟨_, -, hc⟩ := py_bind_eq_ok.1 hc
    obtain ⟨xc, -, hc⟩ := py_bind_eq_ok.1 hc
    obtain ⟨yc, -, hc⟩ := py_bind_eq_ok.1 hc
    by_cases hy : y.1 = x.1
    · rw [dif_pos hy] at hc
      obtain ⟨_, -, hc⟩ := py_bind_eq_ok.1 hc
      obtain ⟨ev, hev, -⟩ := py_bind_eq_ok.1 hc
      obtain ⟨e, he⟩ := variogramArr_ne _ (y := z) (fun h => hne ⟨hy, h⟩) hn "euclidean"
      rw [he] at hev; cases hev
    · rw [dif_neg hy] at hc; cases hc

/-- Arrays of different lengths: an error. -/
theorem C66_unequal_uk3d (env : Env) (x y z val : NdArray) (args : UK3DArgs) (hn : 0 < args.nlags) (hne : ¬ (y.1 = x.1 ∧ z.1 = x.1 ∧ val.1 = x.1)) :
    ∃ e, UK3D.createArr env x y z val args = .error e := by
  cases hc : UK3D.createArr env x y z val args with
  | error e => exact ⟨e, rfl⟩
  | ok r =>
    exfalso
    unfold UK3D.createArr at hc
    by_cases h1 : args.pseudoInvType ∉ ["pinv", "pinvh"]
    · rw [if_pos h1] at hc; cases hc
    rw [if_neg h1] at hc
    cases h2 : args.exactValues with
    | notBool => rw [h2] at hc; cases hc
    | bool b =>
    rw [h2] at hc
    dsimp only at hc
    obtain ⟨_, -, hc⟩ := py_bind_eq_ok.1 hc
    obtain ⟨⟨name, model, fArg, pArg, an⟩, -, hc⟩ := py_bind_eq_ok.1 hc
    obtain ⟨_, -, hc⟩ := py_bind_eq_ok.1 hc
    obtain ⟨xc, -, hc⟩ := py_bind_eq_ok.1 hc
    obtain ⟨yc, -, hc⟩ := py_bind_eq_ok.1 hc
    obtain ⟨zc, -, hc⟩ := py_bind_eq_ok.1 hc
    by_cases hy : y.1 = x.1 ∧ z.1 = x.1
    · rw [dif_pos hy] at hc
      obtain ⟨_, -, hc⟩ := py_bind_eq_ok.1 hc
      obtain ⟨ev, hev, -⟩ := py_bind_eq_ok.1 hc
      obtain ⟨e, he⟩ := variogramArr_ne _ (y := val) (fun h => hne ⟨hy.1, hy.2, h⟩) hn "euclidean"
      rw [he] at hev; cases hev
    · rw [dif_neg hy] at hc; cases hc

/-- `nlags = 0` switches the check off: three values at two places pass the variogram stage, after which the constructor (with
given variogram parameters and without statistics) has nothing left to do. -/
theorem C66_zero_lags (env : Env) (z : Fin 3 → ℝ) :
    OK.createArr env ⟨2, ![0, 1]⟩ ⟨2, ![0, 0]⟩ ⟨3, z⟩ { params := .list [1, 0], nlags := 0 } = .ok none := by
  have h5 : OK.setupCoordinates (![0, 1] : Fin 2 → ℝ) ![0, 0] "euclidean" 1 0 =
      .ok (1 / 2, 0, 1, 0, adjustData2 ![0, 1] ![0, 0] (1 / 2) 0 1 0) := by
    unfold OK.setupCoordinates
    rw [if_pos rfl, show midrange (![0, 1] : Fin 2 → ℝ) = .ok (1 / 2) by simp [midrange, amax, amin, List.ofFn_succ],
      show midrange (![0, 0] : Fin 2 → ℝ) = .ok 0 by simp [midrange, amax, amin, List.ofFn_succ]]
    rfl
  have h7 : ∀ adj : Fin 2 → Fin 2 → ℝ, experimentalVariogramArr adj ⟨3, z⟩ 0 "euclidean" = .ok [] := by
    intro adj
    unfold experimentalVariogramArr pairDistancesArr
    rw [if_pos rfl]
    obtain ⟨mx, hmx⟩ := amax_ok (l := (pdistPairs 2).map fun p => euclid (adj p.1) (adj p.2)) (by
      intro h; have := congrArg List.length h; rw [List.length_map, length_pdistPairs] at this; simp at this)
    obtain ⟨mn, hmn⟩ := amin_ok (l := (pdistPairs 2).map fun p => euclid (adj p.1) (adj p.2)) (by
      intro h; have := congrArg List.length h; rw [List.length_map, length_pdistPairs] at this; simp at this)
    simp only [py_ok_bind, hmx, hmn, binEdges]
    rfl
  unfold OK.createArr
  rw [if_neg (by simp)]
  have h4 : ∃ f, chooseFunction "linear" .none = .ok f := ⟨_, by simp [chooseFunction, variogramDict]; rfl⟩
  have h6 : ∃ v, makeVariogramParameterList "linear" (.list [1, 0]) = .ok v := ⟨_, by simp [makeVariogramParameterList]; rfl⟩
  obtain ⟨f, h4⟩ := h4
  obtain ⟨v, h6⟩ := h6
  simp only [OK.resolveModel, py_pure, py_ok_bind, h4, h6, checkStack_eq (![0, 1] : Fin 2 → ℝ) ![0, 0] "euclidean" 1 0, h5, py_map_ok, dif_pos,
    Fin.cast_eq_self, h7]
  rw [dif_neg (by norm_num)]

/-- Two coordinates, three values: refused (whatever the variogram, the number of lags positive). -/
example (env : Env) (z : Fin 3 → ℝ) (args : OKArgs) (hn : 0 < args.nlags) :
    ∃ e, OK.createArr env ⟨2, ![0, 1]⟩ ⟨2, ![0, 0]⟩ ⟨3, z⟩ args = .error e :=
  C66_unequal_2d env _ _ _ args hn (by simp)

example (env : Env) (z : Fin 2 → ℝ) (args : UK3DArgs) (hn : 0 < args.nlags) :
    ∃ e, UK3D.createArr env ⟨2, ![0, 1]⟩ ⟨2, ![0, 0]⟩ ⟨1, ![0]⟩ ⟨2, z⟩ args = .error e :=
  C66_unequal_uk3d env _ _ _ _ args hn (by simp)

/-- Arrays of one length: the object of the class model. -/
example (z : Fin 2 → ℝ) : ∃ s, OK.createArr stdEnv ⟨2, Demo.X⟩ ⟨2, Demo.O⟩ ⟨2, z⟩ (Demo.args 0 true false) = .ok (some ⟨2, s⟩) ∧
    s.Z = z := by
  obtain ⟨s, hs, -⟩ := Demo.ok z 0 true false
  exact ⟨s, by rw [C66_equal_2d, hs]; rfl, (OK.create_placed hs).2.2.2⟩

end
end PyKrige
