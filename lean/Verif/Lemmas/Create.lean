import Verif.Model.UK3D
import Verif.Lemmas.Py

/-! Inversion lemmas: what a successful constructor call implies. -/

namespace PyKrige
noncomputable section

theorem OK.create_ok {n : ℕ} {env : Env} {x y z : Fin n → ℝ} {args : OKArgs} {s : OK n}
    (h : OK.create env x y z args = .ok s) :
    args.pseudoInvType ∈ ["pinv", "pinvh"] ∧
    ∃ exact name model fArg pArg sc₀ an₀ f fname xc yc sc an adj vp lags ps stats,
      args.exactValues = .bool exact ∧
      OK.resolveModel env args.coordinatesType args.variogramModel args.variogramFunction args.params
        args.anisotropyScaling args.anisotropyAngle = .ok (name, model, fArg, pArg, sc₀, an₀) ∧
      chooseFunction name fArg = .ok (f, fname) ∧
      OK.setupCoordinates x y args.coordinatesType sc₀ an₀ = .ok (xc, yc, sc, an, adj) ∧
      makeVariogramParameterList name pArg = .ok vp ∧
      initializeVariogramModel env adj z name vp f args.nlags args.weight args.coordinatesType =
        .ok (lags, ps) ∧
      (if args.enableStatistics then
        some <$> findStatistics adj z f ps args.coordinatesType args.pseudoInv
        else .ok none) = .ok stats ∧
      s = { variogramModel := .name name
            model := model
            exactValues := exact
            coordinatesType := args.coordinatesType
            pseudoInv := args.pseudoInv
            pseudoInvType := args.pseudoInvType
            variogramFunction := f
            functionName := fname
            X_ORIG := x
            Y_ORIG := y
            Z := z
            XCENTER := xc
            YCENTER := yc
            anisotropyScaling := sc
            anisotropyAngle := an
            X_ADJUSTED := fun i => adj i 0
            Y_ADJUSTED := fun i => adj i 1
            lags := lags
            params := ps
            paramsInt := intParams pArg ps args.paramsAllInt
            stats := stats } := by
  unfold OK.create at h
  by_cases hp : args.pseudoInvType ∈ ["pinv", "pinvh"]
  swap
  · rw [if_pos hp] at h; simp at h
  refine ⟨hp, ?_⟩
  rw [if_neg (not_not.2 hp)] at h
  cases he : args.exactValues with
  | notBool => rw [he] at h; simp at h
  | bool exact =>
    rw [he] at h
    simp only [py_pure, py_ok_bind, py_bind_eq_ok, Prod.exists] at h
    obtain ⟨name, model, fArg, pArg, sc₀, an₀, h1, f, fname, h2, xc, yc, sc, an, adj, h3, vp, h4,
      lags, ps, h5, h6⟩ := h
    refine ⟨exact, name, model, fArg, pArg, sc₀, an₀, f, fname, xc, yc, sc, an, adj, vp, lags, ps, ?_⟩
    split at h6
    · simp only [py_bind_eq_ok] at h6
      obtain ⟨st, h6, h7⟩ := h6
      exact ⟨st, rfl, h1, h2, h3, h4, h5, by simp [*], (Except.ok.inj h7).symm⟩
    · exact ⟨none, rfl, h1, h2, h3, h4, h5, by simp [*], (Except.ok.inj h6).symm⟩

theorem OK3D.create_ok {n : ℕ} {env : Env} {x y z val : Fin n → ℝ} {args : OK3DArgs} {s : OK3D n}
    (h : OK3D.create env x y z val args = .ok s) :
    args.pseudoInvType ∈ ["pinv", "pinvh"] ∧
    ∃ exact name model fArg pArg an f fname xc yc zc vp lags ps stats,
      args.exactValues = .bool exact ∧
      OK3D.resolveModel env args.variogramModel args.variogramFunction args.params args.aniso =
        .ok (name, model, fArg, pArg, an) ∧
      chooseFunction name fArg = .ok (f, fname) ∧
      midrange x = .ok xc ∧ midrange y = .ok yc ∧ midrange z = .ok zc ∧
      makeVariogramParameterList name pArg = .ok vp ∧
      initializeVariogramModel env (fun i => adjustPoint3 xc yc zc an (x i) (y i) (z i)) val name vp f
        args.nlags args.weight "euclidean" = .ok (lags, ps) ∧
      findStatistics (fun i => adjustPoint3 xc yc zc an (x i) (y i) (z i)) val f ps "euclidean"
        args.pseudoInv = .ok stats ∧
      s = { variogramModel := .name name
            model := model
            exactValues := exact
            pseudoInv := args.pseudoInv
            pseudoInvType := args.pseudoInvType
            variogramFunction := f
            functionName := fname
            X_ORIG := x
            Y_ORIG := y
            Z_ORIG := z
            VALUES := val
            XCENTER := xc
            YCENTER := yc
            ZCENTER := zc
            aniso := an
            X_ADJUSTED := fun i => adjustPoint3 xc yc zc an (x i) (y i) (z i) 0
            Y_ADJUSTED := fun i => adjustPoint3 xc yc zc an (x i) (y i) (z i) 1
            Z_ADJUSTED := fun i => adjustPoint3 xc yc zc an (x i) (y i) (z i) 2
            lags := lags
            params := ps
            stats := some stats } := by
  unfold OK3D.create at h
  by_cases hp : args.pseudoInvType ∈ ["pinv", "pinvh"]
  swap
  · rw [if_pos hp] at h; simp at h
  refine ⟨hp, ?_⟩
  rw [if_neg (not_not.2 hp)] at h
  cases he : args.exactValues with
  | notBool => rw [he] at h; simp at h
  | bool exact =>
    rw [he] at h
    simp only [py_pure, py_ok_bind, py_bind_eq_ok, Prod.exists] at h
    obtain ⟨name, model, fArg, pArg, an, h1, f, fname, h2, xc, h3, yc, h4, zc, h5, vp, h6,
      lags, ps, h7, st, h8, h9⟩ := h
    exact ⟨exact, name, model, fArg, pArg, an, f, fname, xc, yc, zc, vp, lags, ps, st,
      rfl, h1, h2, h3, h4, h5, h6, h7, h8, (Except.ok.inj h9).symm⟩

theorem UK.create_ok {n : ℕ} {env : Env} {x y z : Fin n → ℝ} {args : UKArgs} {s : UK n}
    (h : UK.create env x y z args = .ok s) :
    args.pseudoInvType ∈ ["pinv", "pinvh"] ∧
    ∃ exact name model fArg pArg sc an f fname xc yc vp lags ps stats ext plog spec func,
      args.exactValues = .bool exact ∧
      UK.resolveModel env args.variogramModel args.variogramFunction args.params
        args.anisotropyScaling args.anisotropyAngle = .ok (name, model, fArg, pArg, sc, an) ∧
      chooseFunction name fArg = .ok (f, fname) ∧
      midrange x = .ok xc ∧ midrange y = .ok yc ∧
      makeVariogramParameterList name pArg = .ok vp ∧
      initializeVariogramModel env (adjustData2 x y xc yc sc an) z name vp f
        args.nlags args.weight "euclidean" = .ok (lags, ps) ∧
      findStatistics (adjustData2 x y xc yc sc an) z f ps "euclidean" args.pseudoInv = .ok stats ∧
      setupExternalZ x y args = .ok ext ∧
      setupPointLog xc yc sc an args = .ok plog ∧
      setupSpecifiedTerm n args.driftTerms args.specifiedDrift = .ok spec ∧
      setupFunctionalTerm args.driftTerms args.functionalDrift = .ok func ∧
      s = { variogramModel := .name name
            model := model
            exactValues := exact
            pseudoInv := args.pseudoInv
            pseudoInvType := args.pseudoInvType
            variogramFunction := f
            functionName := fname
            X_ORIG := x
            Y_ORIG := y
            Z := z
            XCENTER := xc
            YCENTER := yc
            anisotropyScaling := sc
            anisotropyAngle := an
            X_ADJUSTED := fun i => adjustData2 x y xc yc sc an i 0
            Y_ADJUSTED := fun i => adjustData2 x y xc yc sc an i 1
            lags := lags
            params := ps
            stats := some stats
            regionalLinear := decide ("regional_linear" ∈ args.driftTerms)
            pointLog := plog
            externalZ := ext
            specified := spec
            functional := func } := by
  unfold UK.create at h
  by_cases hp : args.pseudoInvType ∈ ["pinv", "pinvh"]
  swap
  · rw [if_pos hp] at h; simp at h
  refine ⟨hp, ?_⟩
  rw [if_neg (not_not.2 hp)] at h
  cases he : args.exactValues with
  | notBool => rw [he] at h; simp at h
  | bool exact =>
    rw [he] at h
    simp only [py_pure, py_ok_bind, py_bind_eq_ok, Prod.exists] at h
    obtain ⟨name, model, fArg, pArg, sc, an, h1, f, fname, h2, xc, h3, yc, h4, vp, h6,
      lags, ps, h7, st, h8, ext, h9, plog, h10, spec, h11, func, h12, h13⟩ := h
    exact ⟨exact, name, model, fArg, pArg, sc, an, f, fname, xc, yc, vp, lags, ps, st, ext, plog,
      spec, func, rfl, h1, h2, h3, h4, h6, h7, h8, h9, h10, h11, h12, (Except.ok.inj h13).symm⟩

theorem UK3D.create_ok {n : ℕ} {env : Env} {x y z val : Fin n → ℝ} {args : UK3DArgs} {s : UK3D n}
    (h : UK3D.create env x y z val args = .ok s) :
    args.pseudoInvType ∈ ["pinv", "pinvh"] ∧
    ∃ exact name model fArg pArg an f fname xc yc zc vp lags ps stats spec func,
      args.exactValues = .bool exact ∧
      OK3D.resolveModel env args.variogramModel args.variogramFunction args.params args.aniso =
        .ok (name, model, fArg, pArg, an) ∧
      chooseFunction name fArg = .ok (f, fname) ∧
      midrange x = .ok xc ∧ midrange y = .ok yc ∧ midrange z = .ok zc ∧
      makeVariogramParameterList name pArg = .ok vp ∧
      initializeVariogramModel env (fun i => adjustPoint3 xc yc zc an (x i) (y i) (z i)) val name vp f
        args.nlags args.weight "euclidean" = .ok (lags, ps) ∧
      findStatistics (fun i => adjustPoint3 xc yc zc an (x i) (y i) (z i)) val f ps "euclidean"
        args.pseudoInv = .ok stats ∧
      setupSpecifiedTerm n args.driftTerms args.specifiedDrift = .ok spec ∧
      setupFunctionalTerm args.driftTerms args.functionalDrift = .ok func ∧
      s = { variogramModel := .name name
            model := model
            exactValues := exact
            pseudoInv := args.pseudoInv
            pseudoInvType := args.pseudoInvType
            variogramFunction := f
            functionName := fname
            X_ORIG := x
            Y_ORIG := y
            Z_ORIG := z
            VALUES := val
            XCENTER := xc
            YCENTER := yc
            ZCENTER := zc
            aniso := an
            X_ADJUSTED := fun i => adjustPoint3 xc yc zc an (x i) (y i) (z i) 0
            Y_ADJUSTED := fun i => adjustPoint3 xc yc zc an (x i) (y i) (z i) 1
            Z_ADJUSTED := fun i => adjustPoint3 xc yc zc an (x i) (y i) (z i) 2
            lags := lags
            params := ps
            stats := some stats
            regionalLinear := decide ("regional_linear" ∈ args.driftTerms)
            specified := spec
            functional := func } := by
  unfold UK3D.create at h
  by_cases hp : args.pseudoInvType ∈ ["pinv", "pinvh"]
  swap
  · rw [if_pos hp] at h; simp at h
  refine ⟨hp, ?_⟩
  rw [if_neg (not_not.2 hp)] at h
  cases he : args.exactValues with
  | notBool => rw [he] at h; simp at h
  | bool exact =>
    rw [he] at h
    simp only [py_pure, py_ok_bind, py_bind_eq_ok, Prod.exists] at h
    obtain ⟨name, model, fArg, pArg, an, h1, f, fname, h2, xc, h3, yc, h4, zc, h5, vp, h6,
      lags, ps, h7, st, h8, spec, h9, func, h10, h11⟩ := h
    exact ⟨exact, name, model, fArg, pArg, an, f, fname, xc, yc, zc, vp, lags, ps, st, spec, func,
      rfl, h1, h2, h3, h4, h5, h6, h7, h8, h9, h10, (Except.ok.inj h11).symm⟩

end
end PyKrige
