import Verif.Model.Report

/-!
What the constructors and `update_variogram_model` print with `verbose=True`.  `Model/OK.lean`, `Model/OK3D.lean`,
`Model/UK.lean` and `Model/UK3D.lean` leave printing out; here the same statements are transcribed a second time, with
every `print`.  The report reads the parameter list by index, so printing could itself raise.  Plotting (and the line
`Plotting Enabled`) is not modelled.
-/

namespace PyKrige
noncomputable section

/-- One call of `print`: a text, or a label followed by a number.  How `print` writes the number, and the
additional line break (a last argument `"\\n"`), are not modelled. -/
inductive Printed
  | text (s : String)
  | value (label : String) (v : ℝ)

/-- A Python call that prints and may raise: what it printed, in order, and its result. -/
structure Out (α : Type) where
  lines : List Printed
  result : Py α

/-- One statement after the other: after an exception nothing is printed any more. -/
def Out.bind {α β : Type} (x : Out α) (f : α → Out β) : Out β :=
  match x.result with
  | .ok a => ⟨x.lines ++ (f a).lines, (f a).result⟩
  | .error e => ⟨x.lines, .error e⟩

instance : Monad Out where
  pure a := ⟨[], .ok a⟩
  bind := Out.bind

/-- A call that prints nothing. -/
def Out.quiet {α : Type} (x : Py α) : Out α := ⟨[], x⟩

/-- `if self.verbose: print(...)` -/
def say (verbose : Bool) (l : Printed) : Out Unit := ⟨if verbose then [l] else [], .ok ()⟩

/-- The lines about the variogram model; ok.py:334-354, 513-533, ok3d.py:325-346, 509-530, uk.py:353-374, 747-768,
uk3d.py:353-374, 594-615. -/
def printModel (verbose : Bool) (name : String) (ps : List ℝ) : Out Unit :=
  if verbose then
    if name = "linear" then do
      say true (.text "Using 'linear' Variogram Model")
      let p ← Out.quiet (pyGet ps 0)
      say true (.value "Slope:" p)
      let p ← Out.quiet (pyGet ps 1)
      say true (.value "Nugget:" p)
    else if name = "power" then do
      say true (.text "Using 'power' Variogram Model")
      let p ← Out.quiet (pyGet ps 0)
      say true (.value "Scale:" p)
      let p ← Out.quiet (pyGet ps 1)
      say true (.value "Exponent:" p)
      let p ← Out.quiet (pyGet ps 2)
      say true (.value "Nugget:" p)
    else if name = "custom" then say true (.text "Using Custom Variogram Model")
    else do
      say true (.text ("Using '" ++ name ++ "' Variogram Model"))
      let p ← Out.quiet (pyGet ps 0)
      say true (.value "Partial Sill:" p)
      let p ← Out.quiet (pyGet ps 0)
      let q ← Out.quiet (pyGet ps 2)
      say true (.value "Full Sill:" (p + q))
      let p ← Out.quiet (pyGet ps 1)
      say true (.value "Range:" p)
      let p ← Out.quiet (pyGet ps 2)
      say true (.value "Nugget:" p)
  else pure ()

/-- The lines about the statistics; ok.py:372-375, 550-553, ok3d.py:363-366, 547-550, uk.py:391-394, 785-788,
uk3d.py:391-394, 632-635. -/
def printStatistics (verbose : Bool) (st : Stats) : Out Unit := do
  say verbose (.value "Q1 =" (calcQ1 st.epsilon))
  say verbose (.value "Q2 =" (calcQ2 st.epsilon))
  say verbose (.value "cR =" (calcCR (calcQ2 st.epsilon) st.sigma))

/-- The coordinates part of the constructor with its line; ok.py:277-308 -/
def OK.setupVerbose {n : ℕ} (X Y : Fin n → ℝ) (coordinatesType : String) (scaling angle : ℝ) (verbose : Bool) :
    Out (ℝ × ℝ × ℝ × ℝ × (Fin n → Fin 2 → ℝ)) :=
  if coordinatesType = "euclidean" then do
    let xc ← Out.quiet (midrange X)
    let yc ← Out.quiet (midrange Y)
    say verbose (.text "Adjusting data for anisotropy...")
    return (xc, yc, scaling, angle, adjustData2 X Y xc yc scaling angle)
  else if coordinatesType = "geographic" then pure (0, 0, 1, 0, fun i => ![X i, Y i])
  else Out.quiet (.error .valueError)

/-- The statistics part of the constructor with its lines; ok.py:358-377 -/
def OK.statisticsVerbose {n : ℕ} (adj : Fin n → Fin 2 → ℝ) (z : Fin n → ℝ) (f : VFun) (ps : List ℝ) (args : OKArgs)
    (verbose : Bool) : Out (Option Stats) :=
  if args.enableStatistics then do
    let st ← Out.quiet (findStatistics adj z f ps args.coordinatesType args.pseudoInv)
    printStatistics verbose st
    return some st
  else pure none

/-- `OrdinaryKriging(..., verbose=verbose)`; ok.py:187-377 -/
def OK.createVerbose {n : ℕ} (env : Env) (x y z : Fin n → ℝ) (args : OKArgs) (verbose : Bool) : Out (OK n) := do
  Out.quiet (if args.pseudoInvType ∉ ["pinv", "pinvh"] then throw .valueError else pure ())
  let exact ← Out.quiet (match args.exactValues with
    | .bool b => pure b
    | .notBool => throw .valueError)
  let (name, model, fArg, pArg, scaling, angle) ← Out.quiet (OK.resolveModel env args.coordinatesType
    args.variogramModel args.variogramFunction args.params args.anisotropyScaling args.anisotropyAngle)
  let (f, fname) ← Out.quiet (chooseFunction name fArg)
  let (xc, yc, scaling, angle, adj) ← OK.setupVerbose x y args.coordinatesType scaling angle verbose
  say verbose (.text "Initializing variogram model...")
  let vp ← Out.quiet (makeVariogramParameterList name pArg)
  let (lags, ps) ← Out.quiet (initializeVariogramModel env adj z name vp f args.nlags args.weight args.coordinatesType)
  say verbose (.text ("Coordinates type: '" ++ args.coordinatesType ++ "'"))
  printModel verbose name ps
  say verbose (.text "Calculating statistics on variogram model fit...")
  let stats ← OK.statisticsVerbose adj z f ps args verbose
  return { variogramModel := .name name
           model := model
           exactValues := exact
           coordinatesType := args.coordinatesType
           pseudoInv := args.pseudoInv
           pseudoInvType := args.pseudoInvType
           variogramFunction := f
           functionName := fname
           X_ORIG := x
           Y_ORIG := y
           Z := z
           XCENTER := xc
           YCENTER := yc
           anisotropyScaling := scaling
           anisotropyAngle := angle
           X_ADJUSTED := fun i => adj i 0
           Y_ADJUSTED := fun i => adj i 1
           lags := lags
           params := ps
           paramsInt := intParams pArg ps args.paramsAllInt
           stats := stats }

open Classical in
/-- `update_variogram_model` of an object with `verbose` set; ok.py:379-553.  What it printed, what it raised, and the object
afterwards. -/
def OK.updateVerbose {n : ℕ} (env : Env) (s : OK n) (u : OKUpdate) (verbose : Bool) :
    List Printed × Py Unit × OK n :=
  let s := { s with variogramModel := u.variogramModel, model := none }
  match OK.resolveModel env s.coordinatesType u.variogramModel u.variogramFunction u.params
      u.anisotropyScaling u.anisotropyAngle with
  | .error e =>
    ([], .error e, match u.variogramModel with
      | .gstools m => { s with model := some m }
      | .name _ => s)
  | .ok (name, model, fArg, pArg, scaling, angle) =>
  let s := { s with variogramModel := .name name, model := model }
  match chooseFunction name fArg with
  | .error e => ([], .error e, s)
  | .ok (f, fname) =>
  let s := { s with variogramFunction := f, functionName := fname }
  let out := (say (verbose && decide ((scaling ≠ s.anisotropyScaling ∨ angle ≠ s.anisotropyAngle) ∧ s.coordinatesType = "euclidean"))
    (.text "Adjusting data for anisotropy...")).lines
  let s := s.reAniso scaling angle
  let out := out ++ (say verbose (.text "Updating variogram mode...")).lines
  match makeVariogramParameterList name pArg with
  | .error e => (out, .error e, s)
  | .ok vp =>
  match initializeVariogramModel env s.pts s.Z name vp f u.nlags u.weight s.coordinatesType with
  | .error e => (out, .error e, s)
  | .ok (lags, ps) =>
  let s := { s with lags := lags, params := ps, paramsInt := intParams pArg ps u.paramsAllInt }
  let out := out ++ (say verbose (.text ("Coordinates type: '" ++ s.coordinatesType ++ "'"))).lines
  match printModel verbose name ps with
  | ⟨lines, .error e⟩ => (out ++ lines, .error e, s)
  | ⟨lines, .ok ()⟩ =>
  let out := out ++ lines ++ (say verbose (.text "Calculating statistics on variogram model fit...")).lines
  match findStatistics s.pts s.Z f ps s.coordinatesType s.pseudoInv with
  | .error e => (out, .error e, s)
  | .ok st => (out ++ (printStatistics verbose st).lines, .ok (), { s with stats := some st })

/-- `OrdinaryKriging3D(..., verbose=verbose)`; ok3d.py:198-366 -/
def OK3D.createVerbose {n : ℕ} (env : Env) (x y z val : Fin n → ℝ) (args : OK3DArgs) (verbose : Bool) :
    Out (OK3D n) := do
  Out.quiet (if args.pseudoInvType ∉ ["pinv", "pinvh"] then throw .valueError else pure ())
  let exact ← Out.quiet (match args.exactValues with
    | .bool b => pure b
    | .notBool => throw .valueError)
  let (name, model, fArg, pArg, an) ← Out.quiet (OK3D.resolveModel env args.variogramModel
    args.variogramFunction args.params args.aniso)
  let (f, fname) ← Out.quiet (chooseFunction name fArg)
  let xc ← Out.quiet (midrange x)
  let yc ← Out.quiet (midrange y)
  let zc ← Out.quiet (midrange z)
  say verbose (.text "Adjusting data for anisotropy...")
  let adj := fun i => adjustPoint3 xc yc zc an (x i) (y i) (z i)
  say verbose (.text "Initializing variogram model...")
  let vp ← Out.quiet (makeVariogramParameterList name pArg)
  let (lags, ps) ← Out.quiet (initializeVariogramModel env adj val name vp f args.nlags args.weight "euclidean")
  printModel verbose name ps
  say verbose (.text "Calculating statistics on variogram model fit...")
  let stats ← Out.quiet (findStatistics adj val f ps "euclidean" args.pseudoInv)
  printStatistics verbose stats
  return { variogramModel := .name name
           model := model
           exactValues := exact
           pseudoInv := args.pseudoInv
           pseudoInvType := args.pseudoInvType
           variogramFunction := f
           functionName := fname
           X_ORIG := x
           Y_ORIG := y
           Z_ORIG := z
           VALUES := val
           XCENTER := xc
           YCENTER := yc
           ZCENTER := zc
           aniso := an
           X_ADJUSTED := fun i => adj i 0
           Y_ADJUSTED := fun i => adj i 1
           Z_ADJUSTED := fun i => adj i 2
           lags := lags
           params := ps
           stats := some stats }

open Classical in
/-- `update_variogram_model` of an object with `verbose` set; ok3d.py:368-550.  What it printed, what it raised, and the object
afterwards. -/
def OK3D.updateVerbose {n : ℕ} (env : Env) (s : OK3D n) (u : Update3D) (verbose : Bool) :
    List Printed × Py Unit × OK3D n :=
  let s := { s with variogramModel := u.variogramModel, model := none }
  match OK3D.resolveModel env u.variogramModel u.variogramFunction u.params u.aniso with
  | .error e =>
    ([], .error e, match u.variogramModel with
      | .gstools m => { s with model := some m }
      | .name _ => s)
  | .ok (name, model, fArg, pArg, an) =>
  let s := { s with variogramModel := .name name, model := model }
  match chooseFunction name fArg with
  | .error e => ([], .error e, s)
  | .ok (f, fname) =>
  let s := { s with variogramFunction := f, functionName := fname }
  let out := (say (verbose && decide (an.scalingY ≠ s.aniso.scalingY ∨ an.scalingZ ≠ s.aniso.scalingZ ∨
      an.angleX ≠ s.aniso.angleX ∨ an.angleY ≠ s.aniso.angleY ∨ an.angleZ ≠ s.aniso.angleZ))
    (.text "Adjusting data for anisotropy...")).lines
  let s := s.reAniso an
  let out := out ++ (say verbose (.text "Updating variogram mode...")).lines
  match makeVariogramParameterList name pArg with
  | .error e => (out, .error e, s)
  | .ok vp =>
  match initializeVariogramModel env s.pts s.VALUES name vp f u.nlags u.weight "euclidean" with
  | .error e => (out, .error e, s)
  | .ok (lags, ps) =>
  let s := { s with lags := lags, params := ps }
  match printModel verbose name ps with
  | ⟨lines, .error e⟩ => (out ++ lines, .error e, s)
  | ⟨lines, .ok ()⟩ =>
  let out := out ++ lines ++ (say verbose (.text "Calculating statistics on variogram model fit...")).lines
  match findStatistics s.pts s.VALUES f ps "euclidean" s.pseudoInv with
  | .error e => (out, .error e, s)
  | .ok st => (out ++ (printStatistics verbose st).lines, .ok (), { s with stats := some st })

/-- The line about the wells: their number; uk.py:459-465 -/
def sayWells (verbose : Bool) (wells : Option (List (ℝ × ℝ × ℝ))) : Out Unit :=
  match wells with
  | none => pure ()
  | some w => say verbose (.value "Implementing external point-logarithmic drift; number of points =" w.length)

/-- `UniversalKriging(..., verbose=verbose)`; uk.py:220-510 -/
def UK.createVerbose {n : ℕ} (env : Env) (x y z : Fin n → ℝ) (args : UKArgs) (verbose : Bool) : Out (UK n) := do
  Out.quiet (if args.pseudoInvType ∉ ["pinv", "pinvh"] then throw .valueError else pure ())
  let exact ← Out.quiet (match args.exactValues with
    | .bool b => pure b
    | .notBool => throw .valueError)
  let (name, model, fArg, pArg, scaling, angle) ← Out.quiet (UK.resolveModel env
    args.variogramModel args.variogramFunction args.params args.anisotropyScaling args.anisotropyAngle)
  let (f, fname) ← Out.quiet (chooseFunction name fArg)
  let xc ← Out.quiet (midrange x)
  let yc ← Out.quiet (midrange y)
  say verbose (.text "Adjusting data for anisotropy...")
  let adj := adjustData2 x y xc yc scaling angle
  say verbose (.text "Initializing variogram model...")
  let vp ← Out.quiet (makeVariogramParameterList name pArg)
  let (lags, ps) ← Out.quiet (initializeVariogramModel env adj z name vp f args.nlags args.weight "euclidean")
  printModel verbose name ps
  say verbose (.text "Calculating statistics on variogram model fit...")
  let stats ← Out.quiet (findStatistics adj z f ps "euclidean" args.pseudoInv)
  printStatistics verbose stats
  say verbose (.text "Initializing drift terms...")
  say (verbose && decide ("regional_linear" ∈ args.driftTerms)) (.text "Implementing regional linear drift.")
  let ext ← Out.quiet (setupExternalZ x y args)
  say (verbose && decide ("external_Z" ∈ args.driftTerms)) (.text "Implementing external Z drift.")
  let plog ← Out.quiet (setupPointLog xc yc scaling angle args)
  sayWells verbose plog
  let spec ← Out.quiet (setupSpecifiedTerm n args.driftTerms args.specifiedDrift)
  let func ← Out.quiet (setupFunctionalTerm args.driftTerms args.functionalDrift)
  return { variogramModel := .name name
           model := model
           exactValues := exact
           pseudoInv := args.pseudoInv
           pseudoInvType := args.pseudoInvType
           variogramFunction := f
           functionName := fname
           X_ORIG := x
           Y_ORIG := y
           Z := z
           XCENTER := xc
           YCENTER := yc
           anisotropyScaling := scaling
           anisotropyAngle := angle
           X_ADJUSTED := fun i => adj i 0
           Y_ADJUSTED := fun i => adj i 1
           lags := lags
           params := ps
           stats := some stats
           regionalLinear := decide ("regional_linear" ∈ args.driftTerms)
           pointLog := plog
           externalZ := ext
           specified := spec
           functional := func }

open Classical in
/-- `update_variogram_model` of an object with `verbose` set; uk.py:630-788.  What it printed, what it raised, and the object
afterwards. -/
def UK.updateVerbose {n : ℕ} (env : Env) (s : UK n) (u : OKUpdate) (verbose : Bool) :
    List Printed × Py Unit × UK n :=
  let s := { s with variogramModel := u.variogramModel, model := none }
  match UK.resolveModel env u.variogramModel u.variogramFunction u.params
      u.anisotropyScaling u.anisotropyAngle with
  | .error e =>
    ([], .error e, match u.variogramModel with
      | .gstools m => { s with model := some m }
      | .name _ => s)
  | .ok (name, model, fArg, pArg, scaling, angle) =>
  let s := { s with variogramModel := .name name, model := model }
  match chooseFunction name fArg with
  | .error e => ([], .error e, s)
  | .ok (f, fname) =>
  let s := { s with variogramFunction := f, functionName := fname }
  let out := (say (verbose && decide (scaling ≠ s.anisotropyScaling ∨ angle ≠ s.anisotropyAngle))
    (.text "Adjusting data for anisotropy...")).lines
  let s := s.reAniso scaling angle
  let out := out ++ (say verbose (.text "Updating variogram mode...")).lines
  match makeVariogramParameterList name pArg with
  | .error e => (out, .error e, s)
  | .ok vp =>
  match initializeVariogramModel env s.pts s.Z name vp f u.nlags u.weight "euclidean" with
  | .error e => (out, .error e, s)
  | .ok (lags, ps) =>
  let s := { s with lags := lags, params := ps }
  match printModel verbose name ps with
  | ⟨lines, .error e⟩ => (out ++ lines, .error e, s)
  | ⟨lines, .ok ()⟩ =>
  let out := out ++ lines ++ (say verbose (.text "Calculating statistics on variogram model fit...")).lines
  match findStatistics s.pts s.Z f ps "euclidean" s.pseudoInv with
  | .error e => (out, .error e, s)
  | .ok st => (out ++ (printStatistics verbose st).lines, .ok (), { s with stats := some st })

/-- `UniversalKriging3D(..., verbose=verbose)`; uk3d.py:216-450 -/
def UK3D.createVerbose {n : ℕ} (env : Env) (x y z val : Fin n → ℝ) (args : UK3DArgs) (verbose : Bool) :
    Out (UK3D n) := do
  Out.quiet (if args.pseudoInvType ∉ ["pinv", "pinvh"] then throw .valueError else pure ())
  let exact ← Out.quiet (match args.exactValues with
    | .bool b => pure b
    | .notBool => throw .valueError)
  let (name, model, fArg, pArg, an) ← Out.quiet (OK3D.resolveModel env args.variogramModel
    args.variogramFunction args.params args.aniso)
  let (f, fname) ← Out.quiet (chooseFunction name fArg)
  let xc ← Out.quiet (midrange x)
  let yc ← Out.quiet (midrange y)
  let zc ← Out.quiet (midrange z)
  say verbose (.text "Adjusting data for anisotropy...")
  let adj := fun i => adjustPoint3 xc yc zc an (x i) (y i) (z i)
  say verbose (.text "Initializing variogram model...")
  let vp ← Out.quiet (makeVariogramParameterList name pArg)
  let (lags, ps) ← Out.quiet (initializeVariogramModel env adj val name vp f args.nlags args.weight "euclidean")
  printModel verbose name ps
  say verbose (.text "Calculating statistics on variogram model fit...")
  let stats ← Out.quiet (findStatistics adj val f ps "euclidean" args.pseudoInv)
  printStatistics verbose stats
  say verbose (.text "Initializing drift terms...")
  say (verbose && decide ("regional_linear" ∈ args.driftTerms)) (.text "Implementing regional linear drift.")
  let spec ← Out.quiet (setupSpecifiedTerm n args.driftTerms args.specifiedDrift)
  let func ← Out.quiet (setupFunctionalTerm args.driftTerms args.functionalDrift)
  return { variogramModel := .name name
           model := model
           exactValues := exact
           pseudoInv := args.pseudoInv
           pseudoInvType := args.pseudoInvType
           variogramFunction := f
           functionName := fname
           X_ORIG := x
           Y_ORIG := y
           Z_ORIG := z
           VALUES := val
           XCENTER := xc
           YCENTER := yc
           ZCENTER := zc
           aniso := an
           X_ADJUSTED := fun i => adj i 0
           Y_ADJUSTED := fun i => adj i 1
           Z_ADJUSTED := fun i => adj i 2
           lags := lags
           params := ps
           stats := some stats
           regionalLinear := decide ("regional_linear" ∈ args.driftTerms)
           specified := spec
           functional := func }

open Classical in
/-- `update_variogram_model` of an object with `verbose` set; uk3d.py:452-635.  What it printed, what it raised, and the object
afterwards. -/
def UK3D.updateVerbose {n : ℕ} (env : Env) (s : UK3D n) (u : Update3D) (verbose : Bool) :
    List Printed × Py Unit × UK3D n :=
  let s := { s with variogramModel := u.variogramModel, model := none }
  match OK3D.resolveModel env u.variogramModel u.variogramFunction u.params u.aniso with
  | .error e =>
    ([], .error e, match u.variogramModel with
      | .gstools m => { s with model := some m }
      | .name _ => s)
  | .ok (name, model, fArg, pArg, an) =>
  let s := { s with variogramModel := .name name, model := model }
  match chooseFunction name fArg with
  | .error e => ([], .error e, s)
  | .ok (f, fname) =>
  let s := { s with variogramFunction := f, functionName := fname }
  let out := (say (verbose && decide (an.scalingY ≠ s.aniso.scalingY ∨ an.scalingZ ≠ s.aniso.scalingZ ∨
      an.angleX ≠ s.aniso.angleX ∨ an.angleY ≠ s.aniso.angleY ∨ an.angleZ ≠ s.aniso.angleZ))
    (.text "Adjusting data for anisotropy...")).lines
  let s := s.reAniso an
  let out := out ++ (say verbose (.text "Updating variogram mode...")).lines
  match makeVariogramParameterList name pArg with
  | .error e => (out, .error e, s)
  | .ok vp =>
  match initializeVariogramModel env s.pts s.VALUES name vp f u.nlags u.weight "euclidean" with
  | .error e => (out, .error e, s)
  | .ok (lags, ps) =>
  let s := { s with lags := lags, params := ps }
  match printModel verbose name ps with
  | ⟨lines, .error e⟩ => (out ++ lines, .error e, s)
  | ⟨lines, .ok ()⟩ =>
  let out := out ++ lines ++ (say verbose (.text "Calculating statistics on variogram model fit...")).lines
  match findStatistics s.pts s.VALUES f ps "euclidean" s.pseudoInv with
  | .error e => (out, .error e, s)
  | .ok st => (out ++ (printStatistics verbose st).lines, .ok (), { s with stats := some st })

end
end PyKrige
