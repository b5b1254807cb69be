import Verif.Props.C82

/-!
# C82: the messages of a verbose call

All lines of text that a call prints, in order: which steps are announced, and that a drift or an adjustment of the
coordinates is announced exactly if it takes place.
-/

namespace PyKrige
noncomputable section
open Spec
open scoped Classical

/-- The lines of text in the output. -/
def Spec.messages : List Printed → List String
  | [] => []
  | .text t :: l => t :: messages l
  | .value _ _ :: l => messages l

/-- The text that names the model. -/
def Spec.modelText (model : String) : String :=
  if model = "custom" then "Using Custom Variogram Model" else "Using '" ++ model ++ "' Variogram Model"

theorem messages_append (l k : List Printed) : messages (l ++ k) = messages l ++ messages k := by
  induction l with
  | nil => rfl
  | cons a l ih => cases a <;> simp [messages, ih]

theorem say_messages (b : Bool) (t : String) : messages (say b (.text t)).lines = if b then [t] else [] := by cases b <;> rfl

theorem printModel_messages {name : String} {fArg : FunArg} {f : VFun} {fname : String} {ps : List ℝ}
    (hf : chooseFunction name fArg = .ok (f, fname))
    (hp : (name = "linear" → ps.length = 2) ∧
      (name ∈ ["power", "spherical", "exponential", "gaussian", "hole-effect"] → ps.length = 3)) :
    messages (printModel true name ps).lines = [modelText name] := by
  unfold chooseFunction at hf
  split_ifs at hf with h1 h2
  · subst h2
    rfl
  · have hd : variogramDict name = some f := by
      split at hf
      · next g hg => cases hf; exact hg
      · cases hf
    have h3 : ∀ l : List ℝ, l.length = 3 → ∃ a b c, l = [a, b, c] := by
      intro l hl; match l, hl with | [a, b, c], _ => exact ⟨a, b, c, rfl⟩
    clear hf h1
    unfold variogramDict at hd
    split_ifs at hd with e e e e e e
    · subst e
      obtain ⟨a, b, rfl⟩ : ∃ a b, ps = [a, b] := by
        have := hp.1 rfl
        match ps, this with | [a, b], _ => exact ⟨a, b, rfl⟩
      rfl
    all_goals
      subst e
      obtain ⟨a, b, c, rfl⟩ := h3 _ (hp.2 (by simp))
      rfl

theorem printStatistics_messages (b : Bool) (st : Stats) : messages (printStatistics b st).lines = [] := by cases b <;> rfl

theorem sayWells_messages (b : Bool) (w : Option (List (ℝ × ℝ × ℝ))) : messages (sayWells b w).lines = [] := by
  cases b <;> cases w <;> rfl

/-- What `OrdinaryKriging3D(…, verbose=True)` announces. -/
theorem C82_messages_ok3d {n : ℕ} {env : Env} (hl : LsqSpec env) {x y z v : Fin n → ℝ} {args : OK3DArgs} {s : OK3D n}
    (h : OK3D.create env x y z v args = .ok s) : ∃ name, s.variogramModel = .name name ∧
    messages (OK3D.createVerbose env x y z v args true).lines = ["Adjusting data for anisotropy...", "Initializing variogram model...",
      modelText name, "Calculating statistics on variogram model fit..."] := by
  obtain ⟨hpt, exact, name, model, fArg, pArg, an, f, fname, xc, yc, zc, vp, lags, ps, stats, h1, h2, h3, h4, h5, h6, h7, h8, h9, rfl⟩ := OK3D.create_ok h
  have hm := printModel_messages h3 (initialize_length hl h7 h8)
  have hr := (printModel_true h3 (initialize_length hl h7 h8)).1
  refine ⟨name, rfl, ?_⟩
  unfold OK3D.createVerbose
  rw [if_neg (not_not.2 hpt)]
  simp only [py_pure, quiet_ok_bind, h1, h2, h3, h4, h5, h6, h7, h8, h9, say_bind]
  rw [out_ok_bind hr]
  try simp only [quiet_ok_bind, h1, h2, h3, h4, h5, h6, h7, h8, h9, say_bind]
  rw [out_ok_bind (printStatistics_snd true stats)]
  simp [messages_append, messages, say_messages, hm, printStatistics_messages, sayWells_messages]

/-- What `UniversalKriging(…, verbose=True)` announces: in particular the drift terms in use. -/
theorem C82_messages_uk {n : ℕ} {env : Env} (hl : LsqSpec env) {x y z : Fin n → ℝ} {args : UKArgs} {s : UK n}
    (h : UK.create env x y z args = .ok s) : ∃ name, s.variogramModel = .name name ∧
    messages (UK.createVerbose env x y z args true).lines = ["Adjusting data for anisotropy...", "Initializing variogram model...",
      modelText name, "Calculating statistics on variogram model fit..."]
      ++ ["Initializing drift terms..."]
      ++ (if "regional_linear" ∈ args.driftTerms then ["Implementing regional linear drift."] else [])
      ++ (if "external_Z" ∈ args.driftTerms then ["Implementing external Z drift."] else []) := by
  obtain ⟨hpt, exact, name, model, fArg, pArg, sc, an, f, fname, xc, yc, vp, lags, ps, stats, ext, plog, spec, func, h1, h2, h3, h4, h5, h6, h7, h8, h9, h10, h11, h12, rfl⟩ := UK.create_ok h
  have hm := printModel_messages h3 (initialize_length hl h6 h7)
  have hr := (printModel_true h3 (initialize_length hl h6 h7)).1
  refine ⟨name, rfl, ?_⟩
  unfold UK.createVerbose
  rw [if_neg (not_not.2 hpt)]
  simp only [py_pure, quiet_ok_bind, h1, h2, h3, h4, h5, h6, h7, h8, h9, h10, h11, h12, say_bind]
  rw [out_ok_bind hr]
  try simp only [quiet_ok_bind, h1, h2, h3, h4, h5, h6, h7, h8, h9, h10, h11, h12, say_bind]
  rw [out_ok_bind (printStatistics_snd true stats)]
  try simp only [quiet_ok_bind, h1, h2, h3, h4, h5, h6, h7, h8, h9, h10, h11, h12, say_bind]
  rw [out_ok_bind (sayWells_result true plog)]
  try simp only [quiet_ok_bind, h1, h2, h3, h4, h5, h6, h7, h8, h9, h10, h11, h12, say_bind]
  simp [messages_append, messages, say_messages, hm, printStatistics_messages, sayWells_messages]

/-- What `UniversalKriging3D(…, verbose=True)` announces. -/
theorem C82_messages_uk3d {n : ℕ} {env : Env} (hl : LsqSpec env) {x y z v : Fin n → ℝ} {args : UK3DArgs} {s : UK3D n}
    (h : UK3D.create env x y z v args = .ok s) : ∃ name, s.variogramModel = .name name ∧
    messages (UK3D.createVerbose env x y z v args true).lines = ["Adjusting data for anisotropy...", "Initializing variogram model...",
      modelText name, "Calculating statistics on variogram model fit..."]
      ++ ["Initializing drift terms..."]
      ++ (if "regional_linear" ∈ args.driftTerms then ["Implementing regional linear drift."] else []) := by
  obtain ⟨hpt, exact, name, model, fArg, pArg, an, f, fname, xc, yc, zc, vp, lags, ps, stats, spec, func, h1, h2, h3, h4, h5, h6, h7, h8, h9, h10, h11, rfl⟩ := UK3D.create_ok h
  have hm := printModel_messages h3 (initialize_length hl h7 h8)
  have hr := (printModel_true h3 (initialize_length hl h7 h8)).1
  refine ⟨name, rfl, ?_⟩
  unfold UK3D.createVerbose
  rw [if_neg (not_not.2 hpt)]
  simp only [py_pure, quiet_ok_bind, h1, h2, h3, h4, h5, h6, h7, h8, h9, h10, h11, say_bind]
  rw [out_ok_bind hr]
  try simp only [quiet_ok_bind, h1, h2, h3, h4, h5, h6, h7, h8, h9, h10, h11, say_bind]
  rw [out_ok_bind (printStatistics_snd true stats)]
  try simp only [quiet_ok_bind, h1, h2, h3, h4, h5, h6, h7, h8, h9, h10, h11, say_bind]
  simp [messages_append, messages, say_messages, hm, printStatistics_messages, sayWells_messages]

/-- What `update_variogram_model` of a verbose `UniversalKriging` object announces: an adjustment of the coordinates exactly if
the anisotropy of the object changes. -/
theorem C82_messages_update_uk {n : ℕ} {env : Env} (hl : LsqSpec env) {s s' : UK n} {u : OKUpdate}
    (h : UK.update env s u = (.ok (), s')) : ∃ name, s'.variogramModel = .name name ∧
    messages (UK.updateVerbose env s u true).1 = (if s'.anisotropyScaling ≠ s.anisotropyScaling ∨ s'.anisotropyAngle ≠ s.anisotropyAngle then ["Adjusting data for anisotropy..."] else []) ++
      ["Updating variogram mode...", modelText name, "Calculating statistics on variogram model fit..."] := by
  unfold UK.update at h
  unfold UK.updateVerbose
  dsimp only at h ⊢
  cases hres : UK.resolveModel env u.variogramModel u.variogramFunction u.params u.anisotropyScaling u.anisotropyAngle with
  | error e => rw [hres] at h; cases h
  | ok r =>
  obtain ⟨name, model, fArg, pArg, scaling, angle⟩ := r
  rw [hres] at h
  dsimp only at h ⊢
  cases hf : chooseFunction name fArg with
  | error e => rw [hf] at h; cases h
  | ok r =>
  obtain ⟨f, fname⟩ := r
  rw [hf] at h
  dsimp only at h ⊢
  have hmf : (UK.reAniso ({ s with variogramModel := .name name, model := model, variogramFunction := f, functionName := fname } : UK n) scaling angle).variogramModel = .name name ∧
      ((scaling ≠ s.anisotropyScaling ∨ angle ≠ s.anisotropyAngle) ↔ (UK.reAniso ({ s with variogramModel := .name name, model := model, variogramFunction := f, functionName := fname } : UK n) scaling angle).anisotropyScaling ≠ s.anisotropyScaling ∨ (UK.reAniso ({ s with variogramModel := .name name, model := model, variogramFunction := f, functionName := fname } : UK n) scaling angle).anisotropyAngle ≠ s.anisotropyAngle) := by
    unfold UK.reAniso
    split_ifs with hc
    · exact ⟨rfl, Iff.rfl⟩
    · exact ⟨rfl, iff_of_false hc (by simp)⟩
  generalize hs' : UK.reAniso ({ s with variogramModel := .name name, model := model, variogramFunction := f, functionName := fname } : UK n) scaling angle = s₁ at hmf h ⊢
  clear hs'
  cases hp : makeVariogramParameterList name pArg with
  | error e => rw [hp] at h; cases h
  | ok vp =>
  rw [hp] at h
  dsimp only at h ⊢
  cases hi : initializeVariogramModel env s₁.pts s₁.Z name vp f u.nlags u.weight "euclidean" with
  | error e => rw [hi] at h; cases h
  | ok r =>
  obtain ⟨lags, ps⟩ := r
  rw [hi] at h
  dsimp only at h ⊢
  have hm := printModel_messages hf (initialize_length hl hp hi)
  have hr := (printModel_true hf (initialize_length hl hp hi)).1
  have hpm : printModel true name ps = ⟨(printModel true name ps).lines, .ok ()⟩ := by rw [← hr]
  rw [hpm]
  dsimp only
  generalize hst : findStatistics _ _ f ps _ _ = r at h ⊢
  cases r with
  | error e => cases h
  | ok st =>
  obtain rfl := (Prod.mk.inj h).2
  refine ⟨name, hmf.1, ?_⟩
  simp only [messages_append, say_messages, hm, printStatistics_messages, Bool.true_and, decide_eq_true_eq]
  rw [if_congr hmf.2 rfl rfl]
  simp

/-- What `update_variogram_model` of a verbose `OrdinaryKriging3D` object announces: an adjustment of the coordinates exactly if
the anisotropy of the object changes. -/
theorem C82_messages_update_ok3d {n : ℕ} {env : Env} (hl : LsqSpec env) {s s' : OK3D n} {u : Update3D}
    (h : OK3D.update env s u = (.ok (), s')) : ∃ name, s'.variogramModel = .name name ∧
    messages (OK3D.updateVerbose env s u true).1 = (if s'.aniso.scalingY ≠ s.aniso.scalingY ∨ s'.aniso.scalingZ ≠ s.aniso.scalingZ ∨ s'.aniso.angleX ≠ s.aniso.angleX ∨ s'.aniso.angleY ≠ s.aniso.angleY ∨ s'.aniso.angleZ ≠ s.aniso.angleZ then ["Adjusting data for anisotropy..."] else []) ++
      ["Updating variogram mode...", modelText name, "Calculating statistics on variogram model fit..."] := by
  unfold OK3D.update at h
  unfold OK3D.updateVerbose
  dsimp only at h ⊢
  cases hres : OK3D.resolveModel env u.variogramModel u.variogramFunction u.params u.aniso with
  | error e => rw [hres] at h; cases h
  | ok r =>
  obtain ⟨name, model, fArg, pArg, an⟩ := r
  rw [hres] at h
  dsimp only at h ⊢
  cases hf : chooseFunction name fArg with
  | error e => rw [hf] at h; cases h
  | ok r =>
  obtain ⟨f, fname⟩ := r
  rw [hf] at h
  dsimp only at h ⊢
  have hmf : (OK3D.reAniso ({ s with variogramModel := .name name, model := model, variogramFunction := f, functionName := fname } : OK3D n) an).variogramModel = .name name ∧
      ((an.scalingY ≠ s.aniso.scalingY ∨ an.scalingZ ≠ s.aniso.scalingZ ∨ an.angleX ≠ s.aniso.angleX ∨ an.angleY ≠ s.aniso.angleY ∨ an.angleZ ≠ s.aniso.angleZ) ↔ (OK3D.reAniso ({ s with variogramModel := .name name, model := model, variogramFunction := f, functionName := fname } : OK3D n) an).aniso.scalingY ≠ s.aniso.scalingY ∨ (OK3D.reAniso ({ s with variogramModel := .name name, model := model, variogramFunction := f, functionName := fname } : OK3D n) an).aniso.scalingZ ≠ s.aniso.scalingZ ∨ (OK3D.reAniso ({ s with variogramModel := .name name, model := model, variogramFunction := f, functionName := fname } : OK3D n) an).aniso.angleX ≠ s.aniso.angleX ∨ (OK3D.reAniso ({ s with variogramModel := .name name, model := model, variogramFunction := f, functionName := fname } : OK3D n) an).aniso.angleY ≠ s.aniso.angleY ∨ (OK3D.reAniso ({ s with variogramModel := .name name, model := model, variogramFunction := f, functionName := fname } : OK3D n) an).aniso.angleZ ≠ s.aniso.angleZ) := by
    unfold OK3D.reAniso
    split_ifs with hc
    · exact ⟨rfl, Iff.rfl⟩
    · exact ⟨rfl, iff_of_false hc (by simp)⟩
  generalize hs' : OK3D.reAniso ({ s with variogramModel := .name name, model := model, variogramFunction := f, functionName := fname } : OK3D n) an = s₁ at hmf h ⊢
  clear hs'
  cases hp : makeVariogramParameterList name pArg with
  | error e => rw [hp] at h; cases h
  | ok vp =>
  rw [hp] at h
  dsimp only at h ⊢
  cases hi : initializeVariogramModel env s₁.pts s₁.VALUES name vp f u.nlags u.weight "euclidean" with
  | error e => rw [hi] at h; cases h
  | ok r =>
  obtain ⟨lags, ps⟩ := r
  rw [hi] at h
  dsimp only at h ⊢
  have hm := printModel_messages hf (initialize_length hl hp hi)
  have hr := (printModel_true hf (initialize_length hl hp hi)).1
  have hpm : printModel true name ps = ⟨(printModel true name ps).lines, .ok ()⟩ := by rw [← hr]
  rw [hpm]
  dsimp only
  generalize hst : findStatistics _ _ f ps _ _ = r at h ⊢
  cases r with
  | error e => cases h
  | ok st =>
  obtain rfl := (Prod.mk.inj h).2
  refine ⟨name, hmf.1, ?_⟩
  simp only [messages_append, say_messages, hm, printStatistics_messages, Bool.true_and, decide_eq_true_eq]
  rw [if_congr hmf.2 rfl rfl]
  simp

/-- What `update_variogram_model` of a verbose `UniversalKriging3D` object announces: an adjustment of the coordinates exactly if
the anisotropy of the object changes. -/
theorem C82_messages_update_uk3d {n : ℕ} {env : Env} (hl : LsqSpec env) {s s' : UK3D n} {u : Update3D}
    (h : UK3D.update env s u = (.ok (), s')) : ∃ name, s'.variogramModel = .name name ∧
    messages (UK3D.updateVerbose env s u true).1 = (if s'.aniso.scalingY ≠ s.aniso.scalingY ∨ s'.aniso.scalingZ ≠ s.aniso.scalingZ ∨ s'.aniso.angleX ≠ s.aniso.angleX ∨ s'.aniso.angleY ≠ s.aniso.angleY ∨ s'.aniso.angleZ ≠ s.aniso.angleZ then ["Adjusting data for anisotropy..."] else []) ++
      ["Updating variogram mode...", modelText name, "Calculating statistics on variogram model fit..."] := by
  unfold UK3D.update at h
  unfold UK3D.updateVerbose
  dsimp only at h ⊢
  cases hres : OK3D.resolveModel env u.variogramModel u.variogramFunction u.params u.aniso with
  | error e => rw [hres] at h; cases h
  | ok r =>
  obtain ⟨name, model, fArg, pArg, an⟩ := r
  rw [hres] at h
  dsimp only at h ⊢
  cases hf : chooseFunction name fArg with
  | error e => rw [hf] at h; cases h
  | ok r =>
  obtain ⟨f, fname⟩ := r
  rw [hf] at h
  dsimp only at h ⊢
  have hmf : (UK3D.reAniso ({ s with variogramModel := .name name, model := model, variogramFunction := f, functionName := fname } : UK3D n) an).variogramModel = .name name ∧
      ((an.scalingY ≠ s.aniso.scalingY ∨ an.scalingZ ≠ s.aniso.scalingZ ∨ an.angleX ≠ s.aniso.angleX ∨ an.angleY ≠ s.aniso.angleY ∨ an.angleZ ≠ s.aniso.angleZ) ↔ (UK3D.reAniso ({ s with variogramModel := .name name, model := model, variogramFunction := f, functionName := fname } : UK3D n) an).aniso.scalingY ≠ s.aniso.scalingY ∨ (UK3D.reAniso ({ s with variogramModel := .name name, model := model, variogramFunction := f, functionName := fname } : UK3D n) an).aniso.scalingZ ≠ s.aniso.scalingZ ∨ (UK3D.reAniso ({ s with variogramModel := .name name, model := model, variogramFunction := f, functionName := fname } : UK3D n) an).aniso.angleX ≠ s.aniso.angleX ∨ (UK3D.reAniso ({ s with variogramModel := .name name, model := model, variogramFunction := f, functionName := fname } : UK3D n) an).aniso.angleY ≠ s.aniso.angleY ∨ (UK3D.reAniso ({ s with variogramModel := .name name, model := model, variogramFunction := f, functionName := fname } : UK3D n) an).aniso.angleZ ≠ s.aniso.angleZ) := by
    unfold UK3D.reAniso
    split_ifs with hc
    · exact ⟨rfl, Iff.rfl⟩
    · exact ⟨rfl, iff_of_false hc (by simp)⟩
  generalize hs' : UK3D.reAniso ({ s with variogramModel := .name name, model := model, variogramFunction := f, functionName := fname } : UK3D n) an = s₁ at hmf h ⊢
  clear hs'
  cases hp : makeVariogramParameterList name pArg with
  | error e => rw [hp] at h; cases h
  | ok vp =>
  rw [hp] at h
  dsimp only at h ⊢
  cases hi : initializeVariogramModel env s₁.pts s₁.VALUES name vp f u.nlags u.weight "euclidean" with
  | error e => rw [hi] at h; cases h
  | ok r =>
  obtain ⟨lags, ps⟩ := r
  rw [hi] at h
  dsimp only at h ⊢
  have hm := printModel_messages hf (initialize_length hl hp hi)
  have hr := (printModel_true hf (initialize_length hl hp hi)).1
  have hpm : printModel true name ps = ⟨(printModel true name ps).lines, .ok ()⟩ := by rw [← hr]
  rw [hpm]
  dsimp only
  generalize hst : findStatistics _ _ f ps _ _ = r at h ⊢
  cases r with
  | error e => cases h
  | ok st =>
  obtain rfl := (Prod.mk.inj h).2
  refine ⟨name, hmf.1, ?_⟩
  simp only [messages_append, say_messages, hm, printStatistics_messages, Bool.true_and, decide_eq_true_eq]
  rw [if_congr hmf.2 rfl rfl]
  simp

theorem setupVerbose_ok {n : ℕ} {x y : Fin n → ℝ} {ct : String} {sc an : ℝ} {r : ℝ × ℝ × ℝ × ℝ × (Fin n → Fin 2 → ℝ)}
    (h : OK.setupCoordinates x y ct sc an = .ok r) :
    (OK.setupVerbose x y ct sc an true).result = .ok r ∧
      messages (OK.setupVerbose x y ct sc an true).lines = if ct = "euclidean" then ["Adjusting data for anisotropy..."] else [] := by
  unfold OK.setupCoordinates at h
  unfold OK.setupVerbose
  split_ifs at h ⊢ with h1 h2
  · cases hx : midrange x with
    | error e => rw [hx] at h; cases h
    | ok xc =>
    cases hy : midrange y with
    | error e => rw [hx, hy] at h; cases h
    | ok yc =>
    rw [hx, hy] at h
    exact ⟨h, rfl⟩
  · exact ⟨h, rfl⟩

theorem statisticsVerbose_ok {n : ℕ} {adj : Fin n → Fin 2 → ℝ} {z : Fin n → ℝ} {f : VFun} {ps : List ℝ} {args : OKArgs} {st : Option Stats}
    (h : (if args.enableStatistics then some <$> findStatistics adj z f ps args.coordinatesType args.pseudoInv else .ok none) = .ok st) :
    (OK.statisticsVerbose adj z f ps args true).result = .ok st ∧ messages (OK.statisticsVerbose adj z f ps args true).lines = [] := by
  unfold OK.statisticsVerbose
  split_ifs at h ⊢ with h1
  · cases hf : findStatistics adj z f ps args.coordinatesType args.pseudoInv with
    | error e => rw [hf] at h; cases h
    | ok t =>
    rw [hf] at h
    exact ⟨h, rfl⟩
  · exact ⟨h, rfl⟩

/-- What `OrdinaryKriging(…, verbose=True)` announces. -/
theorem C82_messages_ok {n : ℕ} {env : Env} (hl : LsqSpec env) {x y z : Fin n → ℝ} {args : OKArgs} {s : OK n}
    (h : OK.create env x y z args = .ok s) : ∃ name, s.variogramModel = .name name ∧
    messages (OK.createVerbose env x y z args true).lines = (if args.coordinatesType = "euclidean" then ["Adjusting data for anisotropy..."] else []) ++
      ["Initializing variogram model...", "Coordinates type: '" ++ args.coordinatesType ++ "'", modelText name,
        "Calculating statistics on variogram model fit..."] := by
  obtain ⟨hpt, exact, name, model, fArg, pArg, sc₀, an₀, f, fname, xc, yc, sc, an, adj, vp, lags, ps, stats, h1, h2, h3, h4, h5, h6, h7, rfl⟩ := OK.create_ok h
  have hm := printModel_messages h3 (initialize_length hl h5 h6)
  have hr := (printModel_true h3 (initialize_length hl h5 h6)).1
  obtain ⟨c1, c2⟩ := setupVerbose_ok h4
  obtain ⟨d1, d2⟩ := statisticsVerbose_ok h7
  refine ⟨name, rfl, ?_⟩
  unfold OK.createVerbose
  rw [if_neg (not_not.2 hpt)]
  simp only [py_pure, quiet_ok_bind, h1, h2, h3, say_bind]
  rw [out_ok_bind c1]
  simp only [quiet_ok_bind, h5, h6, say_bind]
  rw [out_ok_bind hr, out_ok_bind d1]
  simp [messages_append, messages, say_messages, hm, c2, d2]

/-- What `update_variogram_model` of a verbose `OrdinaryKriging` object announces: an adjustment of the coordinates exactly if
the anisotropy of the object changes. -/
theorem C82_messages_update_ok {n : ℕ} {env : Env} (hl : LsqSpec env) {s s' : OK n} {u : OKUpdate}
    (h : OK.update env s u = (.ok (), s')) : ∃ name, s'.variogramModel = .name name ∧
    messages (OK.updateVerbose env s u true).1 = (if (s'.anisotropyScaling ≠ s.anisotropyScaling ∨ s'.anisotropyAngle ≠ s.anisotropyAngle) ∧ s.coordinatesType = "euclidean" then ["Adjusting data for anisotropy..."] else []) ++
      ["Updating variogram mode...", "Coordinates type: '" ++ s.coordinatesType ++ "'", modelText name, "Calculating statistics on variogram model fit..."] := by
  unfold OK.update at h
  unfold OK.updateVerbose
  dsimp only at h ⊢
  cases hres : OK.resolveModel env s.coordinatesType u.variogramModel u.variogramFunction u.params u.anisotropyScaling u.anisotropyAngle with
  | error e => rw [hres] at h; cases h
  | ok r =>
  obtain ⟨name, model, fArg, pArg, scaling, angle⟩ := r
  rw [hres] at h
  dsimp only at h ⊢
  cases hf : chooseFunction name fArg with
  | error e => rw [hf] at h; cases h
  | ok r =>
  obtain ⟨f, fname⟩ := r
  rw [hf] at h
  dsimp only at h ⊢
  have hmf : (OK.reAniso ({ s with variogramModel := .name name, model := model, variogramFunction := f, functionName := fname } : OK n) scaling angle).variogramModel = .name name ∧
      (((scaling ≠ s.anisotropyScaling ∨ angle ≠ s.anisotropyAngle) ∧ s.coordinatesType = "euclidean") ↔ ((OK.reAniso ({ s with variogramModel := .name name, model := model, variogramFunction := f, functionName := fname } : OK n) scaling angle).anisotropyScaling ≠ s.anisotropyScaling ∨ (OK.reAniso ({ s with variogramModel := .name name, model := model, variogramFunction := f, functionName := fname } : OK n) scaling angle).anisotropyAngle ≠ s.anisotropyAngle) ∧ s.coordinatesType = "euclidean") ∧ (OK.reAniso ({ s with variogramModel := .name name, model := model, variogramFunction := f, functionName := fname } : OK n) scaling angle).coordinatesType = s.coordinatesType := by
    unfold OK.reAniso
    split_ifs with hc he hg
    · exact ⟨rfl, Iff.rfl, rfl⟩
    · exact ⟨rfl, iff_of_false (fun t => he t.2) (fun t => he t.2), rfl⟩
    · exact ⟨rfl, iff_of_false (fun t => he t.2) (fun t => he t.2), rfl⟩
    · exact ⟨rfl, iff_of_false (fun t => hc t.1) (by simp), rfl⟩
  generalize hs' : OK.reAniso ({ s with variogramModel := .name name, model := model, variogramFunction := f, functionName := fname } : OK n) scaling angle = s₁ at hmf h ⊢
  clear hs'
  cases hp : makeVariogramParameterList name pArg with
  | error e => rw [hp] at h; cases h
  | ok vp =>
  rw [hp] at h
  dsimp only at h ⊢
  cases hi : initializeVariogramModel env s₁.pts s₁.Z name vp f u.nlags u.weight s₁.coordinatesType with
  | error e => rw [hi] at h; cases h
  | ok r =>
  obtain ⟨lags, ps⟩ := r
  rw [hi] at h
  dsimp only at h ⊢
  have hm := printModel_messages hf (initialize_length hl hp hi)
  have hr := (printModel_true hf (initialize_length hl hp hi)).1
  have hpm : printModel true name ps = ⟨(printModel true name ps).lines, .ok ()⟩ := by rw [← hr]
  rw [hpm]
  dsimp only
  generalize hst : findStatistics _ _ f ps _ _ = r at h ⊢
  cases r with
  | error e => cases h
  | ok st =>
  obtain rfl := (Prod.mk.inj h).2
  refine ⟨name, hmf.1, ?_⟩
  simp only [messages_append, say_messages, hm, printStatistics_messages, Bool.true_and, decide_eq_true_eq]
  rw [if_congr hmf.2.1 rfl rfl, hmf.2.2]
  simp

/-! ### Examples -/

example (z : Fin 4 → ℝ) := C82_messages_ok stdEnv_lsq (Demo.S2_ok z)
example (v : Fin 4 → ℝ) := C82_messages_ok3d stdEnv_lsq (Demo.S3_ok v)
example (z : Fin 4 → ℝ) := C82_messages_uk stdEnv_lsq (Demo.U2_ok z)
example (v : Fin 4 → ℝ) := C82_messages_uk3d stdEnv_lsq (Demo.U3_ok v)

example (z : Fin 2 → ℝ) : ∃ s s' : OK 2, OK.create stdEnv Demo.X Demo.O z (Demo.args 1 true false) = .ok s ∧
    OK.update stdEnv s (Demo.nugget 2) = (.ok (), s') ∧ ∃ name, s'.variogramModel = .name name ∧
      modelText name ∈ messages (OK.updateVerbose stdEnv s (Demo.nugget 2) true).1 := by
  obtain ⟨s, h, -⟩ := Demo.ok z 1 true false
  obtain ⟨t, h'⟩ := Demo.ok_stats z 2 true false
  obtain ⟨s', hu⟩ := C25_ok_accepts h [] (u := Demo.nugget 2) h'
  have hu : OK.update stdEnv s (Demo.nugget 2) = (.ok (), s') := hu
  obtain ⟨name, hn, hm⟩ := C82_messages_update_ok stdEnv_lsq hu
  exact ⟨s, s', h, hu, name, hn, by rw [hm]; simp⟩

example (z : Fin 2 → ℝ) : ∃ s s' : OK3D 2, OK3D.create stdEnv Demo.X Demo.O Demo.O z (Demo.args3 1 true false) = .ok s ∧
    OK3D.update stdEnv s (Demo.nugget3 2) = (.ok (), s') ∧ ∃ name, s'.variogramModel = .name name ∧
      modelText name ∈ messages (OK3D.updateVerbose stdEnv s (Demo.nugget3 2) true).1 := by
  obtain ⟨s, h, -⟩ := Demo.ok3 z 1 true false
  obtain ⟨t, h', -⟩ := Demo.ok3 z 2 true false
  obtain ⟨s', hu⟩ := C25_ok3d_accepts h [] (u := Demo.nugget3 2) h'
  have hu : OK3D.update stdEnv s (Demo.nugget3 2) = (.ok (), s') := hu
  obtain ⟨name, hn, hm⟩ := C82_messages_update_ok3d stdEnv_lsq hu
  exact ⟨s, s', h, hu, name, hn, by rw [hm]; simp⟩

example (z : Fin 2 → ℝ) : ∃ s s' : UK 2, UK.create stdEnv Demo.X Demo.O z (Demo.uargs 1 true false) = .ok s ∧
    UK.update stdEnv s (Demo.nugget 2) = (.ok (), s') ∧ ∃ name, s'.variogramModel = .name name ∧
      modelText name ∈ messages (UK.updateVerbose stdEnv s (Demo.nugget 2) true).1 := by
  obtain ⟨s, h, -⟩ := Demo.uk z 1 true false
  obtain ⟨t, h', -⟩ := Demo.uk z 2 true false
  obtain ⟨s', hu⟩ := C25_uk_accepts h [] (u := Demo.nugget 2) h'
  have hu : UK.update stdEnv s (Demo.nugget 2) = (.ok (), s') := hu
  obtain ⟨name, hn, hm⟩ := C82_messages_update_uk stdEnv_lsq hu
  exact ⟨s, s', h, hu, name, hn, by rw [hm]; simp⟩

example (z : Fin 2 → ℝ) : ∃ s s' : UK3D 2, UK3D.create stdEnv Demo.X Demo.O Demo.O z (Demo.uargs3 1 true false) = .ok s ∧
    UK3D.update stdEnv s (Demo.nugget3 2) = (.ok (), s') ∧ ∃ name, s'.variogramModel = .name name ∧
      modelText name ∈ messages (UK3D.updateVerbose stdEnv s (Demo.nugget3 2) true).1 := by
  obtain ⟨s, h, -⟩ := Demo.uk3 z 1 true false
  obtain ⟨t, h', -⟩ := Demo.uk3 z 2 true false
  obtain ⟨s', hu⟩ := C25_uk3d_accepts h [] (u := Demo.nugget3 2) h'
  have hu : UK3D.update stdEnv s (Demo.nugget3 2) = (.ok (), s') := hu
  obtain ⟨name, hn, hm⟩ := C82_messages_update_uk3d stdEnv_lsq hu
  exact ⟨s, s', h, hu, name, hn, by rw [hm]; simp⟩

end
end PyKrige
