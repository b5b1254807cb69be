import Verif.Lemmas.Verbose

/-! Printing does not change results: the walk through the constructors and `update_variogram_model`. -/

namespace PyKrige
noncomputable section
open Spec

theorem sayWells_result (b : Bool) (w : Option (List (ℝ × ℝ × ℝ))) : (sayWells b w).result = .ok () := by
  cases w <;> rfl

theorem sayWells_lines (b : Bool) (w : Option (List (ℝ × ℝ × ℝ))) :
    (b = false → (sayWells b w).lines = []) ∧ (b = true → numbers (sayWells b w).lines = wellsLine w) := by
  cases w <;> cases b <;> simp [sayWells, say, numbers, wellsLine]

/-- The walk through the constructor. -/
theorem OK.createVerbose_spec {n : ℕ} {env : Env} (x y z : Fin n → ℝ) (args : OKArgs) (b : Bool)
    (hl : b = true → LsqSpec env) :
    (OK.createVerbose env x y z args b).result = OK.create env x y z args ∧
      (b = false → (OK.createVerbose env x y z args b).lines = []) ∧
      (b = true → ∀ s, OK.create env x y z args = .ok s → ∃ name, s.variogramModel = .name name ∧
        modelLine name ∈ (OK.createVerbose env x y z args b).lines ∧
        ∃ curve, Describes name curve (s.variogramFunction s.params) ∧
          numbers (OK.createVerbose env x y z args b).lines = curve ++ statisticsLines s.getStatistics) := by
  unfold OK.createVerbose OK.create
  by_cases hpt : args.pseudoInvType ∉ ["pinv", "pinvh"]
  · rw [if_pos hpt, if_pos hpt]
    exact ⟨rfl, fun _ => rfl, fun _ s h => by cases h⟩
  rw [if_neg hpt, if_neg hpt]
  cases hex : args.exactValues with
  | notBool => exact ⟨rfl, fun _ => rfl, fun _ s h => by cases h⟩
  | bool eb =>
  simp only [py_pure, quiet_ok_bind, py_ok_bind]
  cases hres : OK.resolveModel env args.coordinatesType args.variogramModel args.variogramFunction args.params
    args.anisotropyScaling args.anisotropyAngle with
  | error e => exact ⟨rfl, fun _ => rfl, fun _ s h => by cases h⟩
  | ok r =>
  obtain ⟨name, model, fArg, pArg, scaling, angle⟩ := r
  simp only [quiet_ok_bind, py_ok_bind]
  cases hf : chooseFunction name fArg with
  | error e => exact ⟨rfl, fun _ => rfl, fun _ s h => by cases h⟩
  | ok r =>
  obtain ⟨f, fname⟩ := r
  simp only [quiet_ok_bind, py_ok_bind]
  have hset : (OK.setupVerbose x y args.coordinatesType scaling angle b).result
        = OK.setupCoordinates x y args.coordinatesType scaling angle ∧
      (b = false → (OK.setupVerbose x y args.coordinatesType scaling angle b).lines = []) ∧
      numbers (OK.setupVerbose x y args.coordinatesType scaling angle b).lines = [] := by
    unfold OK.setupVerbose OK.setupCoordinates
    split_ifs with h1 h2
    · cases midrange x with
      | error e => exact ⟨rfl, fun _ => rfl, rfl⟩
      | ok xc =>
      simp only [quiet_ok_bind, py_ok_bind]
      cases midrange y with
      | error e => exact ⟨rfl, fun _ => rfl, rfl⟩
      | ok yc =>
      simp only [quiet_ok_bind, py_ok_bind]
      cases b <;> exact ⟨rfl, fun h => (by first | rfl | cases h), rfl⟩
    · exact ⟨rfl, fun _ => rfl, rfl⟩
    · exact ⟨rfl, fun _ => rfl, rfl⟩
  obtain ⟨hs1, hs2, hs3⟩ := hset
  cases hco : OK.setupCoordinates x y args.coordinatesType scaling angle with
  | error e =>
    rw [out_error_bind (hs1.trans hco)]
    exact ⟨rfl, hs2, fun _ s h => by cases h⟩
  | ok r =>
  rw [out_ok_bind (hs1.trans hco)]
  obtain ⟨xc, yc, scaling', angle', adj⟩ := r
  simp only [py_ok_bind, say_bind]
  cases hp : makeVariogramParameterList name pArg with
  | error e =>
    refine ⟨rfl, fun hb => ?_, fun _ s h => by cases h⟩
    subst hb
    simp [hs2 rfl]
  | ok vp =>
  simp only [quiet_ok_bind, py_ok_bind]
  cases hi : initializeVariogramModel env adj z name vp f args.nlags args.weight args.coordinatesType with
  | error e =>
    refine ⟨rfl, fun hb => ?_, fun _ s h => by cases h⟩
    subst hb
    simp [hs2 rfl]
  | ok r =>
  obtain ⟨lags, ps⟩ := r
  simp only [quiet_ok_bind, py_ok_bind]
  have hpm : (printModel b name ps).result = .ok () := by
    cases b with
    | false => rfl
    | true => exact (printModel_true hf (initialize_length (hl rfl) hp hi)).1
  rw [out_ok_bind hpm]
  have hst : (OK.statisticsVerbose adj z f ps args b).result = (if args.enableStatistics then
      some <$> findStatistics adj z f ps args.coordinatesType args.pseudoInv else .ok none) ∧
      (b = false → (OK.statisticsVerbose adj z f ps args b).lines = []) ∧
      ∀ st, (OK.statisticsVerbose adj z f ps args b).result = .ok st → b = true →
        numbers (OK.statisticsVerbose adj z f ps args b).lines = statisticsLines (st.map Stats.summary) := by
    unfold OK.statisticsVerbose
    split_ifs with h1
    · cases findStatistics adj z f ps args.coordinatesType args.pseudoInv with
      | error e => exact ⟨rfl, fun _ => rfl, fun st h => by cases h⟩
      | ok st =>
      simp only [quiet_ok_bind]
      rw [out_ok_bind (printStatistics_snd b st)]
      refine ⟨rfl, fun hb => by subst hb; rfl, fun st' h hb => ?_⟩
      subst hb
      cases h
      rfl
    · refine ⟨rfl, fun _ => rfl, fun st h _ => ?_⟩
      cases h
      rfl
  obtain ⟨ht1, ht2, ht3⟩ := hst
  cases hen : args.enableStatistics with
  | false =>
    simp only [hen, Bool.false_eq_true, if_false] at ht1
    simp only [Bool.false_eq_true, if_false, py_ok_bind]
    rw [out_ok_bind ht1]
    refine ⟨rfl, fun hb => ?_, fun hb s h => ?_⟩
    · subst hb
      simp [hs2 rfl, ht2 rfl, printModel_false]
    · subst hb
      cases h
      obtain ⟨-, m2, m3⟩ := printModel_true hf (initialize_length (hl rfl) hp hi)
      refine ⟨_, rfl, by simp [m2], _, m3, ?_⟩
      simp [hs3, numbers, ht3 _ ht1 rfl]
      rfl
  | true =>
    simp only [hen, if_true] at ht1
    simp only [if_true]
    cases hfs : findStatistics adj z f ps args.coordinatesType args.pseudoInv with
    | error e =>
      rw [hfs] at ht1
      rw [out_error_bind (e := e) ht1]
      refine ⟨rfl, fun hb => ?_, fun _ s h => by cases h⟩
      subst hb
      simp [hs2 rfl, ht2 rfl, printModel_false]
    | ok st =>
    rw [hfs] at ht1
    change _ = Except.ok (some st) at ht1
    rw [out_ok_bind ht1]
    refine ⟨rfl, fun hb => ?_, fun hb s h => ?_⟩
    · subst hb
      simp [hs2 rfl, ht2 rfl, printModel_false]
    · subst hb
      cases h
      obtain ⟨-, m2, m3⟩ := printModel_true hf (initialize_length (hl rfl) hp hi)
      refine ⟨_, rfl, by simp [m2], _, m3, ?_⟩
      simp [hs3, numbers, ht3 _ ht1 rfl]
      rfl

/-- The walk through the constructor. -/
theorem OK3D.createVerbose_spec {n : ℕ} {env : Env} (x y z val : Fin n → ℝ) (args : OK3DArgs) (b : Bool)
    (hl : b = true → LsqSpec env) :
    (OK3D.createVerbose env x y z val args b).result = OK3D.create env x y z val args ∧
      (b = false → (OK3D.createVerbose env x y z val args b).lines = []) ∧
      (b = true → ∀ s, OK3D.create env x y z val args = .ok s → ∃ name, s.variogramModel = .name name ∧
        modelLine name ∈ (OK3D.createVerbose env x y z val args b).lines ∧
        ∃ curve, Describes name curve (s.variogramFunction s.params) ∧
          numbers (OK3D.createVerbose env x y z val args b).lines = curve ++ statisticsLines s.getStatistics) := by
  unfold OK3D.createVerbose OK3D.create
  by_cases hpt : args.pseudoInvType ∉ ["pinv", "pinvh"]
  · rw [if_pos hpt, if_pos hpt]
    exact ⟨rfl, fun _ => rfl, fun _ s h => by cases h⟩
  rw [if_neg hpt, if_neg hpt]
  cases hex : args.exactValues with
  | notBool => exact ⟨rfl, fun _ => rfl, fun _ s h => by cases h⟩
  | bool eb =>
  simp only [py_pure, quiet_ok_bind, py_ok_bind]
  cases hres : OK3D.resolveModel env args.variogramModel args.variogramFunction args.params args.aniso with
  | error e =>
    refine ⟨rfl, fun hb => ?_, fun _ s h => by cases h⟩
    subst hb
    simp [printModel_false, printStatistics_false]
  | ok r =>
  obtain ⟨name, model, fArg, pArg, an⟩ := r
  simp only [quiet_ok_bind, py_ok_bind, say_bind]
  cases hf : chooseFunction name fArg with
  | error e =>
    refine ⟨rfl, fun hb => ?_, fun _ s h => by cases h⟩
    subst hb
    simp [printModel_false, printStatistics_false]
  | ok r =>
  obtain ⟨f, fname⟩ := r
  simp only [quiet_ok_bind, py_ok_bind, say_bind]
  cases hmx : midrange x with
  | error e =>
    refine ⟨rfl, fun hb => ?_, fun _ s h => by cases h⟩
    subst hb
    simp [printModel_false, printStatistics_false]
  | ok xc =>
  simp only [quiet_ok_bind, py_ok_bind, say_bind]
  cases hmy : midrange y with
  | error e =>
    refine ⟨rfl, fun hb => ?_, fun _ s h => by cases h⟩
    subst hb
    simp [printModel_false, printStatistics_false]
  | ok yc =>
  simp only [quiet_ok_bind, py_ok_bind, say_bind]
  cases hmz : midrange z with
  | error e =>
    refine ⟨rfl, fun hb => ?_, fun _ s h => by cases h⟩
    subst hb
    simp [printModel_false, printStatistics_false]
  | ok zc =>
  simp only [quiet_ok_bind, py_ok_bind, say_bind]
  cases hp : makeVariogramParameterList name pArg with
  | error e =>
    refine ⟨rfl, fun hb => ?_, fun _ s h => by cases h⟩
    subst hb
    simp [printModel_false, printStatistics_false]
  | ok vp =>
  simp only [quiet_ok_bind, py_ok_bind, say_bind]
  cases hi : initializeVariogramModel env (fun i => adjustPoint3 xc yc zc an (x i) (y i) (z i)) val name vp f args.nlags args.weight "euclidean" with
  | error e =>
    refine ⟨rfl, fun hb => ?_, fun _ s h => by cases h⟩
    subst hb
    simp [printModel_false, printStatistics_false]
  | ok r =>
  obtain ⟨lags, ps⟩ := r
  simp only [quiet_ok_bind, py_ok_bind, say_bind]
  have hpm : (printModel b name ps).result = .ok () := by
    cases b with
    | false => rfl
    | true => exact (printModel_true hf (initialize_length (hl rfl) hp hi)).1
  rw [out_ok_bind hpm]
  cases hfs : findStatistics (fun i => adjustPoint3 xc yc zc an (x i) (y i) (z i)) val f ps "euclidean" args.pseudoInv with
  | error e =>
    refine ⟨rfl, fun hb => ?_, fun _ s h => by cases h⟩
    subst hb
    simp [printModel_false, printStatistics_false]
  | ok st =>
  simp only [quiet_ok_bind, py_ok_bind, say_bind]
  rw [out_ok_bind (printStatistics_snd b st)]
  refine ⟨rfl, fun hb => ?_, fun hb s h => ?_⟩
  · subst hb
    simp [printModel_false, printStatistics_false, sayWells_lines]
  · subst hb
    cases h
    obtain ⟨-, m2, m3⟩ := printModel_true hf (initialize_length (hl rfl) hp hi)
    refine ⟨_, rfl, by simp [m2], _, m3, ?_⟩
    simp [numbers, say_numbers_text, printStatistics_true, sayWells_lines]
    try rfl

/-- The walk through the constructor. -/
theorem UK.createVerbose_spec {n : ℕ} {env : Env} (x y z : Fin n → ℝ) (args : UKArgs) (b : Bool)
    (hl : b = true → LsqSpec env) :
    (UK.createVerbose env x y z args b).result = UK.create env x y z args ∧
      (b = false → (UK.createVerbose env x y z args b).lines = []) ∧
      (b = true → ∀ s, UK.create env x y z args = .ok s → ∃ name, s.variogramModel = .name name ∧
        modelLine name ∈ (UK.createVerbose env x y z args b).lines ∧
        ∃ curve, Describes name curve (s.variogramFunction s.params) ∧
          numbers (UK.createVerbose env x y z args b).lines = curve ++ statisticsLines s.getStatistics ++ wellsLine (if "point_log" ∈ args.driftTerms then args.pointDrift else none)) := by
  unfold UK.createVerbose UK.create
  by_cases hpt : args.pseudoInvType ∉ ["pinv", "pinvh"]
  · rw [if_pos hpt, if_pos hpt]
    exact ⟨rfl, fun _ => rfl, fun _ s h => by cases h⟩
  rw [if_neg hpt, if_neg hpt]
  cases hex : args.exactValues with
  | notBool => exact ⟨rfl, fun _ => rfl, fun _ s h => by cases h⟩
  | bool eb =>
  simp only [py_pure, quiet_ok_bind, py_ok_bind]
  cases hres : UK.resolveModel env args.variogramModel args.variogramFunction args.params
    args.anisotropyScaling args.anisotropyAngle with
  | error e =>
    refine ⟨rfl, fun hb => ?_, fun _ s h => by cases h⟩
    subst hb
    simp [printModel_false, printStatistics_false]
  | ok r =>
  obtain ⟨name, model, fArg, pArg, scaling, angle⟩ := r
  simp only [quiet_ok_bind, py_ok_bind, say_bind]
  cases hf : chooseFunction name fArg with
  | error e =>
    refine ⟨rfl, fun hb => ?_, fun _ s h => by cases h⟩
    subst hb
    simp [printModel_false, printStatistics_false]
  | ok r =>
  obtain ⟨f, fname⟩ := r
  simp only [quiet_ok_bind, py_ok_bind, say_bind]
  cases hmx : midrange x with
  | error e =>
    refine ⟨rfl, fun hb => ?_, fun _ s h => by cases h⟩
    subst hb
    simp [printModel_false, printStatistics_false]
  | ok xc =>
  simp only [quiet_ok_bind, py_ok_bind, say_bind]
  cases hmy : midrange y with
  | error e =>
    refine ⟨rfl, fun hb => ?_, fun _ s h => by cases h⟩
    subst hb
    simp [printModel_false, printStatistics_false]
  | ok yc =>
  simp only [quiet_ok_bind, py_ok_bind, say_bind]
  cases hp : makeVariogramParameterList name pArg with
  | error e =>
    refine ⟨rfl, fun hb => ?_, fun _ s h => by cases h⟩
    subst hb
    simp [printModel_false, printStatistics_false]
  | ok vp =>
  simp only [quiet_ok_bind, py_ok_bind, say_bind]
  cases hi : initializeVariogramModel env (adjustData2 x y xc yc scaling angle) z name vp f args.nlags args.weight "euclidean" with
  | error e =>
    refine ⟨rfl, fun hb => ?_, fun _ s h => by cases h⟩
    subst hb
    simp [printModel_false, printStatistics_false]
  | ok r =>
  obtain ⟨lags, ps⟩ := r
  simp only [quiet_ok_bind, py_ok_bind, say_bind]
  have hpm : (printModel b name ps).result = .ok () := by
    cases b with
    | false => rfl
    | true => exact (printModel_true hf (initialize_length (hl rfl) hp hi)).1
  rw [out_ok_bind hpm]
  cases hfs : findStatistics (adjustData2 x y xc yc scaling angle) z f ps "euclidean" args.pseudoInv with
  | error e =>
    refine ⟨rfl, fun hb => ?_, fun _ s h => by cases h⟩
    subst hb
    simp [printModel_false, printStatistics_false]
  | ok st =>
  simp only [quiet_ok_bind, py_ok_bind, say_bind]
  rw [out_ok_bind (printStatistics_snd b st)]
  cases hext : setupExternalZ x y args with
  | error e =>
    refine ⟨rfl, fun hb => ?_, fun _ s h => by cases h⟩
    subst hb
    simp [printModel_false, printStatistics_false]
  | ok ext =>
  simp only [quiet_ok_bind, py_ok_bind, say_bind]
  cases hpl : setupPointLog xc yc scaling angle args with
  | error e =>
    refine ⟨rfl, fun hb => ?_, fun _ s h => by cases h⟩
    subst hb
    simp [printModel_false, printStatistics_false]
  | ok plog =>
  simp only [quiet_ok_bind, py_ok_bind, say_bind]
  have hw : wellsLine plog = wellsLine (if "point_log" ∈ args.driftTerms then args.pointDrift else none) := by
    unfold setupPointLog at hpl
    by_cases hin : "point_log" ∈ args.driftTerms
    · rw [if_pos hin] at hpl ⊢
      cases hpd : args.pointDrift with
      | none => rw [hpd] at hpl; cases hpl
      | some w =>
        rw [hpd] at hpl
        dsimp only at hpl
        split_ifs at hpl
        cases hpl
        simp [wellsLine]
    · rw [if_neg hin] at hpl ⊢
      cases hpl
      rfl
  rw [out_ok_bind (sayWells_result b plog)]
  cases hsp : setupSpecifiedTerm n args.driftTerms args.specifiedDrift with
  | error e =>
    refine ⟨rfl, fun hb => ?_, fun _ s h => by cases h⟩
    subst hb
    simp [printModel_false, printStatistics_false, sayWells_lines]
  | ok spec =>
  simp only [quiet_ok_bind, py_ok_bind, say_bind]
  cases hfu : setupFunctionalTerm args.driftTerms args.functionalDrift with
  | error e =>
    refine ⟨rfl, fun hb => ?_, fun _ s h => by cases h⟩
    subst hb
    simp [printModel_false, printStatistics_false, sayWells_lines]
  | ok func =>
  simp only [quiet_ok_bind, py_ok_bind, say_bind]
  refine ⟨rfl, fun hb => ?_, fun hb s h => ?_⟩
  · subst hb
    simp [printModel_false, printStatistics_false, sayWells_lines]
  · subst hb
    cases h
    obtain ⟨-, m2, m3⟩ := printModel_true hf (initialize_length (hl rfl) hp hi)
    refine ⟨_, rfl, by simp [m2], _, m3, ?_⟩
    simp [numbers, say_numbers_text, printStatistics_true, sayWells_lines, hw]
    try rfl

/-- The walk through the constructor. -/
theorem UK3D.createVerbose_spec {n : ℕ} {env : Env} (x y z val : Fin n → ℝ) (args : UK3DArgs) (b : Bool)
    (hl : b = true → LsqSpec env) :
    (UK3D.createVerbose env x y z val args b).result = UK3D.create env x y z val args ∧
      (b = false → (UK3D.createVerbose env x y z val args b).lines = []) ∧
      (b = true → ∀ s, UK3D.create env x y z val args = .ok s → ∃ name, s.variogramModel = .name name ∧
        modelLine name ∈ (UK3D.createVerbose env x y z val args b).lines ∧
        ∃ curve, Describes name curve (s.variogramFunction s.params) ∧
          numbers (UK3D.createVerbose env x y z val args b).lines = curve ++ statisticsLines s.getStatistics) := by
  unfold UK3D.createVerbose UK3D.create
  by_cases hpt : args.pseudoInvType ∉ ["pinv", "pinvh"]
  · rw [if_pos hpt, if_pos hpt]
    exact ⟨rfl, fun _ => rfl, fun _ s h => by cases h⟩
  rw [if_neg hpt, if_neg hpt]
  cases hex : args.exactValues with
  | notBool => exact ⟨rfl, fun _ => rfl, fun _ s h => by cases h⟩
  | bool eb =>
  simp only [py_pure, quiet_ok_bind, py_ok_bind]
  cases hres : OK3D.resolveModel env args.variogramModel args.variogramFunction args.params args.aniso with
  | error e =>
    refine ⟨rfl, fun hb => ?_, fun _ s h => by cases h⟩
    subst hb
    simp [printModel_false, printStatistics_false]
  | ok r =>
  obtain ⟨name, model, fArg, pArg, an⟩ := r
  simp only [quiet_ok_bind, py_ok_bind, say_bind]
  cases hf : chooseFunction name fArg with
  | error e =>
    refine ⟨rfl, fun hb => ?_, fun _ s h => by cases h⟩
    subst hb
    simp [printModel_false, printStatistics_false]
  | ok r =>
  obtain ⟨f, fname⟩ := r
  simp only [quiet_ok_bind, py_ok_bind, say_bind]
  cases hmx : midrange x with
  | error e =>
    refine ⟨rfl, fun hb => ?_, fun _ s h => by cases h⟩
    subst hb
    simp [printModel_false, printStatistics_false]
  | ok xc =>
  simp only [quiet_ok_bind, py_ok_bind, say_bind]
  cases hmy : midrange y with
  | error e =>
    refine ⟨rfl, fun hb => ?_, fun _ s h => by cases h⟩
    subst hb
    simp [printModel_false, printStatistics_false]
  | ok yc =>
  simp only [quiet_ok_bind, py_ok_bind, say_bind]
  cases hmz : midrange z with
  | error e =>
    refine ⟨rfl, fun hb => ?_, fun _ s h => by cases h⟩
    subst hb
    simp [printModel_false, printStatistics_false]
  | ok zc =>
  simp only [quiet_ok_bind, py_ok_bind, say_bind]
  cases hp : makeVariogramParameterList name pArg with
  | error e =>
    refine ⟨rfl, fun hb => ?_, fun _ s h => by cases h⟩
    subst hb
    simp [printModel_false, printStatistics_false]
  | ok vp =>
  simp only [quiet_ok_bind, py_ok_bind, say_bind]
  cases hi : initializeVariogramModel env (fun i => adjustPoint3 xc yc zc an (x i) (y i) (z i)) val name vp f args.nlags args.weight "euclidean" with
  | error e =>
    refine ⟨rfl, fun hb => ?_, fun _ s h => by cases h⟩
    subst hb
    simp [printModel_false, printStatistics_false]
  | ok r =>
  obtain ⟨lags, ps⟩ := r
  simp only [quiet_ok_bind, py_ok_bind, say_bind]
  have hpm : (printModel b name ps).result = .ok () := by
    cases b with
    | false => rfl
    | true => exact (printModel_true hf (initialize_length (hl rfl) hp hi)).1
  rw [out_ok_bind hpm]
  cases hfs : findStatistics (fun i => adjustPoint3 xc yc zc an (x i) (y i) (z i)) val f ps "euclidean" args.pseudoInv with
  | error e =>
    refine ⟨rfl, fun hb => ?_, fun _ s h => by cases h⟩
    subst hb
    simp [printModel_false, printStatistics_false]
  | ok st =>
  simp only [quiet_ok_bind, py_ok_bind, say_bind]
  rw [out_ok_bind (printStatistics_snd b st)]
  cases hsp : setupSpecifiedTerm n args.driftTerms args.specifiedDrift with
  | error e =>
    refine ⟨rfl, fun hb => ?_, fun _ s h => by cases h⟩
    subst hb
    simp [printModel_false, printStatistics_false]
  | ok spec =>
  simp only [quiet_ok_bind, py_ok_bind, say_bind]
  cases hfu : setupFunctionalTerm args.driftTerms args.functionalDrift with
  | error e =>
    refine ⟨rfl, fun hb => ?_, fun _ s h => by cases h⟩
    subst hb
    simp [printModel_false, printStatistics_false]
  | ok func =>
  simp only [quiet_ok_bind, py_ok_bind, say_bind]
  refine ⟨rfl, fun hb => ?_, fun hb s h => ?_⟩
  · subst hb
    simp [printModel_false, printStatistics_false, sayWells_lines]
  · subst hb
    cases h
    obtain ⟨-, m2, m3⟩ := printModel_true hf (initialize_length (hl rfl) hp hi)
    refine ⟨_, rfl, by simp [m2], _, m3, ?_⟩
    simp [numbers, say_numbers_text, printStatistics_true, sayWells_lines]
    try rfl

/-- The walk through `update_variogram_model`. -/
theorem OK.updateVerbose_spec {n : ℕ} {env : Env} (s : OK n) (u : OKUpdate) (b : Bool) (hl : b = true → LsqSpec env) :
    (OK.updateVerbose env s u b).2 = OK.update env s u ∧ (b = false → (OK.updateVerbose env s u b).1 = []) ∧
      (b = true → (OK.update env s u).1 = .ok () → ∃ name, (OK.update env s u).2.variogramModel = .name name ∧
        modelLine name ∈ (OK.updateVerbose env s u b).1 ∧
        ∃ curve, Describes name curve ((OK.update env s u).2.variogramFunction (OK.update env s u).2.params) ∧
          numbers (OK.updateVerbose env s u b).1 = curve ++ statisticsLines (OK.update env s u).2.getStatistics) := by
  unfold OK.updateVerbose OK.update
  dsimp only
  cases hres : OK.resolveModel env s.coordinatesType u.variogramModel u.variogramFunction u.params
      u.anisotropyScaling u.anisotropyAngle with
  | error e => exact ⟨rfl, fun _ => rfl, fun _ h => by cases h⟩
  | ok r =>
  obtain ⟨name, model, fArg, pArg, scaling, angle⟩ := r
  dsimp only
  cases hf : chooseFunction name fArg with
  | error e => exact ⟨rfl, fun _ => rfl, fun _ h => by cases h⟩
  | ok r =>
  obtain ⟨f, fname⟩ := r
  dsimp only
  have hmf : (OK.reAniso ({ s with variogramModel := .name name, model := model, variogramFunction := f, functionName := fname } : OK n) scaling angle).variogramFunction = f ∧
      (OK.reAniso ({ s with variogramModel := .name name, model := model, variogramFunction := f, functionName := fname } : OK n) scaling angle).variogramModel = .name name := by
    unfold OK.reAniso
    split_ifs <;> exact ⟨rfl, rfl⟩
  generalize hs' : OK.reAniso ({ s with variogramModel := .name name, model := model, variogramFunction := f, functionName := fname } : OK n) scaling angle = s' at hmf ⊢
  clear hs'
  cases hp : makeVariogramParameterList name pArg with
  | error e =>
    refine ⟨rfl, fun hb => ?_, fun _ h => by cases h⟩
    subst hb
    simp [printModel_false, printStatistics_false]
  | ok vp =>
  dsimp only
  cases hi : initializeVariogramModel env s'.pts s'.Z name vp f u.nlags u.weight s'.coordinatesType with
  | error e =>
    refine ⟨rfl, fun hb => ?_, fun _ h => by cases h⟩
    subst hb
    simp [printModel_false, printStatistics_false]
  | ok r =>
  obtain ⟨lags, ps⟩ := r
  dsimp only
  have hpm : printModel b name ps = ⟨(printModel b name ps).lines, .ok ()⟩ := by
    cases b with
    | false => rfl
    | true => rw [← (printModel_true hf (initialize_length (hl rfl) hp hi)).1]
  rw [hpm]
  dsimp only
  generalize hst : findStatistics _ _ f ps _ _ = r
  cases r with
  | error e =>
    refine ⟨rfl, fun hb => ?_, fun _ h => by cases h⟩
    subst hb
    simp [printModel_false, printStatistics_false]
  | ok st =>
  refine ⟨rfl, fun hb => ?_, fun hb h => ?_⟩
  · subst hb
    simp [printModel_false, printStatistics_false]
  · subst hb
    obtain ⟨-, m2, m3⟩ := printModel_true hf (initialize_length (hl rfl) hp hi)
    refine ⟨name, hmf.2, by simp [m2], _, hmf.1 ▸ m3, ?_⟩
    simp [numbers, say_numbers_text, printStatistics_true, OK.getStatistics]

set_option maxHeartbeats 2000000 in
/-- The walk through `update_variogram_model`. -/
theorem OK3D.updateVerbose_spec {n : ℕ} {env : Env} (s : OK3D n) (u : Update3D) (b : Bool) (hl : b = true → LsqSpec env) :
    (OK3D.updateVerbose env s u b).2 = OK3D.update env s u ∧ (b = false → (OK3D.updateVerbose env s u b).1 = []) ∧
      (b = true → (OK3D.update env s u).1 = .ok () → ∃ name, (OK3D.update env s u).2.variogramModel = .name name ∧
        modelLine name ∈ (OK3D.updateVerbose env s u b).1 ∧
        ∃ curve, Describes name curve ((OK3D.update env s u).2.variogramFunction (OK3D.update env s u).2.params) ∧
          numbers (OK3D.updateVerbose env s u b).1 = curve ++ statisticsLines (OK3D.update env s u).2.getStatistics) := by
  unfold OK3D.updateVerbose OK3D.update
  dsimp only
  cases hres : OK3D.resolveModel env u.variogramModel u.variogramFunction u.params u.aniso with
  | error e => exact ⟨rfl, fun _ => rfl, fun _ h => by cases h⟩
  | ok r =>
  obtain ⟨name, model, fArg, pArg, an⟩ := r
  dsimp only
  cases hf : chooseFunction name fArg with
  | error e => exact ⟨rfl, fun _ => rfl, fun _ h => by cases h⟩
  | ok r =>
  obtain ⟨f, fname⟩ := r
  dsimp only
  have hmf : (OK3D.reAniso ({ s with variogramModel := .name name, model := model, variogramFunction := f, functionName := fname } : OK3D n) an).variogramFunction = f ∧
      (OK3D.reAniso ({ s with variogramModel := .name name, model := model, variogramFunction := f, functionName := fname } : OK3D n) an).variogramModel = .name name := by
    unfold OK3D.reAniso
    split_ifs <;> exact ⟨rfl, rfl⟩
  generalize hs' : OK3D.reAniso ({ s with variogramModel := .name name, model := model, variogramFunction := f, functionName := fname } : OK3D n) an = s' at hmf ⊢
  clear hs'
  cases hp : makeVariogramParameterList name pArg with
  | error e =>
    refine ⟨rfl, fun hb => ?_, fun _ h => by cases h⟩
    subst hb
    simp [printModel_false, printStatistics_false]
  | ok vp =>
  dsimp only
  cases hi : initializeVariogramModel env s'.pts s'.VALUES name vp f u.nlags u.weight "euclidean" with
  | error e =>
    refine ⟨rfl, fun hb => ?_, fun _ h => by cases h⟩
    subst hb
    simp [printModel_false, printStatistics_false]
  | ok r =>
  obtain ⟨lags, ps⟩ := r
  dsimp only
  have hpm : printModel b name ps = ⟨(printModel b name ps).lines, .ok ()⟩ := by
    cases b with
    | false => rfl
    | true => rw [← (printModel_true hf (initialize_length (hl rfl) hp hi)).1]
  rw [hpm]
  dsimp only
  generalize hst : findStatistics _ _ f ps _ _ = r
  cases r with
  | error e =>
    refine ⟨rfl, fun hb => ?_, fun _ h => by cases h⟩
    subst hb
    simp [printModel_false, printStatistics_false]
  | ok st =>
  refine ⟨rfl, fun hb => ?_, fun hb h => ?_⟩
  · subst hb
    simp [printModel_false, printStatistics_false]
  · subst hb
    obtain ⟨-, m2, m3⟩ := printModel_true hf (initialize_length (hl rfl) hp hi)
    refine ⟨name, hmf.2, by simp [m2], _, hmf.1 ▸ m3, ?_⟩
    simp [numbers, say_numbers_text, printStatistics_true, OK3D.getStatistics]

/-- The walk through `update_variogram_model`. -/
theorem UK.updateVerbose_spec {n : ℕ} {env : Env} (s : UK n) (u : OKUpdate) (b : Bool) (hl : b = true → LsqSpec env) :
    (UK.updateVerbose env s u b).2 = UK.update env s u ∧ (b = false → (UK.updateVerbose env s u b).1 = []) ∧
      (b = true → (UK.update env s u).1 = .ok () → ∃ name, (UK.update env s u).2.variogramModel = .name name ∧
        modelLine name ∈ (UK.updateVerbose env s u b).1 ∧
        ∃ curve, Describes name curve ((UK.update env s u).2.variogramFunction (UK.update env s u).2.params) ∧
          numbers (UK.updateVerbose env s u b).1 = curve ++ statisticsLines (UK.update env s u).2.getStatistics) := by
  unfold UK.updateVerbose UK.update
  dsimp only
  cases hres : UK.resolveModel env u.variogramModel u.variogramFunction u.params
      u.anisotropyScaling u.anisotropyAngle with
  | error e => exact ⟨rfl, fun _ => rfl, fun _ h => by cases h⟩
  | ok r =>
  obtain ⟨name, model, fArg, pArg, scaling, angle⟩ := r
  dsimp only
  cases hf : chooseFunction name fArg with
  | error e => exact ⟨rfl, fun _ => rfl, fun _ h => by cases h⟩
  | ok r =>
  obtain ⟨f, fname⟩ := r
  dsimp only
  have hmf : (UK.reAniso ({ s with variogramModel := .name name, model := model, variogramFunction := f, functionName := fname } : UK n) scaling angle).variogramFunction = f ∧
      (UK.reAniso ({ s with variogramModel := .name name, model := model, variogramFunction := f, functionName := fname } : UK n) scaling angle).variogramModel = .name name := by
    unfold UK.reAniso
    split_ifs <;> exact ⟨rfl, rfl⟩
  generalize hs' : UK.reAniso ({ s with variogramModel := .name name, model := model, variogramFunction := f, functionName := fname } : UK n) scaling angle = s' at hmf ⊢
  clear hs'
  cases hp : makeVariogramParameterList name pArg with
  | error e =>
    refine ⟨rfl, fun hb => ?_, fun _ h => by cases h⟩
    subst hb
    simp [printModel_false, printStatistics_false]
  | ok vp =>
  dsimp only
  cases hi : initializeVariogramModel env s'.pts s'.Z name vp f u.nlags u.weight "euclidean" with
  | error e =>
    refine ⟨rfl, fun hb => ?_, fun _ h => by cases h⟩
    subst hb
    simp [printModel_false, printStatistics_false]
  | ok r =>
  obtain ⟨lags, ps⟩ := r
  dsimp only
  have hpm : printModel b name ps = ⟨(printModel b name ps).lines, .ok ()⟩ := by
    cases b with
    | false => rfl
    | true => rw [← (printModel_true hf (initialize_length (hl rfl) hp hi)).1]
  rw [hpm]
  dsimp only
  generalize hst : findStatistics _ _ f ps _ _ = r
  cases r with
  | error e =>
    refine ⟨rfl, fun hb => ?_, fun _ h => by cases h⟩
    subst hb
    simp [printModel_false, printStatistics_false]
  | ok st =>
  refine ⟨rfl, fun hb => ?_, fun hb h => ?_⟩
  · subst hb
    simp [printModel_false, printStatistics_false]
  · subst hb
    obtain ⟨-, m2, m3⟩ := printModel_true hf (initialize_length (hl rfl) hp hi)
    refine ⟨name, hmf.2, by simp [m2], _, hmf.1 ▸ m3, ?_⟩
    simp [numbers, say_numbers_text, printStatistics_true, UK.getStatistics]

set_option maxHeartbeats 2000000 in
/-- The walk through `update_variogram_model`. -/
theorem UK3D.updateVerbose_spec {n : ℕ} {env : Env} (s : UK3D n) (u : Update3D) (b : Bool) (hl : b = true → LsqSpec env) :
    (UK3D.updateVerbose env s u b).2 = UK3D.update env s u ∧ (b = false → (UK3D.updateVerbose env s u b).1 = []) ∧
      (b = true → (UK3D.update env s u).1 = .ok () → ∃ name, (UK3D.update env s u).2.variogramModel = .name name ∧
        modelLine name ∈ (UK3D.updateVerbose env s u b).1 ∧
        ∃ curve, Describes name curve ((UK3D.update env s u).2.variogramFunction (UK3D.update env s u).2.params) ∧
          numbers (UK3D.updateVerbose env s u b).1 = curve ++ statisticsLines (UK3D.update env s u).2.getStatistics) := by
  unfold UK3D.updateVerbose UK3D.update
  dsimp only
  cases hres : OK3D.resolveModel env u.variogramModel u.variogramFunction u.params u.aniso with
  | error e => exact ⟨rfl, fun _ => rfl, fun _ h => by cases h⟩
  | ok r =>
  obtain ⟨name, model, fArg, pArg, an⟩ := r
  dsimp only
  cases hf : chooseFunction name fArg with
  | error e => exact ⟨rfl, fun _ => rfl, fun _ h => by cases h⟩
  | ok r =>
  obtain ⟨f, fname⟩ := r
  dsimp only
  have hmf : (UK3D.reAniso ({ s with variogramModel := .name name, model := model, variogramFunction := f, functionName := fname } : UK3D n) an).variogramFunction = f ∧
      (UK3D.reAniso ({ s with variogramModel := .name name, model := model, variogramFunction := f, functionName := fname } : UK3D n) an).variogramModel = .name name := by
    unfold UK3D.reAniso
    split_ifs <;> exact ⟨rfl, rfl⟩
  generalize hs' : UK3D.reAniso ({ s with variogramModel := .name name, model := model, variogramFunction := f, functionName := fname } : UK3D n) an = s' at hmf ⊢
  clear hs'
  cases hp : makeVariogramParameterList name pArg with
  | error e =>
    refine ⟨rfl, fun hb => ?_, fun _ h => by cases h⟩
    subst hb
    simp [printModel_false, printStatistics_false]
  | ok vp =>
  dsimp only
  cases hi : initializeVariogramModel env s'.pts s'.VALUES name vp f u.nlags u.weight "euclidean" with
  | error e =>
    refine ⟨rfl, fun hb => ?_, fun _ h => by cases h⟩
    subst hb
    simp [printModel_false, printStatistics_false]
  | ok r =>
  obtain ⟨lags, ps⟩ := r
  dsimp only
  have hpm : printModel b name ps = ⟨(printModel b name ps).lines, .ok ()⟩ := by
    cases b with
    | false => rfl
    | true => rw [← (printModel_true hf (initialize_length (hl rfl) hp hi)).1]
  rw [hpm]
  dsimp only
  generalize hst : findStatistics _ _ f ps _ _ = r
  cases r with
  | error e =>
    refine ⟨rfl, fun hb => ?_, fun _ h => by cases h⟩
    subst hb
    simp [printModel_false, printStatistics_false]
  | ok st =>
  refine ⟨rfl, fun hb => ?_, fun hb h => ?_⟩
  · subst hb
    simp [printModel_false, printStatistics_false]
  · subst hb
    obtain ⟨-, m2, m3⟩ := printModel_true hf (initialize_length (hl rfl) hp hi)
    refine ⟨name, hmf.2, by simp [m2], _, hmf.1 ▸ m3, ?_⟩
    simp [numbers, say_numbers_text, printStatistics_true, UK3D.getStatistics]

end
end PyKrige
