import Verif.Lemmas.Laws

/-!
Concrete problems that meet the hypotheses of the theorems: two data at distance 1, linear variogram with
slope 1 and nugget `c ≥ 0`, any data values.
-/

namespace PyKrige.Demo
noncomputable section
open Matrix Spec

def X : Fin 2 → ℝ := ![0, 1]
def O : Fin 2 → ℝ := ![0, 0]

/-- Constructor arguments of the 2D example. -/
def args (c : ℝ) (exact pseudo : Bool) : OKArgs :=
  { params := .list [1, c], exactValues := .bool exact, pseudoInv := pseudo }

def args3 (c : ℝ) (exact pseudo : Bool) : OK3DArgs :=
  { params := .list [1, c], exactValues := .bool exact, pseudoInv := pseudo }

/-- Universal kriging with the functional drift `x`. -/
def uargs (c : ℝ) (exact pseudo : Bool) : UKArgs :=
  { params := .list [1, c], exactValues := .bool exact, pseudoInv := pseudo
    driftTerms := ["functional"], functionalDrift := .list [fun x _ => x] }

def uargs3 (c : ℝ) (exact pseudo : Bool) : UK3DArgs :=
  { params := .list [1, c], exactValues := .bool exact, pseudoInv := pseudo
    driftTerms := ["functional"], functionalDrift := .list [fun x _ _ => x] }

/-- `execute('points', [p.1...], ...)` at some points. -/
def pts (l : List (ℝ × ℝ)) (backend : String) : ExecArgs :=
  { style := "points", xpoints := ⟨l.map Prod.fst, false⟩, ypoints := ⟨l.map Prod.snd, false⟩
    backend := backend }

def pts3 (l : List (ℝ × ℝ × ℝ)) (backend : String) : ExecArgs3 :=
  { style := "points", xpoints := ⟨l.map Prod.fst, false⟩, ypoints := ⟨l.map fun p => p.2.1, false⟩
    zpoints := ⟨l.map fun p => p.2.2, false⟩, backend := backend }

theorem midrange_X : midrange X = .ok (1 / 2) := by
  simp [midrange, amax, amin, X, List.ofFn_succ]

theorem midrange_O : midrange O = .ok 0 := by
  simp [midrange, amax, amin, O, List.ofFn_succ]

theorem expVar_ok {m : ℕ} (P : Fin 2 → Fin m → ℝ) (z : Fin 2 → ℝ) (k : ℕ) :
    ∃ ev, experimentalVariogram P z k "euclidean" = .ok ev := by
  have : pdistPairs 2 = [(0, 1)] := by decide
  simp [experimentalVariogram, pairDistances, this, amax, amin]

theorem regular2 {G : Fin 2 → Fin 2 → ℝ} {a : ℝ} (h0 : G 0 0 = 0) (h1 : G 1 1 = 0) (h2 : G 0 1 = a)
    (h3 : G 1 0 = a) (ha : a ≠ 0) : Regular G noF := by
  intro w ν μ h
  have e0 := h.stationary 0
  have e1 := h.stationary 1
  have e2 := h.unbiased
  simp only [Fin.sum_univ_two, h0, h1, h2, h3, Finset.univ_eq_empty, Finset.sum_empty, Pi.zero_apply] at e0 e1 e2
  have hw : w 1 = -w 0 := by linarith
  rw [hw] at e0
  have e3 : a * w 0 = 0 := by linarith
  have e4 : w 0 = 0 := by simpa [ha] using e3
  refine ⟨?_, Subsingleton.elim _ _, by rw [e4] at e0; linarith⟩
  funext i
  fin_cases i
  · exact e4
  · simpa [e4] using hw

theorem stats_ok {m : ℕ} (P : Fin 2 → Fin m → ℝ) (z : Fin 2 → ℝ) {f : VFun} {ps : List ℝ} {γ : ℝ → ℝ}
    (hf : f ps = .ok γ) (pseudo : Bool) : ∃ st, findStatistics P z f ps "euclidean" pseudo = .ok st := by
  have : (List.finRange 2).filter (fun i => decide (i.val ≠ 0)) = [1] := by decide
  have hdet : ∀ d : Fin 1 → Fin 1 → ℝ, (coreKrigingMatrix 1 γ d).det ≠ 0 := by
    intro d
    rw [Matrix.det_fin_two]
    simp [coreKrigingMatrix, setEntry, setCol, setRow, fillDiagonal]
  have h1 : ∃ r, statEntry P z f ps "euclidean" pseudo 1 = .ok r := by
    unfold statEntry krige krigeDistances
    simp only [if_true, py_ok_bind, hf, py_pure]
    have key : ∀ b : Fin 2 → ℝ, ∃ x, scipySolve (coreKrigingMatrix 1 γ
        fun i j => euclid (P (Fin.castLE (by omega) i)) (P (Fin.castLE (by omega) j))) b = .ok x := by
      intro b
      exact ⟨_, if_neg (hdet _)⟩
    cases pseudo with
    | true =>
      simp only [if_true, py_ok_bind]
      repeat' split
      all_goals exact ⟨_, rfl⟩
    | false =>
      simp only [Bool.false_eq_true, if_false]
      obtain ⟨x, hx⟩ := key _
      erw [hx]
      simp only [py_ok_bind]
      repeat' split
      all_goals exact ⟨_, rfl⟩
  obtain ⟨r, hr⟩ := h1
  unfold findStatistics
  rw [this]
  simp [hr]

theorem vario (c : ℝ) : linearVariogramModel [1, c] = .ok fun d => d + c := by
  have : linearFormula 1 c = fun d => d + c := by funext d; simp [linearFormula]
  simp [linearVariogramModel, pyGet, this]

/-- The 2D object exists and looks as expected. -/
theorem ok (z : Fin 2 → ℝ) (c : ℝ) (exact pseudo : Bool) : ∃ s,
    OK.create stdEnv X O z (args c exact pseudo) = .ok s ∧ s.params = [1, c] ∧
    s.variogramFunction = linearVariogramModel ∧ s.functionName = "linear_variogram_model" ∧
    s.anisotropyScaling = 1 ∧ s.anisotropyAngle = 0 ∧ s.paramsInt = false := by
  have h2 : ∃ ev, experimentalVariogram (adjustData2 X O (1 / 2) 0 1 0) z 6 "euclidean" = .ok ev :=
    expVar_ok _ _ _
  obtain ⟨ev, h2⟩ := h2
  simp only [one_div] at h2
  simp [OK.create, args, OK.resolveModel, chooseFunction, variogramDict, OK.setupCoordinates, midrange_X,
    midrange_O, makeVariogramParameterList, initializeVariogramModel, h2, variogramFunctionName, intParams]

theorem ok3 (v : Fin 2 → ℝ) (c : ℝ) (exact pseudo : Bool) : ∃ s,
    OK3D.create stdEnv X O O v (args3 c exact pseudo) = .ok s ∧ s.params = [1, c] ∧
    s.variogramFunction = linearVariogramModel ∧ s.functionName = "linear_variogram_model" ∧
    s.aniso = {} := by
  obtain ⟨ev, h2⟩ := expVar_ok (fun i => adjustPoint3 (1 / 2) 0 0 {} (X i) (O i) (O i)) v 6
  obtain ⟨st, h3⟩ := stats_ok (fun i => adjustPoint3 (1 / 2) 0 0 {} (X i) (O i) (O i)) v (vario c) pseudo
  simp only [one_div] at h2 h3
  simp [OK3D.create, args3, OK3D.resolveModel, chooseFunction, variogramDict, midrange_X,
    midrange_O, makeVariogramParameterList, initializeVariogramModel, h2, h3, variogramFunctionName]

theorem uk (z : Fin 2 → ℝ) (c : ℝ) (exact pseudo : Bool) : ∃ s,
    UK.create stdEnv X O z (uargs c exact pseudo) = .ok s ∧ s.params = [1, c] ∧
    s.variogramFunction = linearVariogramModel ∧ s.functionName = "linear_variogram_model" ∧
    s.anisotropyScaling = 1 ∧ s.anisotropyAngle = 0 ∧ s.regionalLinear = false ∧ s.pointLog = none ∧
    s.externalZ = none ∧ s.specified = none ∧ s.functional = some [fun x _ => x] := by
  obtain ⟨ev, h2⟩ := expVar_ok (adjustData2 X O (1 / 2) 0 1 0) z 6
  obtain ⟨st, h3⟩ := stats_ok (adjustData2 X O (1 / 2) 0 1 0) z (vario c) pseudo
  simp only [one_div] at h2 h3
  simp [UK.create, uargs, UK.resolveModel, chooseFunction, variogramDict, midrange_X,
    midrange_O, makeVariogramParameterList, initializeVariogramModel, h2, h3, variogramFunctionName,
    setupExternalZ, setupPointLog, setupSpecifiedTerm, setupFunctionalTerm, setupFunctional]

theorem uk3 (v : Fin 2 → ℝ) (c : ℝ) (exact pseudo : Bool) : ∃ s,
    UK3D.create stdEnv X O O v (uargs3 c exact pseudo) = .ok s ∧ s.params = [1, c] ∧
    s.variogramFunction = linearVariogramModel ∧ s.functionName = "linear_variogram_model" ∧
    s.aniso = {} ∧ s.regionalLinear = false ∧ s.specified = none ∧ s.functional = some [fun x _ _ => x] := by
  obtain ⟨ev, h2⟩ := expVar_ok (fun i => adjustPoint3 (1 / 2) 0 0 {} (X i) (O i) (O i)) v 6
  obtain ⟨st, h3⟩ := stats_ok (fun i => adjustPoint3 (1 / 2) 0 0 {} (X i) (O i) (O i)) v (vario c) pseudo
  simp only [one_div] at h2 h3
  simp [UK3D.create, uargs3, OK3D.resolveModel, chooseFunction, variogramDict, midrange_X,
    midrange_O, makeVariogramParameterList, initializeVariogramModel, h2, h3, variogramFunctionName,
    setupSpecifiedTerm, setupFunctionalTerm, setupFunctional]

theorem admissible {c : ℝ} {exact pseudo : Bool} {s : OK 2}
    (hf : s.functionName = "linear_variogram_model") (l : List (ℝ × ℝ)) (b : String) :
    Admissible stdEnv (args c exact pseudo) s (pts l b).nClosest :=
  ⟨stdEnv_knn, trivial, by simp [RangeOk, hf], by simp [WindowFits, pts]⟩

theorem queryPoints_pts (l : List (ℝ × ℝ)) (b : String) :
    queryPoints (pts l b) = .ok (l, List.replicate l.length false) := by
  have : (l.map Prod.fst).zip (l.map Prod.snd) = l := by
    induction l with
    | nil => rfl
    | cons a l ih => simp [ih]
  simp [queryPoints, pts, this]

theorem queryPoints_pts3 (l : List (ℝ × ℝ × ℝ)) (b : String) :
    queryPoints3 (pts3 l b) = .ok (l, List.replicate l.length false) := by
  have : (l.map Prod.fst).zip ((l.map fun p => p.2.1).zip (l.map fun p => p.2.2)) = l := by
    induction l with
    | nil => rfl
    | cons a l ih => simp [ih]
  simp [queryPoints3, pts3, this]

theorem dist01 : distance2 "euclidean" 1 0 (X 0, O 0) (X 1, O 1) = 1 := by
  simp [distance2, anisoDist2, rad, X, O]

theorem dist01_3 : distance3 {} (X 0, O 0, O 0) (X 1, O 1, O 1) = 1 := by
  simp [distance3, rotX, rotY, rotZ, rad, X, O]

/-- Semivariances of the example. -/
theorem regular_demo {D : Fin 2 → Fin 2 → ℝ} (h : D 0 1 = 1) (h' : D 1 0 = 1) {c : ℝ} (hc : 0 ≤ c) :
    Regular (semivar (fun d => d + c) D) noF := by
  refine regular2 (a := 1 + c) ?_ ?_ ?_ ?_ (by positivity) <;> simp [semivar, h, h']

/-- `execute` works on the example, with every backend. -/
theorem ok_run {z : Fin 2 → ℝ} {c : ℝ} (hc : 0 ≤ c) {exact pseudo : Bool} {s : OK 2}
    (h : OK.create stdEnv X O z (args c exact pseudo) = .ok s) (l : List (ℝ × ℝ)) {b : String}
    (hb : b = "vectorized" ∨ b = "loop" ∨ b = "C") :
    Admissible stdEnv (args c exact pseudo) s (pts l b).nClosest ∧
      ∃ r, s.execute stdEnv (pts l b) = .ok r := by
  obtain ⟨s', h', hp, hv, hn, hsc, han, hint⟩ := ok z c exact pseudo
  rw [h] at h'; cases h'
  have ha := admissible (c := c) (exact := exact) (pseudo := pseudo) hn l b
  refine ⟨ha, ?_⟩
  have hwf := OK.create_wf h ha.noClash ha.range
  obtain ⟨hpl, hx, hy, hz⟩ := OK.create_placed h
  have hct : s.coordinatesType = "euclidean" := (OK.create_fields h).2.2.2.2.1
  have hγ : s.variogramFunction s.params = .ok fun d => d + c := by rw [hv, hp, vario]
  have hD : s.dataDist 0 1 = 1 := by rw [hpl.dataDist, hx, hy, hsc, han, hct, dist01]
  refine ⟨_, (OK.execute_global_iff hwf _ rfl).2 ⟨by simp [pts], _, _, _, hγ, queryPoints_pts l b,
    by simp [pts], ?_, Or.inr (regular_demo hD ((s.dataDist_comm 1 0).trans hD) hc), rfl⟩⟩
  rcases hb with rfl | rfl | rfl <;>
    simp [pts, OK.backendCheck, stdEnv, OK.cVariogram, hn, hint, hp, cGetVariogramModel, cLinear, pyGet]

theorem ok3_run {v : Fin 2 → ℝ} {c : ℝ} (hc : 0 ≤ c) {exact pseudo : Bool} {s : OK3D 2}
    (h : OK3D.create stdEnv X O O v (args3 c exact pseudo) = .ok s) (l : List (ℝ × ℝ × ℝ)) {b : String}
    (hb : b = "vectorized" ∨ b = "loop") :
    WindowFits 2 (pts3 l b).nClosest ∧ ∃ r, s.execute stdEnv (pts3 l b) = .ok r := by
  obtain ⟨s', h', hp, hv, hn, han⟩ := ok3 v c exact pseudo
  rw [h] at h'; cases h'
  refine ⟨by simp [WindowFits, pts3], ?_⟩
  obtain ⟨hpl, hx, hy, hz, -⟩ := OK3D.create_placed h
  have hf := OK3D.create_fields h
  have hγ : s.variogramFunction s.params = .ok fun d => d + c := by rw [hv, hp, vario]
  have hD : s.dataDist 0 1 = 1 := by rw [hpl.dataDist, hx, hy, hz, han, dist01_3]
  refine ⟨_, (OK3D.execute_global_iff (by rw [hf.2.2.2.1]; exact hf.1) _ rfl).2 ⟨by simp [pts3], _, _, _, hγ,
    queryPoints_pts3 l b, by simp [pts3], ?_,
    Or.inr (regular_demo hD ((s.dataDist_comm 1 0).trans hD) hc), rfl⟩⟩
  rcases hb with rfl | rfl <;> simp [pts3, backendCheck3]

theorem regular_drift {G : Fin 2 → Fin 2 → ℝ} {L : ℕ} {F : Fin L → Fin 2 → ℝ} (hL : L = 1)
    (hF : ∀ l, F l = X) : Regular G F := by
  subst hL
  intro w ν μ h
  have e0 := h.stationary 0
  have e1 := h.stationary 1
  have e2 := h.unbiased
  have e3 := h.drift 0
  simp only [Fin.sum_univ_two, Finset.univ_unique, Fin.default_eq_zero, Finset.sum_singleton, hF, X,
    Matrix.cons_val_zero, Matrix.cons_val_one, Pi.zero_apply] at e0 e1 e2 e3
  have w1 : w 1 = 0 := by linarith
  have w0 : w 0 = 0 := by linarith
  rw [w0, w1] at e0 e1
  have hμ : μ = 0 := by linarith
  have hν : ν 0 = 0 := by linarith
  refine ⟨?_, ?_, hμ⟩
  · funext i; fin_cases i; exacts [w0, w1]
  · funext i; fin_cases i; exact hν

theorem uk_run {z : Fin 2 → ℝ} {c : ℝ} {exact pseudo : Bool} {s : UK 2}
    (h : UK.create stdEnv X O z (uargs c exact pseudo) = .ok s) (l : List (ℝ × ℝ)) {b : String}
    (hb : b = "vectorized" ∨ b = "loop") : ∃ r, s.execute { toExec := pts l b } = .ok r := by
  obtain ⟨s', h', hp, hv, hn, hsc, han, hrl, hpl, hez, hsp, hfu⟩ := uk z c exact pseudo
  rw [h] at h'; cases h'
  have hf := UK.create_fields h
  obtain ⟨hplaced, -⟩ := UK.create_placed h
  have hγ : s.variogramFunction s.params = .ok fun d => d + c := by rw [hv, hp, vario]
  have hX : s.X_ADJUSTED = X := by
    funext i
    have := congrFun (hplaced.euclidean i) 0
    rw [UK.adjustPoint, hsc, han, hf.2.2.2.2.1, hf.2.2.2.2.2.1, adjust2_id] at this
    simpa [UK.pts] using this
  have hdd : s.driftData = [X] := by
    simp [UK.driftData, hrl, hpl, hez, hsp, hfu, hX]
  have hreg : Solvable s.pseudoInv (s.G fun d => d + c) s.F := by
    refine Or.inr (regular_drift (by rw [hdd]; rfl) ?_)
    intro l
    have : s.F l ∈ s.driftData := List.get_mem _ _
    rw [hdd] at this
    simpa using this
  have hext : s.extP = fun _ => .ok 0 := by funext p; simp [UK.extP, hez]
  unfold UK.execute
  rw [UK.executeW_eq s (by rw [hf.2.2.2.1]; exact hf.1) _ (by simp [pts]), hγ, py_ok_bind]
  dsimp only
  rw [queryPoints_pts, py_ok_bind]
  simp only [UK.specGrids, hsp, py_ok_bind, pts, Bool.false_and, Bool.false_eq_true, if_false]
  unfold UK.items
  have hitems : ∃ items, s.items b (fun d => d + c) l (List.replicate l.length false) [] = .ok items := by
    unfold UK.items
    rcases hb with rfl | rfl
    · rw [if_pos rfl, if_pos hreg]
      unfold UK.vectorItems
      have : ∃ e, l.mapM s.extP = .ok e := by
        rw [hext]
        clear * -
        induction l with
        | nil => exact ⟨[], rfl⟩
        | cons a l ih => obtain ⟨e, he⟩ := ih; exact ⟨0 :: e, by simp [he]⟩
      obtain ⟨e, he⟩ := this
      rw [he]
      exact ⟨_, rfl⟩
    · rw [if_neg (by decide), if_pos rfl, if_pos hreg]
      unfold UK.loopItems
      have : ∀ q : (ℝ × ℝ) × Bool, ∃ v, (if q.2 then pure (0, 0) else s.loopPoint (fun d => d + c) [] q.1 :
          Py (ℝ × ℝ)) = .ok v := by
        intro q
        split
        · exact ⟨_, rfl⟩
        · simp [UK.loopPoint, UK.atWell, hpl, hext, UK.loopSpec, hsp]
      choose v hv using this
      refine ⟨(l.zip (List.replicate l.length false)).map v, ?_⟩
      rw [py_mapM_eq_ok, List.forall₂_map_right_iff, List.forall₂_same]
      exact fun q _ => hv q
  obtain ⟨items, hi⟩ := hitems
  unfold UK.items at hi
  rw [hi]
  exact ⟨_, rfl⟩

theorem uk3_run {v : Fin 2 → ℝ} {c : ℝ} {exact pseudo : Bool} {s : UK3D 2}
    (h : UK3D.create stdEnv X O O v (uargs3 c exact pseudo) = .ok s) (l : List (ℝ × ℝ × ℝ)) {b : String}
    (hb : b = "vectorized" ∨ b = "loop") : ∃ r, s.execute { toExec := pts3 l b } = .ok r := by
  obtain ⟨s', h', hp, hv, hn, han, hrl, hsp, hfu⟩ := uk3 v c exact pseudo
  rw [h] at h'; cases h'
  have hf := UK3D.create_fields h
  obtain ⟨hplaced, -⟩ := UK3D.create_placed h
  have hγ : s.variogramFunction s.params = .ok fun d => d + c := by rw [hv, hp, vario]
  have hX : (fun i => s.pts i 0) = X := by
    funext i
    have := congrFun (hplaced.euclidean i) 0
    rw [adjustPoint3, han, hf.2.2.2.2.1, hf.2.2.2.2.2.1, hf.2.2.2.2.2.2.1, adjust3_id] at this
    simpa [UK3D.pts] using this
  have hdd : s.driftData = [X] := by
    simp [UK3D.driftData, hrl, hsp, hfu]
    simpa [UK3D.pts] using hX
  have hreg : Solvable s.pseudoInv (s.G fun d => d + c) s.F := by
    refine Or.inr (regular_drift (by rw [hdd]; rfl) ?_)
    intro l
    have : s.F l ∈ s.driftData := List.get_mem _ _
    rw [hdd] at this
    simpa using this
  unfold UK3D.execute
  rw [UK3D.executeW_eq s (by rw [hf.2.2.2.1]; exact hf.1) _ (by simp [pts3]), hγ, py_ok_bind]
  dsimp only
  rw [queryPoints_pts3, py_ok_bind]
  simp only [UK3D.specGrids, hsp, py_ok_bind, pts3, Bool.false_and, Bool.false_eq_true, if_false]
  have hitems : ∃ items, s.items b (fun d => d + c) l (List.replicate l.length false) [] = .ok items := by
    unfold UK3D.items
    rcases hb with rfl | rfl
    · rw [if_pos rfl, if_pos hreg]
      exact ⟨_, rfl⟩
    · rw [if_neg (by decide), if_pos rfl, if_pos hreg]
      unfold UK3D.loopItems
      have : ∀ q : (ℝ × ℝ × ℝ) × Bool, ∃ v, (if q.2 then pure (0, 0) else s.loopPoint (fun d => d + c) [] q.1 :
          Py (ℝ × ℝ)) = .ok v := by
        intro q
        split
        · exact ⟨_, rfl⟩
        · simp [UK3D.loopPoint, UK3D.loopSpec, hsp]
      choose v hv using this
      refine ⟨(l.zip (List.replicate l.length false)).map v, ?_⟩
      rw [py_mapM_eq_ok, List.forall₂_map_right_iff, List.forall₂_same]
      exact fun q _ => hv q
  obtain ⟨items, hi⟩ := hitems
  rw [hi]
  exact ⟨_, rfl⟩

end
end PyKrige.Demo
