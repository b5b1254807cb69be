import Verif.Lemmas.BlueMono
import Verif.Props.C28
import Verif.Props.C22

/-!
# C48: more data never increase the kriging variance, drift terms never decrease it

The variance `execute` returns for a location does not increase when data are added (or when all data are used instead
of a moving window, or a larger window instead of a smaller one), and it does not decrease when drift terms are added.
The variogram is the same in both calls and conditionally negative definite on the larger data set.
-/

set_option linter.unusedSectionVars false

namespace PyKrige
noncomputable section
open Matrix Spec

/-- `OrdinaryKriging`: `s'` has the data of `s` (datum `i` of `s` is datum `e i` of `s'`) and possibly more, with
whatever values.  `s` may be asked for a moving window.  With the same data (`e = id`): all data instead of a window. -/
theorem C48_more_data_2d {n n' : ℕ} {env : Env} {x y z : Fin n → ℝ} {x' y' z' : Fin n' → ℝ} {args : OKArgs}
    {s : OK n} {s' : OK n'} (h : OK.create env x y z args = .ok s) (h' : OK.create env x' y' z' args = .ok s')
    {e : Fin n → Fin n'} (he : Function.Injective e) (hx : ∀ i, x' (e i) = x i) (hy : ∀ i, y' (e i) = y i)
    {γ : ℝ → ℝ} (hγ : s.variogramFunction s.params = .ok γ) (hγ' : s'.variogramFunction s'.params = .ok γ)
    {exact : Bool} (hex : args.exactValues = .bool exact)
    (hG : CondNeg (semivar γ fun i i' => okDistance args (x' i, y' i) (x' i', y' i')))
    {ea ea' : ExecArgs} (ha : Admissible env args s ea.nClosest) (ha' : Admissible env args s' ea'.nClosest)
    (hn' : ea'.nClosest = none)
    {r r' : ExecResult} (hr : s.execute env ea = .ok r) (hr' : s'.execute env ea' = .ok r')
    {j j' : ℕ} {p : ℝ × ℝ} (hq : queryAt ea j = some p) (hq' : queryAt ea' j' = some p)
    (hm : maskedAt ea j = false) (hm' : maskedAt ea' j' = false)
    (hp : args.pseudoInv = false ∨
      CondNeg (withPoint (semivar γ fun i i' => okDistance args (x' i, y' i) (x' i', y' i'))
        (semivarTo exact γ fun i => okDistance args p (x' i, y' i)))) :
    ∃ var var', r.ss[j]? = some (some var) ∧ r'.ss[j']? = some (some var') ∧ var' ≤ var := by
  have hG1 : (fun i j => semivar γ (fun i i' => okDistance args (x' i, y' i) (x' i', y' i')) (e i) (e j)) =
      semivar γ fun i i' => okDistance args (x i, y i) (x i', y i') := by
    funext i j
    exact semivar_embed γ (okDistance args) (x := fun i => (x i, y i)) (x' := fun i => (x' i, y' i)) he
      (fun i => by simp only [hx, hy]) i j
  have hg1 : (fun i => semivarTo exact γ (fun i => okDistance args p (x' i, y' i)) (e i)) =
      semivarTo exact γ fun i => okDistance args p (x i, y i) := by
    funext i; simp only [semivarTo, hx, hy]
  obtain ⟨S, -, -, est, var, -, hv, hb⟩ := C28_best_2d h ha hγ hex (by rw [← hG1]; exact hG.comap e) hr hq hm
    (hp.imp_right fun hp => .inr (by rw [← hG1, ← hg1]; exact hp.withPoint_sub e))
  obtain ⟨S', hS', -, est', var', -, hv', hb'⟩ := C28_best_2d h' ha' hγ' hex hG hr' hq' hm' (hp.imp_right .inr)
  refine ⟨var, var', hv, hv', hb.mono hb' (fun i j => congrFun (congrFun hG1 i) j) (congrFun hg1) fun w hw => ?_⟩
  exact hw.scatter (fun i _ => by simp [hS' hn']) fun l => by simp

/-- `OrdinaryKriging`: a larger moving window, when the data have different distances from the location. -/
theorem C48_window_2d {n : ℕ} {env : Env} {x y z : Fin n → ℝ} {args : OKArgs} {s : OK n}
    (h : OK.create env x y z args = .ok s) {γ : ℝ → ℝ} (hγ : s.variogramFunction s.params = .ok γ)
    {exact : Bool} (hex : args.exactValues = .bool exact)
    (hG : CondNeg (semivar γ fun i i' => okDistance args (x i, y i) (x i', y i')))
    {ea ea' : ExecArgs} (ha : Admissible env args s ea.nClosest) (ha' : Admissible env args s ea'.nClosest)
    {k k' : ℕ} (hk : ea.nClosest = some (k : ℤ)) (hk' : ea'.nClosest = some (k' : ℤ)) (hkk : k ≤ k')
    {r r' : ExecResult} (hr : s.execute env ea = .ok r) (hr' : s.execute env ea' = .ok r')
    {j j' : ℕ} {p : ℝ × ℝ} (hq : queryAt ea j = some p) (hq' : queryAt ea' j' = some p)
    (hm : maskedAt ea j = false) (hm' : maskedAt ea' j' = false)
    (ht : ∀ i i', okDistance args p (x i, y i) = okDistance args p (x i', y i') → i = i') :
    ∃ var var', r.ss[j]? = some (some var) ∧ r'.ss[j']? = some (some var') ∧ var' ≤ var := by
  obtain ⟨S, -, hS, est, var, -, hv, hb⟩ := C28_best_2d h ha hγ hex hG hr hq hm (.inr (.inl (by simp [hk])))
  obtain ⟨S', -, hS', est', var', -, hv', hb'⟩ := C28_best_2d h ha' hγ hex hG hr' hq' hm' (.inr (.inl (by simp [hk'])))
  refine ⟨var, var', hv, hv', hb.mono hb' (e := id) (fun _ _ => rfl) (fun _ => rfl) fun w hw =>
    hw.scatter (fun i hi => ?_) fun l => by simp⟩
  exact nearest_subset (hS k hk).2 (hS' k' hk').2 (by rw [(hS k hk).1, (hS' k' hk').1]; exact hkk) (fun i i' => ht i i') hi

/-- `OrdinaryKriging3D`: `s'` has the data of `s` (datum `i` of `s` is datum `e i` of `s'`) and possibly more, with
whatever values.  `s` may be asked for a moving window.  With the same data (`e = id`): all data instead of a window. -/
theorem C48_more_data_3d {n n' : ℕ} {env : Env} {x y z v : Fin n → ℝ} {x' y' z' v' : Fin n' → ℝ} {args : OK3DArgs}
    {s : OK3D n} {s' : OK3D n'} (h : OK3D.create env x y z v args = .ok s) (h' : OK3D.create env x' y' z' v' args = .ok s')
    {e : Fin n → Fin n'} (he : Function.Injective e) (hx : ∀ i, x' (e i) = x i) (hy : ∀ i, y' (e i) = y i)
    (hz : ∀ i, z' (e i) = z i)
    {γ : ℝ → ℝ} (hγ : s.variogramFunction s.params = .ok γ) (hγ' : s'.variogramFunction s'.params = .ok γ)
    {exact : Bool} (hex : args.exactValues = .bool exact)
    (hG : CondNeg (semivar γ fun i i' => ok3Distance args (x' i, y' i, z' i) (x' i', y' i', z' i')))
    {ea ea' : ExecArgs3} (hk : KnnSpec env) (hw : WindowFits n ea.nClosest)
    (hn' : ea'.nClosest = none)
    {r r' : ExecResult} (hr : s.execute env ea = .ok r) (hr' : s'.execute env ea' = .ok r')
    {j j' : ℕ} {p : ℝ × ℝ × ℝ} (hq : queryAt3 ea j = some p) (hq' : queryAt3 ea' j' = some p)
    (hm : maskedAt3 ea j = false) (hm' : maskedAt3 ea' j' = false)
    (hp : args.pseudoInv = false ∨
      CondNeg (withPoint (semivar γ fun i i' => ok3Distance args (x' i, y' i, z' i) (x' i', y' i', z' i'))
        (semivarTo exact γ fun i => ok3Distance args p (x' i, y' i, z' i)))) :
    ∃ var var', r.ss[j]? = some (some var) ∧ r'.ss[j']? = some (some var') ∧ var' ≤ var := by
  have hG1 : (fun i j => semivar γ (fun i i' => ok3Distance args (x' i, y' i, z' i) (x' i', y' i', z' i')) (e i) (e j)) =
      semivar γ fun i i' => ok3Distance args (x i, y i, z i) (x i', y i', z i') := by
    funext i j
    exact semivar_embed γ (ok3Distance args) (x := fun i => (x i, y i, z i)) (x' := fun i => (x' i, y' i, z' i)) he
      (fun i => by simp only [hx, hy, hz]) i j
  have hg1 : (fun i => semivarTo exact γ (fun i => ok3Distance args p (x' i, y' i, z' i)) (e i)) =
      semivarTo exact γ fun i => ok3Distance args p (x i, y i, z i) := by
    funext i; simp only [semivarTo, hx, hy, hz]
  obtain ⟨S, -, -, est, var, -, hv, hb⟩ := C28_best_3d h hk hw hγ hex (by rw [← hG1]; exact hG.comap e) hr hq hm
    (hp.imp_right fun hp => .inr (by rw [← hG1, ← hg1]; exact hp.withPoint_sub e))
  obtain ⟨S', hS', -, est', var', -, hv', hb'⟩ := C28_best_3d h' hk (fun k e => by simp [hn'] at e) hγ' hex hG hr' hq' hm' (hp.imp_right .inr)
  refine ⟨var, var', hv, hv', hb.mono hb' (fun i j => congrFun (congrFun hG1 i) j) (congrFun hg1) fun w hw => ?_⟩
  exact hw.scatter (fun i _ => by simp [hS' hn']) fun l => by simp

/-- `OrdinaryKriging3D`: a larger moving window, when the data have different distances from the location. -/
theorem C48_window_3d {n : ℕ} {env : Env} {x y z v : Fin n → ℝ} {args : OK3DArgs} {s : OK3D n}
    (h : OK3D.create env x y z v args = .ok s) {γ : ℝ → ℝ} (hγ : s.variogramFunction s.params = .ok γ)
    {exact : Bool} (hex : args.exactValues = .bool exact)
    (hG : CondNeg (semivar γ fun i i' => ok3Distance args (x i, y i, z i) (x i', y i', z i')))
    {ea ea' : ExecArgs3} (hkn : KnnSpec env) (hw : WindowFits n ea.nClosest) (hw' : WindowFits n ea'.nClosest)
    {k k' : ℕ} (hk : ea.nClosest = some (k : ℤ)) (hk' : ea'.nClosest = some (k' : ℤ)) (hkk : k ≤ k')
    {r r' : ExecResult} (hr : s.execute env ea = .ok r) (hr' : s.execute env ea' = .ok r')
    {j j' : ℕ} {p : ℝ × ℝ × ℝ} (hq : queryAt3 ea j = some p) (hq' : queryAt3 ea' j' = some p)
    (hm : maskedAt3 ea j = false) (hm' : maskedAt3 ea' j' = false)
    (ht : ∀ i i', ok3Distance args p (x i, y i, z i) = ok3Distance args p (x i', y i', z i') → i = i') :
    ∃ var var', r.ss[j]? = some (some var) ∧ r'.ss[j']? = some (some var') ∧ var' ≤ var := by
  obtain ⟨S, -, hS, est, var, -, hv, hb⟩ := C28_best_3d h hkn hw hγ hex hG hr hq hm (.inr (.inl (by simp [hk])))
  obtain ⟨S', -, hS', est', var', -, hv', hb'⟩ := C28_best_3d h hkn hw' hγ hex hG hr' hq' hm' (.inr (.inl (by simp [hk'])))
  refine ⟨var, var', hv, hv', hb.mono hb' (e := id) (fun _ _ => rfl) (fun _ => rfl) fun w hw =>
    hw.scatter (fun i hi => ?_) fun l => by simp⟩
  exact nearest_subset (hS k hk).2 (hS' k' hk').2 (by rw [(hS k hk).1, (hS' k' hk').1]; exact hkk) (fun i i' => ht i i') hi

/-- The drift terms have as many values at the data as at the location. -/
theorem UK.spec_length {args : UKArgs} {adj : ℝ × ℝ → Fin 2 → ℝ} {sv sq : List ℝ} {a p : ℝ × ℝ}
    (h : (driftTerms2 args adj sv a).length = (driftTerms2 args adj sq p).length) (hs : "specified" ∈ args.driftTerms) :
    sv.length = sq.length := by
  unfold driftTerms2 at h
  by_cases h1 : "regional_linear" ∈ args.driftTerms <;> by_cases h2 : "point_log" ∈ args.driftTerms <;>
    by_cases h3 : "external_Z" ∈ args.driftTerms <;> by_cases h4 : "functional" ∈ args.driftTerms <;>
    cases hf : args.functionalDrift <;> simp [h1, h2, h3, h4, hs, hf] at h <;> omega

theorem UK3D.spec_length {args : UK3DArgs} {adj : ℝ × ℝ × ℝ → Fin 3 → ℝ} {sv sq : List ℝ} {a p : ℝ × ℝ × ℝ}
    (h : (driftTerms3 args adj sv a).length = (driftTerms3 args adj sq p).length) (hs : "specified" ∈ args.driftTerms) :
    sv.length = sq.length := by
  unfold driftTerms3 at h
  by_cases h1 : "regional_linear" ∈ args.driftTerms <;> by_cases h4 : "functional" ∈ args.driftTerms <;>
    cases hf : args.functionalDrift <;> simp [h1, h4, hs, hf] at h <;> omega

/-- What C28 says, with the lengths of the drift terms. -/
theorem UK.drift_length {n : ℕ} {env : Env} {x y z : Fin n → ℝ} {args : UKArgs} {s : UK n}
    (h : UK.create env x y z args = .ok s) {ea : UKExecArgs}
    (hs : "specified" ∈ args.driftTerms → ea.toExec.backend = "vectorized")
    {r : ExecResult} (hr : s.execute ea = .ok r) {j : ℕ} {p : ℝ × ℝ} (hq : queryAt ea.toExec j = some p)
    (hm : maskedAt ea.toExec j = false) (hsp : "specified" ∈ args.driftTerms) (i : Fin n) :
    (specAtDatum args.specifiedDrift i).length = (specAtQuery ea j).length := by
  obtain ⟨row, hF, -, -⟩ := (UK.create_weighs h ea).at_point (z := s.Z) (lags := s.lags) (stats := s.stats) hr hq hm
  obtain ⟨γ', L, F, f, hγ', hK, hFi, hf⟩ := hF.args h hq hs
  refine UK.spec_length (args := args) (adj := s.adjustPoint) (a := (x i, y i)) (p := p) ?_ hsp
  rw [← hFi, ← hf, List.length_ofFn, List.length_ofFn]

theorem UK3D.drift_length {n : ℕ} {env : Env} {x y z v : Fin n → ℝ} {args : UK3DArgs} {s : UK3D n}
    (h : UK3D.create env x y z v args = .ok s) {ea : UK3DExecArgs}
    (hs : "specified" ∈ args.driftTerms → ea.toExec.backend = "vectorized")
    {r : ExecResult} (hr : s.execute ea = .ok r) {j : ℕ} {p : ℝ × ℝ × ℝ} (hq : queryAt3 ea.toExec j = some p)
    (hm : maskedAt3 ea.toExec j = false) (hsp : "specified" ∈ args.driftTerms) (i : Fin n) :
    (specAtDatum args.specifiedDrift i).length = (specAtQuery3 ea j).length := by
  obtain ⟨row, hF, -, -⟩ := (UK3D.create_weighs h ea).at_point (z := s.VALUES) (lags := s.lags) (stats := s.stats) hr hq hm
  obtain ⟨γ', L, F, f, hγ', hK, hFi, hf⟩ := hF.args h hq hs
  refine UK3D.spec_length (args := args) (adj := s.adjustPoint) (a := (x i, y i, z i)) (p := p) ?_ hsp
  rw [← hFi, ← hf, List.length_ofFn, List.length_ofFn]

/-- `UniversalKriging`: `s'` has the data of `s` and possibly more; the specified drift arrays of `s'` (`sd'`) extend
those of `s`.  Functional drift terms are evaluated after the anisotropy correction, which is centred on the data: with
an anisotropy the added data must lie within the extent of the others. -/
theorem C48_more_data_uk {n n' : ℕ} {env : Env} {x y z : Fin n → ℝ} {x' y' z' : Fin n' → ℝ} {args : UKArgs}
    {sd' : ListArg (List ℝ)} {s : UK n} {s' : UK n'} (h : UK.create env x y z args = .ok s)
    (h' : UK.create env x' y' z' { args with specifiedDrift := sd' } = .ok s')
    {e : Fin n → Fin n'} (he : Function.Injective e) (hx : ∀ i, x' (e i) = x i) (hy : ∀ i, y' (e i) = y i)
    (hsd : "specified" ∈ args.driftTerms → ∀ i, specAtDatum sd' (e i) = specAtDatum args.specifiedDrift i)
    (hfu : "functional" ∈ args.driftTerms → (effScaling args.variogramModel args.anisotropyScaling = 1 ∧
      effAngle args.variogramModel args.anisotropyAngle = 0) ∨ (Within x x' ∧ Within y y'))
    {γ : ℝ → ℝ} (hγ : s.variogramFunction s.params = .ok γ) (hγ' : s'.variogramFunction s'.params = .ok γ)
    {exact : Bool} (hex : args.exactValues = .bool exact) (hp : args.pseudoInv = false)
    (hG : CondNeg (semivar γ fun i i' => ukDistance args (x' i, y' i) (x' i', y' i')))
    {ea ea' : UKExecArgs} (hs : "specified" ∈ args.driftTerms → ea.toExec.backend = "vectorized")
    (hs' : "specified" ∈ args.driftTerms → ea'.toExec.backend = "vectorized")
    {r r' : ExecResult} (hr : s.execute ea = .ok r) (hr' : s'.execute ea' = .ok r')
    {j j' : ℕ} {p : ℝ × ℝ} (hq : queryAt ea.toExec j = some p) (hq' : queryAt ea'.toExec j' = some p)
    (hsq : "specified" ∈ args.driftTerms → specAtQuery ea j = specAtQuery ea' j')
    (hm : maskedAt ea.toExec j = false) (hm' : maskedAt ea'.toExec j' = false) :
    ∃ var var', r.ss[j]? = some (some var) ∧ r'.ss[j']? = some (some var') ∧ var' ≤ var := by
  have hG1 : (fun i j => semivar γ (fun i i' => ukDistance args (x' i, y' i) (x' i', y' i')) (e i) (e j)) =
      semivar γ fun i i' => ukDistance args (x i, y i) (x i', y i') := by
    funext i j
    exact semivar_embed γ (ukDistance args) (x := fun i => (x i, y i)) (x' := fun i => (x' i, y' i)) he
      (fun i => by simp only [hx, hy]) i j
  have hg1 : (fun i => semivarTo exact γ (fun i => ukDistance args p (x' i, y' i)) (e i)) =
      semivarTo exact γ fun i => ukDistance args p (x i, y i) := by
    funext i; simp only [semivarTo, hx, hy]
  obtain ⟨est, var, -, hv, hb⟩ := C28_best_uk h hγ hex hs (by rw [← hG1]; exact hG.comap e) hr hq hm (.inl hp)
  obtain ⟨est', var', -, hv', hb'⟩ := C28_best_uk h' hγ' (exact := exact) hex hs' hG hr' hq' hm' (.inl hp)
  have hlen : "specified" ∈ args.driftTerms → ∀ i : Fin n, (specAtDatum args.specifiedDrift i).length = (specAtQuery ea j).length :=
    fun t => UK.drift_length h hs hr hq hm t
  refine ⟨var, var', hv, hv', hb.mono hb' (fun i j => congrFun (congrFun hG1 i) j) (congrFun hg1) fun w hw => ?_⟩
  obtain ⟨a1, a2⟩ := UK.create_aniso h
  obtain ⟨b1, b2⟩ := UK.create_aniso h'
  obtain ⟨k, hk⟩ : ∃ k, ∀ q, s'.adjustPoint q = s.adjustPoint q + k := ⟨_, fun q => by
    unfold UK.adjustPoint; rw [b1, b2, a1, a2]; exact adjust2_center ![s.XCENTER, s.YCENTER] _ _ _ _⟩
  have hfu' : "functional" ∈ args.driftTerms → ∀ q, s'.adjustPoint q = s.adjustPoint q := fun t q => by
    rcases hfu t with ⟨c1, c2⟩ | ⟨c1, c2⟩
    · unfold UK.adjustPoint
      rw [b1, b2, a1, a2]
      dsimp only
      rw [c1, c2, adjust2_isotropic, adjust2_isotropic]
    · obtain ⟨d1, d2⟩ := UK.create_center h
      obtain ⟨e1, e2⟩ := UK.create_center h'
      unfold UK.adjustPoint
      rw [b1, b2, a1, a2, midrange_within hx c1 d1 e1, midrange_within hy c2 d2 e2]
  refine hw.scatter (fun i _ => trivial) ?_
  have := (rep_driftTerms2 hlen).1 hw.drift
  simp only [hx, hy]
  refine (rep_driftTerms2 (args := { args with specifiedDrift := sd' }) (adj := s'.adjustPoint)
    (sv := fun i => specAtDatum sd' (e i)) (P := fun i => (x i, y i)) (fun t i => ?_)).2 ?_
  · rw [hsd t, ← hsq t]; exact hlen t i
  · obtain ⟨r1, r2, r3, r4, r5⟩ := this
    refine ⟨fun t => ?_, fun t a ha => ?_, r3, fun t => ?_, fun t fs hfs g hg => ?_⟩
    · simp only [hk, Pi.add_apply]
      exact ⟨sum_shift hw.sum_one (r1 t).1 _, sum_shift hw.sum_one (r1 t).2 _⟩
    · simp only [hk, euclid_add_right]
      exact r2 t a ha
    · simp only [hsd t, ← hsq t]; exact r4 t
    · simp only [hfu' t]; exact r5 t fs hfs g hg

/-- `UniversalKriging3D`: the same. -/
theorem C48_more_data_uk3d {n n' : ℕ} {env : Env} {x y z v : Fin n → ℝ} {x' y' z' v' : Fin n' → ℝ} {args : UK3DArgs}
    {sd' : ListArg (List ℝ)} {s : UK3D n} {s' : UK3D n'} (h : UK3D.create env x y z v args = .ok s)
    (h' : UK3D.create env x' y' z' v' { args with specifiedDrift := sd' } = .ok s')
    {e : Fin n → Fin n'} (he : Function.Injective e) (hx : ∀ i, x' (e i) = x i) (hy : ∀ i, y' (e i) = y i)
    (hz : ∀ i, z' (e i) = z i)
    (hsd : "specified" ∈ args.driftTerms → ∀ i, specAtDatum sd' (e i) = specAtDatum args.specifiedDrift i)
    (hfu : "functional" ∈ args.driftTerms → effAniso args.variogramModel args.aniso =
      { scalingY := 1, scalingZ := 1, angleX := 0, angleY := 0, angleZ := 0 } ∨ (Within x x' ∧ Within y y' ∧ Within z z'))
    {γ : ℝ → ℝ} (hγ : s.variogramFunction s.params = .ok γ) (hγ' : s'.variogramFunction s'.params = .ok γ)
    {exact : Bool} (hex : args.exactValues = .bool exact) (hp : args.pseudoInv = false)
    (hG : CondNeg (semivar γ fun i i' => uk3Distance args (x' i, y' i, z' i) (x' i', y' i', z' i')))
    {ea ea' : UK3DExecArgs} (hs : "specified" ∈ args.driftTerms → ea.toExec.backend = "vectorized")
    (hs' : "specified" ∈ args.driftTerms → ea'.toExec.backend = "vectorized")
    {r r' : ExecResult} (hr : s.execute ea = .ok r) (hr' : s'.execute ea' = .ok r')
    {j j' : ℕ} {p : ℝ × ℝ × ℝ} (hq : queryAt3 ea.toExec j = some p) (hq' : queryAt3 ea'.toExec j' = some p)
    (hsq : "specified" ∈ args.driftTerms → specAtQuery3 ea j = specAtQuery3 ea' j')
    (hm : maskedAt3 ea.toExec j = false) (hm' : maskedAt3 ea'.toExec j' = false) :
    ∃ var var', r.ss[j]? = some (some var) ∧ r'.ss[j']? = some (some var') ∧ var' ≤ var := by
  have hG1 : (fun i j => semivar γ (fun i i' => uk3Distance args (x' i, y' i, z' i) (x' i', y' i', z' i')) (e i) (e j)) =
      semivar γ fun i i' => uk3Distance args (x i, y i, z i) (x i', y i', z i') := by
    funext i j
    exact semivar_embed γ (uk3Distance args) (x := fun i => (x i, y i, z i)) (x' := fun i => (x' i, y' i, z' i)) he
      (fun i => by simp only [hx, hy, hz]) i j
  have hg1 : (fun i => semivarTo exact γ (fun i => uk3Distance args p (x' i, y' i, z' i)) (e i)) =
      semivarTo exact γ fun i => uk3Distance args p (x i, y i, z i) := by
    funext i; simp only [semivarTo, hx, hy, hz]
  obtain ⟨est, var, -, hv, hb⟩ := C28_best_uk3d h hγ hex hs (by rw [← hG1]; exact hG.comap e) hr hq hm (.inl hp)
  obtain ⟨est', var', -, hv', hb'⟩ := C28_best_uk3d h' hγ' (exact := exact) hex hs' hG hr' hq' hm' (.inl hp)
  have hlen : "specified" ∈ args.driftTerms → ∀ i : Fin n, (specAtDatum args.specifiedDrift i).length = (specAtQuery3 ea j).length :=
    fun t => UK3D.drift_length h hs hr hq hm t
  refine ⟨var, var', hv, hv', hb.mono hb' (fun i j => congrFun (congrFun hG1 i) j) (congrFun hg1) fun w hw => ?_⟩
  have a1 := UK3D.create_aniso h
  have b1 := UK3D.create_aniso h'
  obtain ⟨k, hk⟩ : ∃ k, ∀ q, s'.adjustPoint q = s.adjustPoint q + k := ⟨_, fun q => by
    unfold UK3D.adjustPoint adjustPoint3; rw [b1, a1]; exact adjust3_center ![s.XCENTER, s.YCENTER, s.ZCENTER] _ _ _⟩
  have hfu' : "functional" ∈ args.driftTerms → ∀ q, s'.adjustPoint q = s.adjustPoint q := fun t q => by
    rcases hfu t with c1 | ⟨c1, c2, c3⟩
    · unfold UK3D.adjustPoint adjustPoint3
      rw [b1, a1]
      dsimp only
      rw [c1]
      dsimp only
      rw [adjust3_isotropic, adjust3_isotropic]
    · obtain ⟨d1, d2, d3⟩ := UK3D.create_center h
      obtain ⟨e1, e2, e3⟩ := UK3D.create_center h'
      unfold UK3D.adjustPoint
      rw [b1, a1, midrange_within hx c1 d1 e1, midrange_within hy c2 d2 e2, midrange_within hz c3 d3 e3]
  refine hw.scatter (fun i _ => trivial) ?_
  have := (rep_driftTerms3 hlen).1 hw.drift
  simp only [hx, hy, hz]
  refine (rep_driftTerms3 (args := { args with specifiedDrift := sd' }) (adj := s'.adjustPoint)
    (sv := fun i => specAtDatum sd' (e i)) (P := fun i => (x i, y i, z i)) (fun t i => ?_)).2 ?_
  · rw [hsd t, ← hsq t]; exact hlen t i
  · obtain ⟨r1, r4, r5⟩ := this
    refine ⟨fun t => ?_, fun t => ?_, fun t fs hfs g hg => ?_⟩
    · simp only [hk, Pi.add_apply]
      exact ⟨sum_shift hw.sum_one (r1 t).1 _, sum_shift hw.sum_one (r1 t).2.1 _, sum_shift hw.sum_one (r1 t).2.2 _⟩
    · simp only [hsd t, ← hsq t]; exact r4 t
    · simp only [hfu' t]; exact r5 t fs hfs g hg

/-- `UniversalKriging` with more drift terms (`T'` contains those of `args`): the variance does not decrease. -/
theorem C48_more_drift_uk {n : ℕ} {env : Env} {x y z z' : Fin n → ℝ} {args : UKArgs} {T' : List String}
    {s s' : UK n} (h : UK.create env x y z args = .ok s)
    (h' : UK.create env x y z' { args with driftTerms := T' } = .ok s') (hT : ∀ t ∈ args.driftTerms, t ∈ T')
    {γ : ℝ → ℝ} (hγ : s.variogramFunction s.params = .ok γ) (hγ' : s'.variogramFunction s'.params = .ok γ)
    {exact : Bool} (hex : args.exactValues = .bool exact) (hp : args.pseudoInv = false)
    (hG : CondNeg (semivar γ fun i i' => ukDistance args (x i, y i) (x i', y i')))
    {ea ea' : UKExecArgs} (hs : "specified" ∈ args.driftTerms → ea.toExec.backend = "vectorized")
    (hs' : "specified" ∈ T' → ea'.toExec.backend = "vectorized")
    {r r' : ExecResult} (hr : s.execute ea = .ok r) (hr' : s'.execute ea' = .ok r')
    {j j' : ℕ} {p : ℝ × ℝ} (hq : queryAt ea.toExec j = some p) (hq' : queryAt ea'.toExec j' = some p)
    (hsq : "specified" ∈ args.driftTerms → specAtQuery ea j = specAtQuery ea' j')
    (hm : maskedAt ea.toExec j = false) (hm' : maskedAt ea'.toExec j' = false) :
    ∃ var var', r.ss[j]? = some (some var) ∧ r'.ss[j']? = some (some var') ∧ var ≤ var' := by
  obtain ⟨est, var, -, hv, hb⟩ := C28_best_uk h hγ hex hs hG hr hq hm (.inl hp)
  obtain ⟨est', var', -, hv', hb'⟩ := C28_best_uk h' hγ' (exact := exact) hex hs' hG hr' hq' hm' (.inl hp)
  refine ⟨var, var', hv, hv', hb'.mono hb (e := id) (fun _ _ => rfl) (fun _ => rfl) fun w hw => ?_⟩
  refine hw.scatter (fun i _ => trivial) ?_
  obtain ⟨a1, a2⟩ := UK.create_aniso h
  obtain ⟨b1, b2⟩ := UK.create_aniso h'
  obtain ⟨d1, d2⟩ := UK.create_center h
  obtain ⟨e1, e2⟩ := UK.create_center h'
  have hadj : s'.adjustPoint = s.adjustPoint := by
    funext q
    unfold UK.adjustPoint
    rw [b1, b2, a1, a2]
    rw [d1] at e1; rw [d2] at e2
    rw [Except.ok.inj e1, Except.ok.inj e2]
  have hw' := (rep_driftTerms2 fun t => UK.drift_length h' hs' hr' hq' hm' t).1 hw.drift
  rw [hadj] at hw'
  obtain ⟨r1, r2, r3, r4, r5⟩ := hw'
  refine (rep_driftTerms2 fun t => UK.drift_length h hs hr hq hm t).2
    ⟨fun t => r1 (hT _ t), fun t => r2 (hT _ t), fun t => r3 (hT _ t), fun t => ?_, fun t => r5 (hT _ t)⟩
  rw [hsq t]; exact r4 (hT _ t)

/-- `UniversalKriging3D` with more drift terms. -/
theorem C48_more_drift_uk3d {n : ℕ} {env : Env} {x y z v v' : Fin n → ℝ} {args : UK3DArgs} {T' : List String}
    {s s' : UK3D n} (h : UK3D.create env x y z v args = .ok s)
    (h' : UK3D.create env x y z v' { args with driftTerms := T' } = .ok s') (hT : ∀ t ∈ args.driftTerms, t ∈ T')
    {γ : ℝ → ℝ} (hγ : s.variogramFunction s.params = .ok γ) (hγ' : s'.variogramFunction s'.params = .ok γ)
    {exact : Bool} (hex : args.exactValues = .bool exact) (hp : args.pseudoInv = false)
    (hG : CondNeg (semivar γ fun i i' => uk3Distance args (x i, y i, z i) (x i', y i', z i')))
    {ea ea' : UK3DExecArgs} (hs : "specified" ∈ args.driftTerms → ea.toExec.backend = "vectorized")
    (hs' : "specified" ∈ T' → ea'.toExec.backend = "vectorized")
    {r r' : ExecResult} (hr : s.execute ea = .ok r) (hr' : s'.execute ea' = .ok r')
    {j j' : ℕ} {p : ℝ × ℝ × ℝ} (hq : queryAt3 ea.toExec j = some p) (hq' : queryAt3 ea'.toExec j' = some p)
    (hsq : "specified" ∈ args.driftTerms → specAtQuery3 ea j = specAtQuery3 ea' j')
    (hm : maskedAt3 ea.toExec j = false) (hm' : maskedAt3 ea'.toExec j' = false) :
    ∃ var var', r.ss[j]? = some (some var) ∧ r'.ss[j']? = some (some var') ∧ var ≤ var' := by
  obtain ⟨est, var, -, hv, hb⟩ := C28_best_uk3d h hγ hex hs hG hr hq hm (.inl hp)
  obtain ⟨est', var', -, hv', hb'⟩ := C28_best_uk3d h' hγ' (exact := exact) hex hs' hG hr' hq' hm' (.inl hp)
  refine ⟨var, var', hv, hv', hb'.mono hb (e := id) (fun _ _ => rfl) (fun _ => rfl) fun w hw => ?_⟩
  refine hw.scatter (fun i _ => trivial) ?_
  have a1 := UK3D.create_aniso h
  have b1 := UK3D.create_aniso h'
  obtain ⟨d1, d2, d3⟩ := UK3D.create_center h
  obtain ⟨e1, e2, e3⟩ := UK3D.create_center h'
  have hadj : s'.adjustPoint = s.adjustPoint := by
    funext q
    unfold UK3D.adjustPoint
    rw [b1, a1]
    rw [d1] at e1; rw [d2] at e2; rw [d3] at e3
    rw [Except.ok.inj e1, Except.ok.inj e2, Except.ok.inj e3]
  have hw' := (rep_driftTerms3 fun t => UK3D.drift_length h' hs' hr' hq' hm' t).1 hw.drift
  rw [hadj] at hw'
  obtain ⟨r1, r4, r5⟩ := hw'
  refine (rep_driftTerms3 fun t => UK3D.drift_length h hs hr hq hm t).2
    ⟨fun t => r1 (hT _ t), fun t => ?_, fun t => r5 (hT _ t)⟩
  rw [hsq t]; exact r4 (hT _ t)

/-- Ordinary kriging has a variance not larger than universal kriging of the same data. -/
theorem C48_ordinary_2d {n : ℕ} {env : Env} {x y z : Fin n → ℝ} {args : UKArgs} {so : OK n} {su : UK n}
    (ho : OK.create env x y z (sameArgs args) = .ok so) (hu : UK.create env x y z args = .ok su)
    {γ : ℝ → ℝ} (hγ : so.variogramFunction so.params = .ok γ) (hγ' : su.variogramFunction su.params = .ok γ)
    {exact : Bool} (hex : args.exactValues = .bool exact) (hp : args.pseudoInv = false)
    (hG : CondNeg (semivar γ fun i i' => ukDistance args (x i, y i) (x i', y i')))
    {eo : ExecArgs} {eu : UKExecArgs} (ha : Admissible env (sameArgs args) so eo.nClosest) (hn : eo.nClosest = none)
    (hs : "specified" ∈ args.driftTerms → eu.toExec.backend = "vectorized")
    {ro ru : ExecResult} (hr : so.execute env eo = .ok ro) (hr' : su.execute eu = .ok ru)
    {j j' : ℕ} {p : ℝ × ℝ} (hq : queryAt eo j = some p) (hq' : queryAt eu.toExec j' = some p)
    (hm : maskedAt eo j = false) (hm' : maskedAt eu.toExec j' = false) :
    ∃ var var', ro.ss[j]? = some (some var) ∧ ru.ss[j']? = some (some var') ∧ var ≤ var' := by
  obtain ⟨S, hS, -, est, var, -, hv, hb⟩ := C28_best_2d ho ha hγ (exact := exact) hex hG hr hq hm (.inl hp)
  obtain ⟨est', var', -, hv', hb'⟩ := C28_best_uk hu hγ' hex hs hG hr' hq' hm' (.inl hp)
  exact ⟨var, var', hv, hv', hb'.mono hb (e := id) (fun _ _ => rfl) (fun _ => rfl) fun w hw =>
    hw.scatter (fun i _ => by simp [hS hn]) fun l => by simp⟩

/-- The same in three dimensions. -/
theorem C48_ordinary_3d {n : ℕ} {env : Env} {x y z v : Fin n → ℝ} {args : UK3DArgs} {so : OK3D n} {su : UK3D n}
    (ho : OK3D.create env x y z v (sameArgs3 args) = .ok so) (hu : UK3D.create env x y z v args = .ok su)
    {γ : ℝ → ℝ} (hγ : so.variogramFunction so.params = .ok γ) (hγ' : su.variogramFunction su.params = .ok γ)
    {exact : Bool} (hex : args.exactValues = .bool exact) (hp : args.pseudoInv = false)
    (hG : CondNeg (semivar γ fun i i' => uk3Distance args (x i, y i, z i) (x i', y i', z i')))
    {eo : ExecArgs3} {eu : UK3DExecArgs} (hk : KnnSpec env) (hn : eo.nClosest = none)
    (hs : "specified" ∈ args.driftTerms → eu.toExec.backend = "vectorized")
    {ro ru : ExecResult} (hr : so.execute env eo = .ok ro) (hr' : su.execute eu = .ok ru)
    {j j' : ℕ} {p : ℝ × ℝ × ℝ} (hq : queryAt3 eo j = some p) (hq' : queryAt3 eu.toExec j' = some p)
    (hm : maskedAt3 eo j = false) (hm' : maskedAt3 eu.toExec j' = false) :
    ∃ var var', ro.ss[j]? = some (some var) ∧ ru.ss[j']? = some (some var') ∧ var ≤ var' := by
  obtain ⟨S, hS, -, est, var, -, hv, hb⟩ := C28_best_3d ho hk (fun k e => by simp [hn] at e) hγ (exact := exact) hex hG hr hq hm (.inl hp)
  obtain ⟨est', var', -, hv', hb'⟩ := C28_best_uk3d hu hγ' hex hs hG hr' hq' hm' (.inl hp)
  exact ⟨var, var', hv, hv', hb'.mono hb (e := id) (fun _ _ => rfl) (fun _ => rfl) fun w hw =>
    hw.scatter (fun i _ => by simp [hS hn]) fun l => by simp⟩

end
end PyKrige
