import Verif.Spec.Textbook
import Verif.Lemmas.ArgDist
import Verif.Lemmas.Nearest
import Verif.Lemmas.UKDrift
import Verif.Lemmas.Reparam
import Verif.Examples.Demo
import Verif.Props.C10

/-!
# C47: execute solves the kriging equations

Every number returned is the estimate (the kriging variance) belonging to a solution of the textbook kriging
equations, with the variogram in use, the (anisotropic or great-circle) distances between the original
coordinates, and the drift terms asked for.
-/

set_option linter.unusedSectionVars false

namespace PyKrige
noncomputable section
open Matrix Spec

/-! ### Which variogram -/

theorem textbook_of_choose {m : String} {fA : FunArg} {f : VFun} {fname : String} {l ps : List ℝ} {γ : ℝ → ℝ}
    (h : VariogramOf m fA (.list l) f fname ps) (ht : textbook m l = some γ) : f ps = .ok γ := by
  have h2 := h.list (l := if m = "linear" ∨ m = "power" then l else [l.getD 0 0 - l.getD 2 0, l.getD 1 0, l.getD 2 0])
  have h1 := h.choose
  unfold textbook at ht
  split at ht
  · next a c =>
    split at ht
    · next hm =>
      subst hm
      cases ht
      simp [chooseFunction, variogramDict] at h1
      rw [h2 (by simp [makeVariogramParameterList]), ← h1.1]
      simp [linearVariogramModel, pyGet]
      rfl
    · cases ht
  · next a b c =>
    split at ht
    · next hm =>
      subst hm
      cases ht
      simp [chooseFunction, variogramDict] at h1
      rw [h2 (by simp [makeVariogramParameterList]), ← h1.1]
      simp [powerVariogramModel, pyGet]
      rfl
    · next n1 =>
      split at ht
      · next hm =>
        subst hm
        cases ht
        simp [chooseFunction, variogramDict] at h1
        rw [h2 (by simp [makeVariogramParameterList, pyGet]), ← h1.1]
        simp [gaussianVariogramModel, pyGet]
        funext d
        unfold gaussianFormula
        rw [neg_div, show b * 4 / 7 = 4 / 7 * b by ring]
      · next n2 =>
        split at ht
        · next hm =>
          subst hm
          cases ht
          simp [chooseFunction, variogramDict] at h1
          rw [h2 (by simp [makeVariogramParameterList, pyGet]), ← h1.1]
          simp [exponentialVariogramModel, pyGet]
          funext d
          unfold exponentialFormula
          rw [neg_div]
        · next n3 =>
          split at ht
          · next hm =>
            subst hm
            cases ht
            simp [chooseFunction, variogramDict] at h1
            rw [h2 (by simp [makeVariogramParameterList, pyGet]), ← h1.1]
            simp [sphericalVariogramModel, pyGet]
            funext d
            unfold sphericalFormula
            split
            · rw [div_pow]
              congr 2
              rw [mul_div_mul_comm, div_mul_div_comm]
              ring_nf
            · ring
          · next n4 =>
            split at ht
            · next hm =>
              subst hm
              cases ht
              simp [chooseFunction, variogramDict] at h1
              rw [h2 (by simp [makeVariogramParameterList, pyGet]), ← h1.1]
              simp [holeEffectVariogramModel, pyGet]
              funext d
              unfold holeEffectFormula
              rw [neg_div]
            · cases ht
  · cases ht

/-- The variogram used by an object built with a list of parameters is the documented one. -/
theorem C47_variogram_2d {n : ℕ} {env : Env} {x y z : Fin n → ℝ} {args : OKArgs} {s : OK n}
    (h : OK.create env x y z args = .ok s) {m : String} (hm : args.variogramModel = .name m) {l : List ℝ}
    (hl : args.params = .list l) {γ : ℝ → ℝ} (ht : textbook m l = some γ) :
    s.variogramFunction s.params = .ok γ :=
  textbook_of_choose (hl ▸ OK.create_variogramOf h hm) ht

theorem C47_variogram_3d {n : ℕ} {env : Env} {x y z v : Fin n → ℝ} {args : OK3DArgs} {s : OK3D n}
    (h : OK3D.create env x y z v args = .ok s) {m : String} (hm : args.variogramModel = .name m) {l : List ℝ}
    (hl : args.params = .list l) {γ : ℝ → ℝ} (ht : textbook m l = some γ) :
    s.variogramFunction s.params = .ok γ :=
  textbook_of_choose (hl ▸ OK3D.create_variogramOf h hm) ht

theorem C47_variogram_uk {n : ℕ} {env : Env} {x y z : Fin n → ℝ} {args : UKArgs} {s : UK n}
    (h : UK.create env x y z args = .ok s) {m : String} (hm : args.variogramModel = .name m) {l : List ℝ}
    (hl : args.params = .list l) {γ : ℝ → ℝ} (ht : textbook m l = some γ) :
    s.variogramFunction s.params = .ok γ :=
  textbook_of_choose (hl ▸ UK.create_variogramOf h hm) ht

theorem C47_variogram_uk3d {n : ℕ} {env : Env} {x y z v : Fin n → ℝ} {args : UK3DArgs} {s : UK3D n}
    (h : UK3D.create env x y z v args = .ok s) {m : String} (hm : args.variogramModel = .name m) {l : List ℝ}
    (hl : args.params = .list l) {γ : ℝ → ℝ} (ht : textbook m l = some γ) :
    s.variogramFunction s.params = .ok γ :=
  textbook_of_choose (hl ▸ UK3D.create_variogramOf h hm) ht

/-! ### Which equations -/

/-- Notation for ordinary kriging: no drift functions. -/
def Spec.OKEqs {ι : Type} [Fintype ι] (G : ι → ι → ℝ) (g w : ι → ℝ) (μ : ℝ) : Prop :=
  KrigingEqs G (fun l : Fin 0 => l.elim0) g (fun l => l.elim0) 1 w (fun l => l.elim0) μ

/-- The ordinary kriging variance `∑ wᵢ gᵢ - μ`. -/
def Spec.okVariance {ι : Type} [Fintype ι] (g w : ι → ℝ) (μ : ℝ) : ℝ :=
  krigingVariance g (fun l : Fin 0 => l.elim0) w (fun l => l.elim0) μ

/-- `OrdinaryKriging` without moving window (`pseudo_inv=False`). -/
theorem C47_system_2d {n : ℕ} {env : Env} {x y z : Fin n → ℝ} {args : OKArgs} {s : OK n}
    (h : OK.create env x y z args = .ok s) {ea : ExecArgs} (ha : Admissible env args s ea.nClosest)
    (hw : ea.nClosest = none) (hp : args.pseudoInv = false) {r : ExecResult} (hr : s.execute env ea = .ok r)
    {j : ℕ} {t : ℝ} (hv : r.z[j]? = some (some t)) :
    ∃ p γ exact w μ, queryAt ea j = some p ∧ s.variogramFunction s.params = .ok γ ∧
      args.exactValues = .bool exact ∧
      OKEqs (semivar γ fun i k => okDistance args (x i, y i) (x k, y k))
        (semivarTo exact γ fun i => okDistance args p (x i, y i)) w μ ∧
      t = estimate w z ∧
      r.ss[j]? = some (some (okVariance (semivarTo exact γ fun i => okDistance args p (x i, y i)) w μ)) := by
  obtain ⟨-, he, hpi, -, -, -, -, hZ⟩ := OK.create_fields h
  obtain ⟨hD, hQ⟩ := OK.create_dist h
  obtain ⟨p, row, hq, -, ⟨γ, hγ, hk⟩, rfl, hss⟩ :=
    (OK.create_weighs h ha).entry (z := s.Z) (lags := s.lags) (stats := s.stats) hr hv
  obtain ⟨-, hk⟩ | ⟨k, hk, -⟩ := hk
  · obtain ⟨w, ν, μ, e⟩ := hk.krigedEqs (Or.inl (hpi.trans hp))
    have e1 : row.w = w := by rw [e.w_eq, scatter_id]
    have e2 := e.eqs
    have e3 := e.var_eq
    simp only [id, hD, hQ] at e2 e3
    refine ⟨p, γ, s.exactValues, w, μ, hq, hγ, he, ?_, by rw [hZ, e1], ?_⟩
    · unfold OKEqs
      convert e2 using 1
    · rw [hss, e3]
      unfold okVariance
      congr 3 <;> (funext l; exact l.elim0)
  · rw [hw] at hk; cases hk

/-- `OrdinaryKriging` with a moving window: the same equations for the selected data, which are `k` different data, none
of them farther from the query point than any datum left out. -/
theorem C47_window_2d {n : ℕ} {env : Env} {x y z : Fin n → ℝ} {args : OKArgs} {s : OK n}
    (h : OK.create env x y z args = .ok s) {ea : ExecArgs} (ha : Admissible env args s ea.nClosest)
    {k : ℕ} (hw : ea.nClosest = some (k : ℤ)) {r : ExecResult} (hr : s.execute env ea = .ok r)
    {j : ℕ} {t : ℝ} (hv : r.z[j]? = some (some t)) :
    ∃ p γ exact, ∃ sel : Fin k → Fin n, ∃ w μ, queryAt ea j = some p ∧ s.variogramFunction s.params = .ok γ ∧
      args.exactValues = .bool exact ∧ Function.Injective sel ∧
      (∀ i l, l ∉ Set.range sel → okDistance args p (x (sel i), y (sel i)) ≤ okDistance args p (x l, y l)) ∧
      OKEqs (semivar γ fun i k => okDistance args (x (sel i), y (sel i)) (x (sel k), y (sel k)))
        (semivarTo exact γ fun i => okDistance args p (x (sel i), y (sel i))) w μ ∧
      t = estimate w (fun i => z (sel i)) ∧
      r.ss[j]? = some (some (okVariance (semivarTo exact γ fun i => okDistance args p (x (sel i), y (sel i))) w μ)) := by
  obtain ⟨-, he, hpi, -, -, -, -, hZ⟩ := OK.create_fields h
  obtain ⟨hD, hQ⟩ := OK.create_dist h
  obtain ⟨p, row, hq, -, ⟨γ, hγ, hk⟩, rfl, hss⟩ :=
    (OK.create_weighs h ha).entry (z := s.Z) (lags := s.lags) (stats := s.stats) hr hv
  obtain ⟨hk, -⟩ | ⟨k', hk, hk'⟩ := hk
  · rw [hw] at hk; cases hk
  · rw [hw] at hk
    cases hk
    have hkn : k ≤ n := by exact_mod_cast ha.window _ hw
    obtain ⟨hl, hnd⟩ := OK.sel_spec ha.knn s hkn p
    have hnear := fun {i : Fin n} hi {l : Fin n} hl => OK.sel_nearest ha.knn s hkn p (i := i) hi (j := l) hl
    simp only [Int.toNat_natCast] at hk'
    generalize s.sel env k p = sl at hl hnd hk' hnear
    subst hl
    obtain ⟨w, ν, μ, e⟩ := hk'.krigedEqs (Or.inl rfl)
    have e2 := e.eqs
    have e3 := e.var_eq
    simp only [hD, hQ] at e2 e3 hnear
    refine ⟨p, γ, s.exactValues, sl.get, w, μ, hq, hγ, he, e.inj, fun i l hl => ?_, ?_, ?_, ?_⟩
    · refine hnear (List.get_mem _ _) fun hc => hl ?_
      obtain ⟨a, ha⟩ := List.mem_iff_get.1 hc
      exact ⟨a, ha⟩
    · unfold OKEqs
      convert e2 using 1
    · rw [hZ, e.w_eq, estimate_scatter]
    · rw [hss, e3]
      unfold okVariance
      congr 3 <;> (funext l; exact l.elim0)

/-- `OrdinaryKriging3D` without moving window (`pseudo_inv=False`). -/
theorem C47_system_3d {n : ℕ} {env : Env} {x y z v : Fin n → ℝ} {args : OK3DArgs} {s : OK3D n}
    (h : OK3D.create env x y z v args = .ok s) {ea : ExecArgs3} (hknn : KnnSpec env) (hwf : WindowFits n ea.nClosest)
    (hw : ea.nClosest = none) (hp : args.pseudoInv = false) {r : ExecResult} (hr : s.execute env ea = .ok r)
    {j : ℕ} {t : ℝ} (hv : r.z[j]? = some (some t)) :
    ∃ p γ exact w μ, queryAt3 ea j = some p ∧ s.variogramFunction s.params = .ok γ ∧
      args.exactValues = .bool exact ∧
      OKEqs (semivar γ fun i k => ok3Distance args (x i, y i, z i) (x k, y k, z k))
        (semivarTo exact γ fun i => ok3Distance args p (x i, y i, z i)) w μ ∧
      t = estimate w v ∧
      r.ss[j]? = some (some (okVariance (semivarTo exact γ fun i => ok3Distance args p (x i, y i, z i)) w μ)) := by
  obtain ⟨-, he, hpi, -, -, -, -, hZ⟩ := OK3D.create_fields h
  obtain ⟨hD, hQ⟩ := OK3D.create_dist h
  obtain ⟨p, row, hq, -, ⟨γ, hγ, hk⟩, rfl, hss⟩ :=
    (OK3D.create_weighs h hknn hwf).entry (z := s.VALUES) (lags := s.lags) (stats := s.stats) hr hv
  obtain ⟨-, hk⟩ | ⟨k, hk, -⟩ := hk
  · obtain ⟨w, ν, μ, e⟩ := hk.krigedEqs (Or.inl (hpi.trans hp))
    have e1 : row.w = w := by rw [e.w_eq, scatter_id]
    have e2 := e.eqs
    have e3 := e.var_eq
    simp only [id, hD, hQ] at e2 e3
    refine ⟨p, γ, s.exactValues, w, μ, hq, hγ, he, ?_, by rw [hZ, e1], ?_⟩
    · unfold OKEqs
      convert e2 using 1
    · rw [hss, e3]
      unfold okVariance
      congr 3 <;> (funext l; exact l.elim0)
  · rw [hw] at hk; cases hk

/-- `OrdinaryKriging3D` with a moving window: the same equations for the selected data, which are `k` different data, none
of them farther from the query point than any datum left out. -/
theorem C47_window_3d {n : ℕ} {env : Env} {x y z v : Fin n → ℝ} {args : OK3DArgs} {s : OK3D n}
    (h : OK3D.create env x y z v args = .ok s) {ea : ExecArgs3} (hknn : KnnSpec env) (hwf : WindowFits n ea.nClosest)
    {k : ℕ} (hw : ea.nClosest = some (k : ℤ)) {r : ExecResult} (hr : s.execute env ea = .ok r)
    {j : ℕ} {t : ℝ} (hv : r.z[j]? = some (some t)) :
    ∃ p γ exact, ∃ sel : Fin k → Fin n, ∃ w μ, queryAt3 ea j = some p ∧ s.variogramFunction s.params = .ok γ ∧
      args.exactValues = .bool exact ∧ Function.Injective sel ∧
      (∀ i l, l ∉ Set.range sel → ok3Distance args p (x (sel i), y (sel i), z (sel i)) ≤ ok3Distance args p (x l, y l, z l)) ∧
      OKEqs (semivar γ fun i k => ok3Distance args (x (sel i), y (sel i), z (sel i)) (x (sel k), y (sel k), z (sel k)))
        (semivarTo exact γ fun i => ok3Distance args p (x (sel i), y (sel i), z (sel i))) w μ ∧
      t = estimate w (fun i => v (sel i)) ∧
      r.ss[j]? = some (some (okVariance (semivarTo exact γ fun i => ok3Distance args p (x (sel i), y (sel i), z (sel i))) w μ)) := by
  obtain ⟨-, he, hpi, -, -, -, -, hZ⟩ := OK3D.create_fields h
  obtain ⟨hD, hQ⟩ := OK3D.create_dist h
  obtain ⟨p, row, hq, -, ⟨γ, hγ, hk⟩, rfl, hss⟩ :=
    (OK3D.create_weighs h hknn hwf).entry (z := s.VALUES) (lags := s.lags) (stats := s.stats) hr hv
  obtain ⟨hk, -⟩ | ⟨k', hk, hk'⟩ := hk
  · rw [hw] at hk; cases hk
  · rw [hw] at hk
    cases hk
    have hkn : k ≤ n := by exact_mod_cast hwf _ hw
    obtain ⟨hl, hnd⟩ := OK3D.sel_spec hknn s hkn p
    have hnear := fun {i : Fin n} hi {l : Fin n} hl => OK3D.sel_nearest hknn s hkn p (i := i) hi (j := l) hl
    simp only [Int.toNat_natCast] at hk'
    generalize s.sel env k p = sl at hl hnd hk' hnear
    subst hl
    obtain ⟨w, ν, μ, e⟩ := hk'.krigedEqs (Or.inl rfl)
    have e2 := e.eqs
    have e3 := e.var_eq
    simp only [hD, hQ] at e2 e3 hnear
    refine ⟨p, γ, s.exactValues, sl.get, w, μ, hq, hγ, he, e.inj, fun i l hl => ?_, ?_, ?_, ?_⟩
    · refine hnear (List.get_mem _ _) fun hc => hl ?_
      obtain ⟨a, ha⟩ := List.mem_iff_get.1 hc
      exact ⟨a, ha⟩
    · unfold OKEqs
      convert e2 using 1
    · rw [hZ, e.w_eq, estimate_scatter]
    · rw [hss, e3]
      unfold okVariance
      congr 3 <;> (funext l; exact l.elim0)

/-- `UniversalKriging` (`pseudo_inv=False`; specified drift: backend 'vectorized', see C24).  `F` and `f` are the drift
terms at the data and at the query point. -/
theorem C47_system_uk {n : ℕ} {env : Env} {x y z : Fin n → ℝ} {args : UKArgs} {s : UK n}
    (h : UK.create env x y z args = .ok s) {ea : UKExecArgs} (hp : args.pseudoInv = false)
    (hs : "specified" ∈ args.driftTerms → ea.toExec.backend = "vectorized")
    {r : ExecResult} (hr : s.execute ea = .ok r)
    {j : ℕ} {t : ℝ} (hv : r.z[j]? = some (some t)) :
    ∃ p γ exact L, ∃ F : Fin L → Fin n → ℝ, ∃ f : Fin L → ℝ, ∃ w ν μ, queryAt ea.toExec j = some p ∧
      s.variogramFunction s.params = .ok γ ∧ args.exactValues = .bool exact ∧
      (∀ i, List.ofFn (fun l => F l i) =
        driftTerms2 args s.adjustPoint (specAtDatum args.specifiedDrift i) (x i, y i)) ∧
      List.ofFn f = driftTerms2 args s.adjustPoint (specAtQuery ea j) p ∧
      KrigingEqs (semivar γ fun i k => ukDistance args (x i, y i) (x k, y k)) F
        (semivarTo exact γ fun i => ukDistance args p (x i, y i)) f 1 w ν μ ∧
      t = estimate w z ∧
      r.ss[j]? = some (some (krigingVariance (semivarTo exact γ fun i => ukDistance args p (x i, y i)) f w ν μ)) := by
  obtain ⟨-, he, hpi, -, -, -, hZ⟩ := UK.create_fields h
  obtain ⟨hD, hQ⟩ := UK.create_dist h
  obtain ⟨p, row, hq, -, hF, rfl, hss⟩ :=
    (UK.create_weighs h ea).entry (z := s.Z) (lags := s.lags) (stats := s.stats) hr hv
  obtain ⟨γ, L, F, f, hγ, hk, h1, h2⟩ := hF.args h hq hs
  obtain ⟨w, ν, μ, e⟩ := hk.krigedEqs (Or.inl (hpi.trans hp))
  have e1 : row.w = w := by rw [e.w_eq, scatter_id]
  have e2 := e.eqs
  have e3 := e.var_eq
  simp only [id, hD, hQ] at e2 e3
  exact ⟨p, γ, s.exactValues, L, F, f, w, ν, μ, hq, hγ, he, h1, h2, e2, by rw [hZ, e1], by rw [hss, e3]⟩

/-- `UniversalKriging3D` (`pseudo_inv=False`; specified drift: backend 'vectorized', see C24).  `F` and `f` are the drift
terms at the data and at the query point. -/
theorem C47_system_uk3d {n : ℕ} {env : Env} {x y z v : Fin n → ℝ} {args : UK3DArgs} {s : UK3D n}
    (h : UK3D.create env x y z v args = .ok s) {ea : UK3DExecArgs} (hp : args.pseudoInv = false)
    (hs : "specified" ∈ args.driftTerms → ea.toExec.backend = "vectorized")
    {r : ExecResult} (hr : s.execute ea = .ok r)
    {j : ℕ} {t : ℝ} (hv : r.z[j]? = some (some t)) :
    ∃ p γ exact L, ∃ F : Fin L → Fin n → ℝ, ∃ f : Fin L → ℝ, ∃ w ν μ, queryAt3 ea.toExec j = some p ∧
      s.variogramFunction s.params = .ok γ ∧ args.exactValues = .bool exact ∧
      (∀ i, List.ofFn (fun l => F l i) =
        driftTerms3 args s.adjustPoint (specAtDatum args.specifiedDrift i) (x i, y i, z i)) ∧
      List.ofFn f = driftTerms3 args s.adjustPoint (specAtQuery3 ea j) p ∧
      KrigingEqs (semivar γ fun i k => uk3Distance args (x i, y i, z i) (x k, y k, z k)) F
        (semivarTo exact γ fun i => uk3Distance args p (x i, y i, z i)) f 1 w ν μ ∧
      t = estimate w v ∧
      r.ss[j]? = some (some (krigingVariance (semivarTo exact γ fun i => uk3Distance args p (x i, y i, z i)) f w ν μ)) := by
  obtain ⟨-, he, hpi, -, -, -, -, hZ⟩ := UK3D.create_fields h
  obtain ⟨hD, hQ⟩ := UK3D.create_dist h
  obtain ⟨p, row, hq, -, hF, rfl, hss⟩ :=
    (UK3D.create_weighs h ea).entry (z := s.VALUES) (lags := s.lags) (stats := s.stats) hr hv
  obtain ⟨γ, L, F, f, hγ, hk, h1, h2⟩ := hF.args h hq hs
  obtain ⟨w, ν, μ, e⟩ := hk.krigedEqs (Or.inl (hpi.trans hp))
  have e1 : row.w = w := by rw [e.w_eq, scatter_id]
  have e2 := e.eqs
  have e3 := e.var_eq
  simp only [id, hD, hQ] at e2 e3
  exact ⟨p, γ, s.exactValues, L, F, f, w, ν, μ, hq, hγ, he, h1, h2, e2, by rw [hZ, e1], by rw [hss, e3]⟩

/-- Not vacuous: the theorems apply to the running examples (`v` is the entry, `t` its variance). -/
example : ∃ s r, OK.create stdEnv Demo.X Demo.O ![3, 5] (Demo.args 1 true false) = .ok s ∧
    s.execute stdEnv (Demo.pts [(2, 5), (0, 0)] "C") = .ok r ∧ (∃ t, r.z[1]? = some (some t)) ∧
    textbook "linear" [1, 1] = some fun d => 1 * d + 1 := by
  obtain ⟨s, h, -⟩ := Demo.ok ![3, 5] 1 true false
  obtain ⟨ha, r, hr⟩ := Demo.ok_run zero_le_one h [(2, 5), (0, 0)] (b := "C") (.inr (.inr rfl))
  exact ⟨s, r, h, hr, ⟨_, (((OK.create_pw h ha).table r hr).at_point (j := 1) (p := (0, 0)) rfl rfl).1⟩, by
    simp [textbook]⟩

example : ∃ s r, OK.create stdEnv Demo.X Demo.O ![3, 5] (Demo.args 1 true false) = .ok s ∧
    s.execute stdEnv { Demo.pts [(0, 0), (2, 5)] "loop" with nClosest := some ((2 : ℕ) : ℤ) } = .ok r ∧
    (∃ t, r.z[1]? = some (some t)) := by
  obtain ⟨s, h, -⟩ := Demo.ok ![3, 5] 1 true false
  obtain ⟨ha, r, hr⟩ := Demo.ok_run zero_le_one h [(0, 0), (2, 5)] (b := "vectorized") (.inl rfl)
  have ha' : Admissible stdEnv (Demo.args 1 true false) s (some ((2 : ℕ) : ℤ)) :=
    ⟨ha.knn, ha.noClash, ha.range, by simp [WindowFits]⟩
  exact ⟨s, r, h, C10_full_window_2d (ea := Demo.pts [(0, 0), (2, 5)] "loop") h ha' rfl (.inl rfl) hr,
    ⟨_, (((OK.create_pw h ha).table r hr).at_point (j := 1) (p := (2, 5)) rfl rfl).1⟩⟩

example : ∃ s r, UK.create stdEnv Demo.X Demo.O ![3, 5] (Demo.uargs 1 true false) = .ok s ∧
    s.execute { toExec := Demo.pts [(2, 5), (0, 0)] "loop" } = .ok r ∧ ∃ t, r.z[1]? = some (some t) := by
  obtain ⟨s, h, -⟩ := Demo.uk ![3, 5] 1 true false
  obtain ⟨r, hr⟩ := Demo.uk_run h [(2, 5), (0, 0)] (b := "loop") (.inr rfl)
  exact ⟨s, r, h, hr, ⟨_, (((UK.create_pw h _).table r hr).at_point (j := 1) (p := (0, 0)) rfl rfl).1⟩⟩

end
end PyKrige
