import Verif.Props.C20
import Verif.Props.C61
import Verif.Props.C47Unique

/-!
# C65: the fit statistics are prediction errors of `execute`

The statistics come from separate code (`core._krige`).  They are what one would get by predicting each datum with an
object made from the data before it.
-/

set_option linter.unusedSectionVars false

namespace PyKrige
noncomputable section
open Matrix Spec

open Classical in
/-- `st` holds residuals, standard deviations and standardised residuals of the predictions `est` with variances `var` of
all data but the first, leaving out data predicted with a variance below `1e-10`. -/
def Spec.ResidualsOf {n : ℕ} (y est var : Fin n → ℝ) (st : Stats) : Prop :=
  let kept := (List.finRange n).filter fun i => i.val ≠ 0 ∧ 1 / 10 ^ 10 ≤ var i
  st.delta = kept.map (fun i => y i - est i) ∧ st.sigma = kept.map (fun i => √(var i)) ∧
  st.epsilon = kept.map fun i => (y i - est i) / √(var i)

/-- With one datum: its value, twice the semivariance. -/
theorem one_datum {n : ℕ} {D : Fin n → Fin n → ℝ} {y : Fin n → ℝ} {γ : ℝ → ℝ} {i k : Fin n} {est var : ℝ}
    (h : PredictedFromBefore D y γ i est var) (hi : i.val = 1) (hk : k.val = 0) (hf : 1 / 10 ^ 10 < D k i) :
    est = y k ∧ var = 2 * γ (D k i) := by
  obtain ⟨w, ν, μ, e, rfl, rfl⟩ := h
  have : Unique (Fin i.val) := ⟨⟨⟨0, by omega⟩⟩, fun a => Fin.ext (by simp; omega)⟩
  have hd : (default : Fin i.val) = ⟨0, by omega⟩ := (Unique.eq_default _).symm
  have hb : before i ⟨0, by omega⟩ = k := Fin.ext hk.symm
  have h1 : w ⟨0, by omega⟩ = 1 := by simpa [hd] using e.unbiased
  have h2 := e.stationary ⟨0, by omega⟩
  simp only [Fintype.sum_unique, hd, semivar, semivarToFirst, if_true, Finset.univ_eq_empty, Finset.sum_empty, zero_mul,
    hb, not_le.2 hf, false_and, if_false] at h2
  constructor
  · simp [estimate, hd, hb, h1]
  · simp only [krigingVariance, Fintype.sum_unique, hd, semivarToFirst, hb, h1, not_le.2 hf, false_and, if_false,
      Finset.univ_eq_empty, Finset.sum_empty]
    linarith

theorem semivarTo_apart {n : ℕ} {exact : Bool} {γ : ℝ → ℝ} {d : Fin n → ℝ} (h : ∀ i, 1 / 10 ^ 10 < d i) :
    semivarTo exact γ d = semivarToFirst γ d := by
  funext i
  unfold semivarTo semivarToFirst
  rw [if_neg fun hc => absurd hc.2 (not_le.2 (h i)), if_neg fun hc => absurd hc.1 (not_le.2 (h i))]

/-- `OrdinaryKriging`: `t i` is made from the data before datum `i`, with the same variogram, and asked at datum `i`. -/
theorem C65_statistics_2d {n : ℕ} {env : Env} {x y z : Fin n → ℝ} {args : OKArgs} {s : OK n}
    (h : OK.create env x y z args = .ok s) (hs : args.enableStatistics = true) (hp : args.pseudoInv = false) {γ : ℝ → ℝ} (hγ : s.variogramFunction s.params = .ok γ)
    (hfar : ∀ i j, i ≠ j → 1 / 10 ^ 10 < okDistance args (x i, y i) (x j, y j))
    (pa : ParamArg) (stat : Bool) {args' : OKArgs} (hargs : args' = { args with params := pa, enableStatistics := stat })
    {t : (i : Fin n) → 2 ≤ i.val → OK i.val} (ht : ∀ i hi, OK.create env (fun a => x (before i a)) (fun a => y (before i a)) (fun a => z (before i a)) args' = .ok (t i hi))
    (htγ : ∀ i hi, (t i hi).variogramFunction (t i hi).params = .ok γ)
    (hA : ∀ i hi, Admissible env args' (t i hi) none)
    {ea : Fin n → ExecArgs} (hn : ∀ i, (ea i).nClosest = none) {r : Fin n → ExecResult} (hr : ∀ i hi, (t i hi).execute env (ea i) = .ok (r i))
    {j : Fin n → ℕ} (hq : ∀ i, 2 ≤ i.val → queryAt (ea i) (j i) = some (x i, y i)) (hm : ∀ i, 2 ≤ i.val → maskedAt (ea i) (j i) = false) :
    ∃ st est var, s.stats = some st ∧ ResidualsOf z est var st ∧
      (∀ i k, i.val = 1 → k.val = 0 → est i = z k ∧ var i = 2 * γ (okDistance args (x k, y k) (x i, y i))) ∧
      ∀ i, 2 ≤ i.val → (r i).z[j i]? = some (some (est i)) ∧ (r i).ss[j i]? = some (some (var i)) := by
  obtain ⟨st, hst, est, var, hpred, hres⟩ := C20_object_ok h hs hγ (.inl hp)
  obtain ⟨exact, hex⟩ : ∃ b, args.exactValues = .bool b := by
    obtain ⟨-, he, -⟩ := OK.create_fields h
    exact ⟨_, he⟩
  have hd : okDistance args' = okDistance args := by rw [hargs]; rfl
  refine ⟨st, est, var, hst, hres, fun i k hi hk => ?_, fun i hi => ?_⟩
  · exact one_datum (hpred i (by omega)) hi hk (hfar _ _ fun e => by rw [e] at hk; omega)
  · have hf : ∀ a : Fin i.val, 1 / 10 ^ 10 < okDistance args (x (before i a), y (before i a)) (x i, y i) := fun a => hfar _ _ fun e => by
      have := congrArg Fin.val e
      have := a.isLt
      simp [before] at *
      omega
    have hcm : (fun a : Fin i.val => okDistance args (x i, y i) (x (before i a), y (before i a))) = fun a => okDistance args (x (before i a), y (before i a)) (x i, y i) := by
      funext a
      exact okDistance_comm _ _ _
    obtain ⟨w, ν, μ, e, h1, h2⟩ := hpred i (by omega)
    rw [h1, h2]
    obtain ⟨-, -, hu⟩ := C47_unique_2d (ht i hi) (by rw [hn]; exact hA i hi) (hn i) (by rw [hargs]; exact hp) (htγ i hi) (exact := exact) (by rw [hargs]; exact hex) (hr i hi) (hq i hi) (hm i hi)
    rw [hd, hcm, semivarTo_apart hf] at hu
    obtain ⟨u1, u2⟩ := hu w μ (okEqs_iff.1 e)
    exact ⟨u1, by rw [u2, okVariance_eq]⟩

/-- `OrdinaryKriging3D`: `t i` is made from the data before datum `i`, with the same variogram, and asked at datum `i`. -/
theorem C65_statistics_3d {n : ℕ} {env : Env} {x y z v : Fin n → ℝ} {args : OK3DArgs} {s : OK3D n}
    (h : OK3D.create env x y z v args = .ok s) (hp : args.pseudoInv = false) {γ : ℝ → ℝ} (hγ : s.variogramFunction s.params = .ok γ)
    (hfar : ∀ i j, i ≠ j → 1 / 10 ^ 10 < ok3Distance args (x i, y i, z i) (x j, y j, z j))
    (pa : ParamArg) {args' : OK3DArgs} (hargs : args' = { args with params := pa })
    {t : (i : Fin n) → 2 ≤ i.val → OK3D i.val} (ht : ∀ i hi, OK3D.create env (fun a => x (before i a)) (fun a => y (before i a)) (fun a => z (before i a)) (fun a => v (before i a)) args' = .ok (t i hi))
    (htγ : ∀ i hi, (t i hi).variogramFunction (t i hi).params = .ok γ)
    (hknn : KnnSpec env)
    {ea : Fin n → ExecArgs3} (hn : ∀ i, (ea i).nClosest = none) {r : Fin n → ExecResult} (hr : ∀ i hi, (t i hi).execute env (ea i) = .ok (r i))
    {j : Fin n → ℕ} (hq : ∀ i, 2 ≤ i.val → queryAt3 (ea i) (j i) = some (x i, y i, z i)) (hm : ∀ i, 2 ≤ i.val → maskedAt3 (ea i) (j i) = false) :
    ∃ st est var, s.stats = some st ∧ ResidualsOf v est var st ∧
      (∀ i k, i.val = 1 → k.val = 0 → est i = v k ∧ var i = 2 * γ (ok3Distance args (x k, y k, z k) (x i, y i, z i))) ∧
      ∀ i, 2 ≤ i.val → (r i).z[j i]? = some (some (est i)) ∧ (r i).ss[j i]? = some (some (var i)) := by
  obtain ⟨st, hst, est, var, hpred, hres⟩ := C20_object_ok3 h hγ (.inl hp)
  obtain ⟨exact, hex⟩ : ∃ b, args.exactValues = .bool b := by
    obtain ⟨-, he, -⟩ := OK3D.create_fields h
    exact ⟨_, he⟩
  have hd : ok3Distance args' = ok3Distance args := by rw [hargs]; rfl
  refine ⟨st, est, var, hst, hres, fun i k hi hk => ?_, fun i hi => ?_⟩
  · exact one_datum (hpred i (by omega)) hi hk (hfar _ _ fun e => by rw [e] at hk; omega)
  · have hf : ∀ a : Fin i.val, 1 / 10 ^ 10 < ok3Distance args (x (before i a), y (before i a), z (before i a)) (x i, y i, z i) := fun a => hfar _ _ fun e => by
      have := congrArg Fin.val e
      have := a.isLt
      simp [before] at *
      omega
    have hcm : (fun a : Fin i.val => ok3Distance args (x i, y i, z i) (x (before i a), y (before i a), z (before i a))) = fun a => ok3Distance args (x (before i a), y (before i a), z (before i a)) (x i, y i, z i) := by
      funext a
      exact distance3_comm _ _ _
    obtain ⟨w, ν, μ, e, h1, h2⟩ := hpred i (by omega)
    rw [h1, h2]
    obtain ⟨-, -, hu⟩ := C47_unique_3d (ht i hi) hknn (fun k e => by simp [hn] at e) (hn i) (by rw [hargs]; exact hp) (htγ i hi) (exact := exact) (by rw [hargs]; exact hex) (hr i hi) (hq i hi) (hm i hi)
    rw [hd, hcm, semivarTo_apart hf] at hu
    obtain ⟨u1, u2⟩ := hu w μ (okEqs_iff.1 e)
    exact ⟨u1, by rw [u2, okVariance_eq]⟩

/-- `UniversalKriging`: `t i` is made from the data before datum `i`, with the same variogram, and asked at datum `i`.  The statistics ignore the drift terms: they belong to kriging without drift. -/
theorem C65_statistics_uk {n : ℕ} {env : Env} {x y z : Fin n → ℝ} {args : UKArgs} {s : UK n}
    (h : UK.create env x y z args = .ok s) (hp : args.pseudoInv = false) {γ : ℝ → ℝ} (hγ : s.variogramFunction s.params = .ok γ)
    (hfar : ∀ i j, i ≠ j → 1 / 10 ^ 10 < ukDistance args (x i, y i) (x j, y j))
    (pa : ParamArg) {args' : UKArgs} (hargs : args' = { args with params := pa, driftTerms := [] })
    {t : (i : Fin n) → 2 ≤ i.val → UK i.val} (ht : ∀ i hi, UK.create env (fun a => x (before i a)) (fun a => y (before i a)) (fun a => z (before i a)) args' = .ok (t i hi))
    (htγ : ∀ i hi, (t i hi).variogramFunction (t i hi).params = .ok γ)
    {ea : Fin n → UKExecArgs} {r : Fin n → ExecResult} (hr : ∀ i hi, (t i hi).execute (ea i) = .ok (r i))
    {j : Fin n → ℕ} (hq : ∀ i, 2 ≤ i.val → queryAt (ea i).toExec (j i) = some (x i, y i)) (hm : ∀ i, 2 ≤ i.val → maskedAt (ea i).toExec (j i) = false) :
    ∃ st est var, s.stats = some st ∧ ResidualsOf z est var st ∧
      (∀ i k, i.val = 1 → k.val = 0 → est i = z k ∧ var i = 2 * γ (ukDistance args (x k, y k) (x i, y i))) ∧
      ∀ i, 2 ≤ i.val → (r i).z[j i]? = some (some (est i)) ∧ (r i).ss[j i]? = some (some (var i)) := by
  obtain ⟨st, hst, est, var, hpred, hres⟩ := C20_object_uk h hγ (.inl hp)
  obtain ⟨exact, hex⟩ : ∃ b, args.exactValues = .bool b := by
    obtain ⟨-, he, -⟩ := UK.create_fields h
    exact ⟨_, he⟩
  have hd : ukDistance args' = ukDistance args := by rw [hargs]; rfl
  refine ⟨st, est, var, hst, hres, fun i k hi hk => ?_, fun i hi => ?_⟩
  · exact one_datum (hpred i (by omega)) hi hk (hfar _ _ fun e => by rw [e] at hk; omega)
  · have hf : ∀ a : Fin i.val, 1 / 10 ^ 10 < ukDistance args (x (before i a), y (before i a)) (x i, y i) := fun a => hfar _ _ fun e => by
      have := congrArg Fin.val e
      have := a.isLt
      simp [before] at *
      omega
    have hcm : (fun a : Fin i.val => ukDistance args (x i, y i) (x (before i a), y (before i a))) = fun a => ukDistance args (x (before i a), y (before i a)) (x i, y i) := by
      funext a
      exact anisoDist2_comm _ _ _ _
    obtain ⟨w, ν, μ, e, h1, h2⟩ := hpred i (by omega)
    rw [h1, h2]
    obtain ⟨L, F, f, hF, hfl, -, -, hu⟩ := C47_unique_uk (ht i hi) (by rw [hargs]; exact hp) (fun hc => absurd hc (by simp [hargs])) (htγ i hi) (exact := exact) (by rw [hargs]; exact hex) (hr i hi) (hq i hi) (hm i hi)
    have hL : L = 0 := by
      have := congrArg List.length hfl
      simpa [driftTerms2, hargs] using this
    subst hL
    rw [hd, hcm, semivarTo_apart hf] at hu
    have hF0 : F = noDrift := funext fun l => l.elim0
    have hf0 : f = 0 := funext fun l => l.elim0
    subst hF0 hf0
    exact hu w ν μ e

/-- `UniversalKriging3D`: `t i` is made from the data before datum `i`, with the same variogram, and asked at datum `i`.  The statistics ignore the drift terms: they belong to kriging without drift. -/
theorem C65_statistics_uk3d {n : ℕ} {env : Env} {x y z v : Fin n → ℝ} {args : UK3DArgs} {s : UK3D n}
    (h : UK3D.create env x y z v args = .ok s) (hp : args.pseudoInv = false) {γ : ℝ → ℝ} (hγ : s.variogramFunction s.params = .ok γ)
    (hfar : ∀ i j, i ≠ j → 1 / 10 ^ 10 < uk3Distance args (x i, y i, z i) (x j, y j, z j))
    (pa : ParamArg) {args' : UK3DArgs} (hargs : args' = { args with params := pa, driftTerms := [] })
    {t : (i : Fin n) → 2 ≤ i.val → UK3D i.val} (ht : ∀ i hi, UK3D.create env (fun a => x (before i a)) (fun a => y (before i a)) (fun a => z (before i a)) (fun a => v (before i a)) args' = .ok (t i hi))
    (htγ : ∀ i hi, (t i hi).variogramFunction (t i hi).params = .ok γ)
    {ea : Fin n → UK3DExecArgs} {r : Fin n → ExecResult} (hr : ∀ i hi, (t i hi).execute (ea i) = .ok (r i))
    {j : Fin n → ℕ} (hq : ∀ i, 2 ≤ i.val → queryAt3 (ea i).toExec (j i) = some (x i, y i, z i)) (hm : ∀ i, 2 ≤ i.val → maskedAt3 (ea i).toExec (j i) = false) :
    ∃ st est var, s.stats = some st ∧ ResidualsOf v est var st ∧
      (∀ i k, i.val = 1 → k.val = 0 → est i = v k ∧ var i = 2 * γ (uk3Distance args (x k, y k, z k) (x i, y i, z i))) ∧
      ∀ i, 2 ≤ i.val → (r i).z[j i]? = some (some (est i)) ∧ (r i).ss[j i]? = some (some (var i)) := by
  obtain ⟨st, hst, est, var, hpred, hres⟩ := C20_object_uk3 h hγ (.inl hp)
  obtain ⟨exact, hex⟩ : ∃ b, args.exactValues = .bool b := by
    obtain ⟨-, he, -⟩ := UK3D.create_fields h
    exact ⟨_, he⟩
  have hd : uk3Distance args' = uk3Distance args := by rw [hargs]; rfl
  refine ⟨st, est, var, hst, hres, fun i k hi hk => ?_, fun i hi => ?_⟩
  · exact one_datum (hpred i (by omega)) hi hk (hfar _ _ fun e => by rw [e] at hk; omega)
  · have hf : ∀ a : Fin i.val, 1 / 10 ^ 10 < uk3Distance args (x (before i a), y (before i a), z (before i a)) (x i, y i, z i) := fun a => hfar _ _ fun e => by
      have := congrArg Fin.val e
      have := a.isLt
      simp [before] at *
      omega
    have hcm : (fun a : Fin i.val => uk3Distance args (x i, y i, z i) (x (before i a), y (before i a), z (before i a))) = fun a => uk3Distance args (x (before i a), y (before i a), z (before i a)) (x i, y i, z i) := by
      funext a
      exact distance3_comm _ _ _
    obtain ⟨w, ν, μ, e, h1, h2⟩ := hpred i (by omega)
    rw [h1, h2]
    obtain ⟨L, F, f, hF, hfl, -, -, hu⟩ := C47_unique_uk3d (ht i hi) (by rw [hargs]; exact hp) (fun hc => absurd hc (by simp [hargs])) (htγ i hi) (exact := exact) (by rw [hargs]; exact hex) (hr i hi) (hq i hi) (hm i hi)
    have hL : L = 0 := by
      have := congrArg List.length hfl
      simpa [driftTerms3, hargs] using this
    subst hL
    rw [hd, hcm, semivarTo_apart hf] at hu
    have hF0 : F = noDrift := funext fun l => l.elim0
    have hf0 : f = 0 := funext fun l => l.elim0
    subst hF0 hf0
    exact hu w ν μ e

end
end PyKrige
