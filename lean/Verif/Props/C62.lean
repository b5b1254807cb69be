import Verif.Props.C47Unique
import Verif.Props.C61

/-!
# C62: all estimates are values of one function

Kriging in dual form: there are numbers `d i` (one for each datum) and coefficients of the constant and of the drift terms,
the same for all queries, such that every estimate is the combination of the semivariances to the data with the `d i` plus the
trend with these coefficients.  The `d i` sum to zero and are orthogonal to the drift terms, and the same combination
reproduces the data.
-/

set_option linter.unusedSectionVars false

namespace PyKrige
noncomputable section
open Matrix Spec

/-- The linear combination of a list of values with coefficients `b 0, b 1, ...`. -/
def Spec.combine (b : ℕ → ℝ) (t : List ℝ) : ℝ := ∑ l : Fin t.length, b l * t.get l

theorem combine_ofFn {L : ℕ} (b : ℕ → ℝ) (f : Fin L → ℝ) : combine b (List.ofFn f) = ∑ l : Fin L, b l * f l := by
  unfold Spec.combine
  refine Fintype.sum_equiv (finCongr (List.length_ofFn)) _ _ fun l => ?_
  simp
  left; rfl

theorem Spec.Regular.dual {n L : ℕ} {G : Fin n → Fin n → ℝ} {F : Fin L → Fin n → ℝ} (hr : Regular G F)
    (hsym : ∀ i j, G i j = G j i) (z : Fin n → ℝ) : ∃ (d : Fin n → ℝ) (b : Fin L → ℝ) (b₀ : ℝ),
      ∑ i, d i = 0 ∧ (∀ l, ∑ i, d i * F l i = 0) ∧ (∀ i, z i = b₀ + ∑ l, b l * F l i + ∑ k, d k * G i k) ∧
      ∀ g f w ν μ, KrigingEqs G F g f 1 w ν μ → estimate w z = b₀ + ∑ l, b l * f l + ∑ i, d i * g i := by
  have e := inv_solves ((regular_iff_det G F).1 hr) z 0 0
  obtain ⟨d, β, β₀, e⟩ : ∃ d β β₀, KrigingEqs G F z 0 0 d β β₀ := ⟨_, _, _, e⟩
  have hz : ∀ i, z i = -β₀ + ∑ l, -β l * F l i + ∑ k, d k * G i k := fun i => by
    rw [← e.stationary i]
    have : ∑ l, -β l * F l i = -∑ l, F l i * β l := by
      rw [← Finset.sum_neg_distrib]; exact Finset.sum_congr rfl fun l _ => by ring
    rw [this]
    have : ∑ k, d k * G i k = ∑ k, G i k * d k := Finset.sum_congr rfl fun l _ => by ring
    rw [this]; ring
  have hd : ∀ l, ∑ i, d i * F l i = 0 := fun l => by
    rw [← show (0 : Fin L → ℝ) l = 0 from rfl, ← e.drift l]; exact Finset.sum_congr rfl fun i _ => by ring
  refine ⟨d, fun l => -β l, -β₀, e.unbiased, hd, hz, fun g f w ν μ h => ?_⟩
  unfold estimate
  have h1 : ∀ i, w i * z i = -β₀ * w i + ∑ l, -β l * (F l i * w i) + ∑ k, d k * (G k i * w i) := fun i => by
    rw [hz i, mul_add, mul_add, Finset.mul_sum, Finset.mul_sum]
    congr 1
    · congr 1
      · ring
      · exact Finset.sum_congr rfl fun l _ => by ring
    · exact Finset.sum_congr rfl fun k _ => by rw [hsym k i]; ring
  rw [Finset.sum_congr rfl fun i _ => h1 i, Finset.sum_add_distrib, Finset.sum_add_distrib, ← Finset.mul_sum, h.unbiased,
    Finset.sum_comm, Finset.sum_comm (f := fun i k => d k * (G k i * w i))]
  have h2 : ∑ l, ∑ i, -β l * (F l i * w i) = ∑ l, -β l * f l :=
    Finset.sum_congr rfl fun l _ => by rw [← Finset.mul_sum, h.drift l]
  have h3 : ∑ k, ∑ i, d k * (G k i * w i) = ∑ k, d k * g k := by
    have : ∀ k, ∑ i, d k * (G k i * w i) = d k * g k + (∑ l, ν l * (d k * F l k) + μ * d k) := fun k => by
      rw [← Finset.mul_sum, show ∑ i, G k i * w i = g k + ∑ l, F l k * ν l + μ by linarith [h.stationary k], mul_add, mul_add,
        Finset.mul_sum, add_assoc]
      congr 1
      congr 1
      · exact Finset.sum_congr rfl fun l _ => by ring
      · ring
    rw [Finset.sum_congr rfl fun k _ => this k, Finset.sum_add_distrib, Finset.sum_add_distrib, ← Finset.mul_sum, e.unbiased,
      Finset.sum_comm]
    have : ∑ l, ∑ k, ν l * (d k * F l k) = 0 :=
      Finset.sum_eq_zero fun l _ => by rw [← Finset.mul_sum, hd l, mul_zero]
    rw [this]; ring
  rw [h2, h3]
  ring

theorem semivar_symm_of {α : Type} {n : ℕ} {γ : ℝ → ℝ} {dist : α → α → ℝ} (hsym : ∀ a b, dist a b = dist b a) (P : Fin n → α) (i j : Fin n) :
    semivar γ (fun i k => dist (P i) (P k)) i j = semivar γ (fun i k => dist (P i) (P k)) j i := by
  unfold semivar
  by_cases hik : i = j
  · rw [if_pos hik, if_pos hik.symm]
  · rw [if_neg hik, if_neg (Ne.symm hik)]
    exact congrArg γ (hsym _ _)

/-- `OrdinaryKriging`, no moving window, no pseudo inverse. -/
theorem C62_dual_2d {n : ℕ} {env : Env} {x y z : Fin n → ℝ} {args : OKArgs} {s : OK n}
    (h : OK.create env x y z args = .ok s) (hp : args.pseudoInv = false)
    {γ : ℝ → ℝ} (hγ : s.variogramFunction s.params = .ok γ) {exact : Bool} (hex : args.exactValues = .bool exact) :
    ∃ (d : Fin n → ℝ) (b₀ : ℝ), ∀ (ea : ExecArgs) (r : ExecResult) (j : ℕ) (p : ℝ × ℝ), Admissible env args s ea.nClosest →
      ea.nClosest = none → s.execute env ea = .ok r → queryAt ea j = some p → maskedAt ea j = false →
      ∑ i, d i = 0 ∧
      (∀ i, z i = b₀ + ∑ k, d k * (semivar γ fun i k => okDistance args (x i, y i) (x k, y k)) i k) ∧
      r.z[j]? = some (some (b₀ + ∑ i, d i * (semivarTo exact γ fun i => okDistance args p (x i, y i)) i)) := by
  by_cases hr : OKRegular (semivar γ fun i k => okDistance args (x i, y i) (x k, y k))
  · obtain ⟨d, b, b₀, h1, -, h3, h4⟩ := hr.dual (semivar_symm_of (okDistance_comm args) fun i => (x i, y i)) z
    refine ⟨d, b₀, fun ea r j p ha hn hr hq hm => ⟨h1, fun i => by simpa using h3 i, ?_⟩⟩
    obtain ⟨-, ⟨w, μ, e⟩, hu⟩ := C47_unique_2d h ha hn hp hγ hex hr hq hm
    rw [(hu w μ e).1, h4 _ _ _ _ _ e]
    simp
  · exact ⟨0, 0, fun ea r j p ha hn hr' hq hm => absurd (C47_unique_2d h ha hn hp hγ hex hr' hq hm).1 hr⟩

/-- `OrdinaryKriging3D`, no moving window, no pseudo inverse. -/
theorem C62_dual_3d {n : ℕ} {env : Env} {x y z v : Fin n → ℝ} {args : OK3DArgs} {s : OK3D n}
    (h : OK3D.create env x y z v args = .ok s) (hp : args.pseudoInv = false)
    {γ : ℝ → ℝ} (hγ : s.variogramFunction s.params = .ok γ) {exact : Bool} (hex : args.exactValues = .bool exact) :
    ∃ (d : Fin n → ℝ) (b₀ : ℝ), ∀ (ea : ExecArgs3) (r : ExecResult) (j : ℕ) (p : ℝ × ℝ × ℝ), KnnSpec env →
      ea.nClosest = none → s.execute env ea = .ok r → queryAt3 ea j = some p → maskedAt3 ea j = false →
      ∑ i, d i = 0 ∧
      (∀ i, v i = b₀ + ∑ k, d k * (semivar γ fun i k => ok3Distance args (x i, y i, z i) (x k, y k, z k)) i k) ∧
      r.z[j]? = some (some (b₀ + ∑ i, d i * (semivarTo exact γ fun i => ok3Distance args p (x i, y i, z i)) i)) := by
  by_cases hr : OKRegular (semivar γ fun i k => ok3Distance args (x i, y i, z i) (x k, y k, z k))
  · obtain ⟨d, b, b₀, h1, -, h3, h4⟩ := hr.dual (semivar_symm_of ((fun a b => distance3_comm _ a b)) fun i => (x i, y i, z i)) v
    refine ⟨d, b₀, fun ea r j p ha hn hr hq hm => ⟨h1, fun i => by simpa using h3 i, ?_⟩⟩
    obtain ⟨-, ⟨w, μ, e⟩, hu⟩ := C47_unique_3d h ha (fun k e => by simp [hn] at e) hn hp hγ hex hr hq hm
    rw [(hu w μ e).1, h4 _ _ _ _ _ e]
    simp
  · exact ⟨0, 0, fun ea r j p ha hn hr' hq hm => absurd (C47_unique_3d h ha (fun k e => by simp [hn] at e) hn hp hγ hex hr' hq hm).1 hr⟩

/-- `UniversalKriging` (specified drift: backend 'vectorized', see C24), no pseudo inverse. -/
theorem C62_dual_uk {n : ℕ} {env : Env} {x y z : Fin n → ℝ} {args : UKArgs} {s : UK n}
    (h : UK.create env x y z args = .ok s) (hp : args.pseudoInv = false)
    {γ : ℝ → ℝ} (hγ : s.variogramFunction s.params = .ok γ) {exact : Bool} (hex : args.exactValues = .bool exact) :
    ∃ (d : Fin n → ℝ) (b₀ : ℝ) (b : ℕ → ℝ), ∀ (ea : UKExecArgs) (r : ExecResult) (j : ℕ) (p : ℝ × ℝ),
      ("specified" ∈ args.driftTerms → ea.toExec.backend = "vectorized") →
      s.execute ea = .ok r → queryAt ea.toExec j = some p → maskedAt ea.toExec j = false →
      ∑ i, d i = 0 ∧
      (∀ a : ℕ → ℝ, ∑ i : Fin n, d i * combine a (driftTerms2 args s.adjustPoint (specAtDatum args.specifiedDrift i) (x i, y i)) = 0) ∧
      (∀ i : Fin n, z i = b₀ + combine b (driftTerms2 args s.adjustPoint (specAtDatum args.specifiedDrift i) (x i, y i)) +
        ∑ k, d k * (semivar γ fun i k => ukDistance args (x i, y i) (x k, y k)) i k) ∧
      r.z[j]? = some (some (b₀ + combine b (driftTerms2 args s.adjustPoint (specAtQuery ea j) p) +
        ∑ i, d i * (semivarTo exact γ fun i => ukDistance args p (x i, y i)) i)) := by
  by_cases hex' : ∃ (ea : UKExecArgs) (r : ExecResult) (j : ℕ) (p : ℝ × ℝ),
      ("specified" ∈ args.driftTerms → ea.toExec.backend = "vectorized") ∧
      s.execute ea = .ok r ∧ queryAt ea.toExec j = some p ∧ maskedAt ea.toExec j = false
  · obtain ⟨ea₀, r₀, j₀, p₀, hs₀, hr₀, hq₀, hm₀⟩ := hex'
    obtain ⟨L, F, -, hF, -, hreg, -⟩ := C47_unique_uk h hp hs₀ hγ hex hr₀ hq₀ hm₀
    obtain ⟨d, b, b₀, h1, h2, h3, h4⟩ := hreg.dual (semivar_symm_of (ukDistance_comm args) fun i => (x i, y i)) z
    have hb : ∀ f : Fin L → ℝ, combine (fun l => if hl : l < L then b ⟨l, hl⟩ else 0) (List.ofFn f) = ∑ l, b l * f l := by
      intro f
      rw [combine_ofFn]
      exact Finset.sum_congr rfl fun l _ => by rw [dif_pos l.2]
    refine ⟨d, b₀, fun l => if hl : l < L then b ⟨l, hl⟩ else 0, fun ea r j p hs hr hq hm => ⟨h1, fun a => ?_, fun i => ?_, ?_⟩⟩
    · have : ∀ i : Fin n, d i * combine a (driftTerms2 args s.adjustPoint (specAtDatum args.specifiedDrift i) (x i, y i)) = ∑ l : Fin L, a l * (d i * F l i) := fun i => by
        rw [← hF i, combine_ofFn, Finset.mul_sum]
        exact Finset.sum_congr rfl fun l _ => by ring
      rw [Finset.sum_congr rfl fun i _ => this i, Finset.sum_comm]
      exact Finset.sum_eq_zero fun l _ => by rw [← Finset.mul_sum, h2 l, mul_zero]
    · rw [← hF i, hb]; exact h3 i
    · obtain ⟨L', F', f, hF', hf, hreg', ⟨w, ν, μ, e⟩, hu⟩ := C47_unique_uk h hp hs hγ hex hr hq hm
      have hn : 0 < n := by
        rcases Nat.eq_zero_or_pos n with rfl | hn
        · have := e.unbiased
          simp at this
        · exact hn
      have hL : L' = L := by
        have := (hF' ⟨0, hn⟩).trans (hF ⟨0, hn⟩).symm
        simpa using congrArg List.length this
      subst hL
      have hFF : F' = F := by
        funext l i
        exact congrFun (List.ofFn_injective ((hF' i).trans (hF i).symm)) l
      subst hFF
      rw [(hu w ν μ e).1, h4 _ _ _ _ _ e, ← hf, hb]
  · exact ⟨0, 0, 0, fun ea r j p hs hr hq hm => absurd ⟨ea, r, j, p, hs, hr, hq, hm⟩ hex'⟩

/-- `UniversalKriging3D` (specified drift: backend 'vectorized', see C24), no pseudo inverse. -/
theorem C62_dual_uk3d {n : ℕ} {env : Env} {x y z v : Fin n → ℝ} {args : UK3DArgs} {s : UK3D n}
    (h : UK3D.create env x y z v args = .ok s) (hp : args.pseudoInv = false)
    {γ : ℝ → ℝ} (hγ : s.variogramFunction s.params = .ok γ) {exact : Bool} (hex : args.exactValues = .bool exact) :
    ∃ (d : Fin n → ℝ) (b₀ : ℝ) (b : ℕ → ℝ), ∀ (ea : UK3DExecArgs) (r : ExecResult) (j : ℕ) (p : ℝ × ℝ × ℝ),
      ("specified" ∈ args.driftTerms → ea.toExec.backend = "vectorized") →
      s.execute ea = .ok r → queryAt3 ea.toExec j = some p → maskedAt3 ea.toExec j = false →
      ∑ i, d i = 0 ∧
      (∀ a : ℕ → ℝ, ∑ i : Fin n, d i * combine a (driftTerms3 args s.adjustPoint (specAtDatum args.specifiedDrift i) (x i, y i, z i)) = 0) ∧
      (∀ i : Fin n, v i = b₀ + combine b (driftTerms3 args s.adjustPoint (specAtDatum args.specifiedDrift i) (x i, y i, z i)) +
        ∑ k, d k * (semivar γ fun i k => uk3Distance args (x i, y i, z i) (x k, y k, z k)) i k) ∧
      r.z[j]? = some (some (b₀ + combine b (driftTerms3 args s.adjustPoint (specAtQuery3 ea j) p) +
        ∑ i, d i * (semivarTo exact γ fun i => uk3Distance args p (x i, y i, z i)) i)) := by
  by_cases hex' : ∃ (ea : UK3DExecArgs) (r : ExecResult) (j : ℕ) (p : ℝ × ℝ × ℝ),
      ("specified" ∈ args.driftTerms → ea.toExec.backend = "vectorized") ∧
      s.execute ea = .ok r ∧ queryAt3 ea.toExec j = some p ∧ maskedAt3 ea.toExec j = false
  · obtain ⟨ea₀, r₀, j₀, p₀, hs₀, hr₀, hq₀, hm₀⟩ := hex'
    obtain ⟨L, F, -, hF, -, hreg, -⟩ := C47_unique_uk3d h hp hs₀ hγ hex hr₀ hq₀ hm₀
    obtain ⟨d, b, b₀, h1, h2, h3, h4⟩ := hreg.dual (semivar_symm_of (fun a b => distance3_comm _ a b) fun i => (x i, y i, z i)) v
    have hb : ∀ f : Fin L → ℝ, combine (fun l => if hl : l < L then b ⟨l, hl⟩ else 0) (List.ofFn f) = ∑ l, b l * f l := by
      intro f
      rw [combine_ofFn]
      exact Finset.sum_congr rfl fun l _ => by rw [dif_pos l.2]
    refine ⟨d, b₀, fun l => if hl : l < L then b ⟨l, hl⟩ else 0, fun ea r j p hs hr hq hm => ⟨h1, fun a => ?_, fun i => ?_, ?_⟩⟩
    · have : ∀ i : Fin n, d i * combine a (driftTerms3 args s.adjustPoint (specAtDatum args.specifiedDrift i) (x i, y i, z i)) = ∑ l : Fin L, a l * (d i * F l i) := fun i => by
        rw [← hF i, combine_ofFn, Finset.mul_sum]
        exact Finset.sum_congr rfl fun l _ => by ring
      rw [Finset.sum_congr rfl fun i _ => this i, Finset.sum_comm]
      exact Finset.sum_eq_zero fun l _ => by rw [← Finset.mul_sum, h2 l, mul_zero]
    · rw [← hF i, hb]; exact h3 i
    · obtain ⟨L', F', f, hF', hf, hreg', ⟨w, ν, μ, e⟩, hu⟩ := C47_unique_uk3d h hp hs hγ hex hr hq hm
      have hn : 0 < n := by
        rcases Nat.eq_zero_or_pos n with rfl | hn
        · have := e.unbiased
          simp at this
        · exact hn
      have hL : L' = L := by
        have := (hF' ⟨0, hn⟩).trans (hF ⟨0, hn⟩).symm
        simpa using congrArg List.length this
      subst hL
      have hFF : F' = F := by
        funext l i
        exact congrFun (List.ofFn_injective ((hF' i).trans (hF i).symm)) l
      subst hFF
      rw [(hu w ν μ e).1, h4 _ _ _ _ _ e, ← hf, hb]
  · exact ⟨0, 0, 0, fun ea r j p hs hr hq hm => absurd ⟨ea, r, j, p, hs, hr, hq, hm⟩ hex'⟩

end
end PyKrige
