import Verif.Lemmas.Blue
import Verif.Lemmas.Krige
import Verif.Lemmas.Balls
import Verif.Lemmas.ArgDist
import Verif.Spec.Best
import Verif.Spec.Admit

/-! Best linear unbiased prediction and non-negative variances, for the weights behind one result. -/

set_option linter.unusedSectionVars false

namespace PyKrige
noncomputable section
open Matrix Spec

theorem semivar_comp {ι κ : Type} (γ : ℝ → ℝ) (D : κ → κ → ℝ) {sel : ι → κ} (h : Function.Injective sel) :
    semivar γ (fun i j => D (sel i) (sel j)) = fun i j => semivar γ D (sel i) (sel j) := by
  funext i j
  unfold semivar
  by_cases hij : i = j
  · subst hij; simp
  · rw [if_neg hij, if_neg (h.ne hij)]

theorem semivarTo_comp {ι κ : Type} (exact : Bool) (γ : ℝ → ℝ) (d : κ → ℝ) (sel : ι → κ) :
    semivarTo exact γ (fun i => d (sel i)) = fun i => semivarTo exact γ d (sel i) := rfl

theorem Spec.CondNeg.sub {n m : ℕ} {γ : ℝ → ℝ} {D : Fin n → Fin n → ℝ} (h : CondNeg (semivar γ D))
    {sel : Fin m → Fin n} (hs : Function.Injective sel) : CondNeg (semivar γ fun i j => D (sel i) (sel j)) := by
  rw [semivar_comp γ D hs]; exact h.comap sel

theorem Spec.StrictCondNeg.sub {n m : ℕ} {γ : ℝ → ℝ} {D : Fin n → Fin n → ℝ} (h : StrictCondNeg (semivar γ D))
    {sel : Fin m → Fin n} (hs : Function.Injective sel) :
    StrictCondNeg (semivar γ fun i j => D (sel i) (sel j)) := by
  rw [semivar_comp γ D hs]; exact h.comap hs

theorem Spec.CondNeg.withPoint_sub {n m : ℕ} {G : Fin n → Fin n → ℝ} {g : Fin n → ℝ} (h : CondNeg (withPoint G g))
    (sel : Fin m → Fin n) : CondNeg (withPoint (fun i j => G (sel i) (sel j)) fun i => g (sel i)) := by
  have := h.comap (Option.map sel)
  refine (congrArg CondNeg ?_).mp this
  funext a b
  cases a <;> cases b <;> rfl

theorem scatter_support {m n : ℕ} (sel : Fin m → Fin n) (w : Fin m → ℝ) {i : Fin n} (h : i ∉ Set.range sel) :
    scatter sel w i = 0 := by
  unfold scatter
  refine Finset.sum_eq_zero fun j _ => if_neg fun e => h ⟨j, e⟩

theorem eq_scatter {m n : ℕ} {sel : Fin m → Fin n} (hs : Function.Injective sel) {u : Fin n → ℝ}
    (hu : ∀ i, i ∉ Set.range sel → u i = 0) : u = scatter sel fun j => u (sel j) := by
  funext i
  by_cases h : i ∈ Set.range sel
  · obtain ⟨j, rfl⟩ := h
    rw [scatter_sel hs]
  · rw [hu i h, scatter_support sel _ h]

theorem errorVariance_scatter {m n : ℕ} (G : Fin n → Fin n → ℝ) (g : Fin n → ℝ) (sel : Fin m → Fin n) (w : Fin m → ℝ) :
    errorVariance G g (scatter sel w) = errorVariance (fun i j => G (sel i) (sel j)) (fun i => g (sel i)) w := by
  unfold errorVariance
  rw [sum_scatter_mul]
  congr 1
  have e : ∀ i, ∑ j, scatter sel w i * scatter sel w j * G i j = scatter sel w i * ∑ j, w j * G i (sel j) := fun i => by
    rw [← sum_scatter_mul sel w fun j => G i j, Finset.mul_sum]
    exact Finset.sum_congr rfl fun j _ => by ring
  simp only [e]
  rw [sum_scatter_mul]
  refine Finset.sum_congr rfl fun i _ => ?_
  rw [Finset.mul_sum]
  exact Finset.sum_congr rfl fun j _ => by ring

theorem getD_ofFn {L : ℕ} (f : Fin L → ℝ) (l : ℕ) : (List.ofFn f).getD l 0 = if h : l < L then f ⟨l, h⟩ else 0 := by
  rw [List.getD_eq_getElem?_getD]
  by_cases h : l < L
  · rw [List.getElem?_eq_getElem (by simpa using h), dif_pos h]; simp
  · rw [List.getElem?_eq_none (by simpa using h), dif_neg h]; rfl

/-- The weights of one result are the best ones. -/
theorem KrigedBy.blue {n L m : ℕ} {sel : Fin m → Fin n} {pseudo exact : Bool} {γ : ℝ → ℝ}
    {D : Fin n → Fin n → ℝ} {F : Fin L → Fin n → ℝ} {d : Fin n → ℝ} {f : Fin L → ℝ} {row : WRow n}
    (h : KrigedBy sel pseudo exact γ D F d f row) (hG : CondNeg (semivar γ D))
    (hp : pseudo = false ∨ CondNeg (withPoint (semivar γ D) (semivarTo exact γ d)) ∧
      ∃ u, Unbiased (Set.range sel) (fun i => List.ofFn fun l => F l i) (List.ofFn f) u) (z : Fin n → ℝ) :
    IsBlue (Set.range sel) (semivar γ D) (semivarTo exact γ d) (fun i => List.ofFn fun l => F l i) (List.ofFn f) z
      (estimate row.w z) row.var := by
  have back : ∀ u, Unbiased (Set.range sel) (fun i => List.ofFn fun l => F l i) (List.ofFn f) u →
      u = scatter sel (fun j => u (sel j)) ∧ ∑ j, u (sel j) = 1 ∧ ∀ l, ∑ j, F l (sel j) * u (sel j) = f l := by
    intro u hu
    have e := eq_scatter h.inj hu.support
    refine ⟨e, ?_, fun l => ?_⟩
    · rw [← sum_scatter sel, ← e]; exact hu.sum_one
    · have := hu.drift l
      simp only [getD_ofFn, l.2, dif_pos] at this
      have h3 := sum_scatter_mul sel (fun j => u (sel j)) fun i => F l i
      rw [← e] at h3
      rw [← this]
      refine Eq.trans ?_ h3.symm
      exact Finset.sum_congr rfl fun j _ => mul_comm _ _
  obtain ⟨w, ν, μ, e⟩ := h.krigedEqs (hp.imp_right fun ⟨h1, u, h2⟩ => by
    right
    have := h1.withPoint_sub sel
    rw [← semivar_comp γ D h.inj] at this
    obtain ⟨-, e1, e2⟩ := back u h2
    exact consistent this e1 e2)
  have hv : row.var = errorVariance (semivar γ D) (semivarTo exact γ d) row.w := by
    rw [e.var_eq, e.eqs.variance_eq, e.w_eq, errorVariance_scatter, semivar_comp γ D h.inj]
    rfl
  refine ⟨⟨row.w, ⟨fun i hi => ?_, e.sum_one, fun l => ?_⟩, rfl, hv⟩, fun u hu => ?_⟩
  · rw [e.w_eq]; exact scatter_support sel w hi
  · simp only [getD_ofFn]
    split
    · next hl => exact e.drift ⟨l, hl⟩
    · simp
  · obtain ⟨e0, e1, e2⟩ := back u hu
    rw [e.var_eq, e.eqs.variance_eq, e0, errorVariance_scatter]
    have := e.eqs.best (hG.sub h.inj) e1 e2
    rw [semivar_comp γ D h.inj] at this ⊢
    exact this

/-- Its variance is not negative. -/
theorem KrigedBy.var_nonneg {n L m : ℕ} {sel : Fin m → Fin n} {pseudo exact : Bool} {γ : ℝ → ℝ}
    {D : Fin n → Fin n → ℝ} {F : Fin L → Fin n → ℝ} {d : Fin n → ℝ} {f : Fin L → ℝ} {row : WRow n}
    (h : KrigedBy sel pseudo exact γ D F d f row)
    (hG : CondNeg (withPoint (semivar γ D) (semivarTo exact γ d)))
    (hp : pseudo = false ∨
      ∃ u, Unbiased (Set.range sel) (fun i => List.ofFn fun l => F l i) (List.ofFn f) u) : 0 ≤ row.var := by
  obtain ⟨w, hw, -, e⟩ := (h.blue hG.of_withPoint (hp.imp_right fun h => ⟨hG, h⟩) 0).exists_weights
  rw [e]
  exact errorVariance_nonneg hG hw.sum_one

theorem unbiased_single {n : ℕ} {S : Set (Fin n)} {i : Fin n} (hi : i ∈ S) :
    Unbiased S (fun _ => []) [] (Pi.single i 1) :=
  ⟨fun j hj => by rw [Pi.single_apply, if_neg]; rintro rfl; exact hj hi, by simp, by simp⟩

/-! ### Valid variograms of Euclidean distances -/

/-- Placing locations in Euclidean space. -/
theorem anisoDist2_embed (sc an : ℝ) : ∃ e : ℝ × ℝ → E3, ∀ p q, anisoDist2 sc an p q = ‖e p - e q‖ := by
  refine ⟨fun p => WithLp.toLp 2 (0, !₂[Real.cos (rad an) * p.1 + Real.sin (rad an) * p.2,
    sc * (-Real.sin (rad an) * p.1 + Real.cos (rad an) * p.2)]), fun p q => ?_⟩
  rw [WithLp.prod_norm_eq_of_L2, EuclideanSpace.norm_eq]
  unfold anisoDist2
  simp only [WithLp.sub_fst, WithLp.sub_snd, PiLp.sub_apply, Fin.sum_univ_two, Real.norm_eq_abs, sq_abs]
  rw [Real.sq_sqrt (by positivity)]
  congr 1
  simp
  ring

theorem distance3_embed (an : Aniso3) : ∃ e : ℝ × ℝ × ℝ → E3, ∀ p q, distance3 an p q = ‖e p - e q‖ := by
  refine ⟨fun p => let d := rotZ an.angleZ (rotY an.angleY (rotX an.angleX p));
    WithLp.toLp 2 (d.1, !₂[an.scalingY * d.2.1, an.scalingZ * d.2.2]), fun p q => ?_⟩
  rw [WithLp.prod_norm_eq_of_L2, EuclideanSpace.norm_eq]
  unfold distance3
  simp only [WithLp.sub_fst, WithLp.sub_snd, PiLp.sub_apply, Fin.sum_univ_two, Real.norm_eq_abs, sq_abs]
  rw [Real.sq_sqrt (by positivity)]
  congr 1
  simp [rotX, rotY, rotZ]
  ring

/-- A valid variogram is valid on the data and one more point. -/
theorem Valid3.withPoint {γ : ℝ → ℝ} (h : Valid3 γ) {n : ℕ} (x : Fin n → E3) (q : E3) {exact : Bool}
    (hc : Clear exact γ fun i => ‖q - x i‖) :
    CondNeg (withPoint (semivar γ fun i j => ‖x i - x j‖) (semivarTo exact γ fun i => ‖q - x i‖)) := by
  classical
  by_cases hs : exact = true ∧ ∃ i, ‖q - x i‖ ≤ 1 / 10 ^ 10 ∧ ∀ k, k ≠ i → 1 / 10 ^ 10 < ‖q - x k‖
  · obtain ⟨rfl, i, hi, hk⟩ := hs
    have hq : q = x i := sub_eq_zero.1 (norm_eq_zero.1 (hc rfl i hi).1)
    have := (h _ x).comap (fun o : Option (Fin n) => o.getD i)
    refine (congrArg CondNeg ?_).mp this
    have key : ∀ k, semivarTo true γ (fun i => ‖q - x i‖) k = semivar γ (fun i j => ‖x i - x j‖) i k := fun k => by
      unfold semivarTo semivar
      by_cases hki : k = i
      · subst hki; rw [if_pos ⟨rfl, hi⟩, if_pos rfl]
      · rw [if_neg (by simpa using hk k hki), if_neg (Ne.symm hki), hq]
    funext a b
    cases a <;> cases b
    · simp [Spec.withPoint, semivar]
    · simp [Spec.withPoint, key]
    · simp only [Spec.withPoint, key, Option.getD]
      exact semivar_symm (fun i j => norm_sub_rev _ _) _ _
    · rfl
  · have key : ∀ k, semivarTo exact γ (fun i => ‖q - x i‖) k = γ ‖q - x k‖ := fun k => by
      unfold semivarTo
      split
      · next hk =>
        obtain ⟨h1, h2⟩ := hc hk.1 k hk.2
        rcases h2 with h2 | h2
        · have h1' : ‖q - x k‖ = 0 := h1
          rw [h1', h2]
        · exact absurd ⟨hk.1, k, hk.2, h2⟩ hs
      · rfl
    have := h (Option (Fin n)) fun o => o.elim q x
    refine (congrArg CondNeg ?_).mp this
    funext a b
    cases a <;> cases b
    · simp [Spec.withPoint, semivar]
    · simp [Spec.withPoint, key, semivar]
    · simp [Spec.withPoint, key, semivar, norm_sub_rev]
    · simp [Spec.withPoint, semivar]

end
end PyKrige
