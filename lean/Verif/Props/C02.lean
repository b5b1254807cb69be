import Verif.Model.VariogramModels
import Mathlib.Analysis.Complex.ExponentialBounds
import Mathlib.Topology.Algebra.Order.Field
import Mathlib.Analysis.SpecialFunctions.Pow.Asymptotics
import Mathlib.Tactic.Linarith
import Mathlib.Tactic.FieldSimp

/-!
# C02  Built-in variograms start at the nugget, grow with distance and stop at the sill
-/

namespace PyKrige
noncomputable section
open Filter Topology

/-- `γ` is the function of distance that the built-in model `name` denotes when its internal
parameter list is `ps` (linear: `[slope, nugget]`, power: `[scale, exponent, nugget]`, others:
`[psill, range, nugget]`; core.py:196-376 produces these lists, see C01). -/
def Spec.Builtin (name : String) (ps : List ℝ) (γ : ℝ → ℝ) : Prop :=
  ∃ f, variogramDict name = some f ∧ f ps = .ok γ

theorem builtin_linear {a c : ℝ} {γ : ℝ → ℝ} :
    Spec.Builtin "linear" [a, c] γ ↔ γ = linearFormula a c := by
  constructor
  · rintro ⟨f, hf, h⟩
    simp only [variogramDict, ↓reduceIte, Option.some.injEq] at hf
    subst hf; exact (Except.ok.inj h).symm
  · rintro rfl; exact ⟨_, rfl, rfl⟩

theorem builtin_power {a b c : ℝ} {γ : ℝ → ℝ} :
    Spec.Builtin "power" [a, b, c] γ ↔ γ = powerFormula a b c := by
  constructor
  · rintro ⟨f, hf, h⟩
    simp [variogramDict] at hf
    subst hf; exact (Except.ok.inj h).symm
  · rintro rfl; exact ⟨_, rfl, rfl⟩

theorem builtin_gaussian {a b c : ℝ} {γ : ℝ → ℝ} :
    Spec.Builtin "gaussian" [a, b, c] γ ↔ γ = gaussianFormula a b c := by
  constructor
  · rintro ⟨f, hf, h⟩
    simp [variogramDict] at hf
    subst hf; exact (Except.ok.inj h).symm
  · rintro rfl; exact ⟨_, rfl, rfl⟩

theorem builtin_spherical {a b c : ℝ} {γ : ℝ → ℝ} :
    Spec.Builtin "spherical" [a, b, c] γ ↔ γ = sphericalFormula a b c := by
  constructor
  · rintro ⟨f, hf, h⟩
    simp [variogramDict] at hf
    subst hf; exact (Except.ok.inj h).symm
  · rintro rfl; exact ⟨_, rfl, rfl⟩

theorem builtin_exponential {a b c : ℝ} {γ : ℝ → ℝ} :
    Spec.Builtin "exponential" [a, b, c] γ ↔ γ = exponentialFormula a b c := by
  constructor
  · rintro ⟨f, hf, h⟩
    simp [variogramDict] at hf
    subst hf; exact (Except.ok.inj h).symm
  · rintro rfl; exact ⟨_, rfl, rfl⟩

theorem builtin_hole {a b c : ℝ} {γ : ℝ → ℝ} :
    Spec.Builtin "hole-effect" [a, b, c] γ ↔ γ = holeEffectFormula a b c := by
  constructor
  · rintro ⟨f, hf, h⟩
    simp [variogramDict] at hf
    subst hf; exact (Except.ok.inj h).symm
  · rintro rfl; exact ⟨_, rfl, rfl⟩

/-- At distance 0 every built-in variogram is its nugget (power: exponent ≠ 0). -/
theorem C02_nugget (a b c : ℝ) (γ : ℝ → ℝ) :
    (Spec.Builtin "linear" [a, c] γ → γ 0 = c) ∧
    (b ≠ 0 → Spec.Builtin "power" [a, b, c] γ → γ 0 = c) ∧
    (0 < b → ∀ name ∈ ["gaussian", "spherical", "exponential", "hole-effect"],
      Spec.Builtin name [a, b, c] γ → γ 0 = c) := by
  refine ⟨?_, ?_, ?_⟩
  · intro h; rw [builtin_linear.1 h]; simp [linearFormula]
  · intro hb h; rw [builtin_power.1 h]; simp [powerFormula, Real.zero_rpow hb]
  · intro hb name hn h
    simp only [List.mem_cons, List.not_mem_nil, or_false] at hn
    rcases hn with rfl | rfl | rfl | rfl
    · rw [builtin_gaussian.1 h]; simp [gaussianFormula]
    · rw [builtin_spherical.1 h]; simp [sphericalFormula, hb.le]
    · rw [builtin_exponential.1 h]; simp [exponentialFormula]
    · rw [builtin_hole.1 h]; simp [holeEffectFormula]

theorem spherical_cubic_mono {b d e : ℝ} (hb : 0 < b) (h0 : 0 ≤ d) (hde : d ≤ e) (heb : e ≤ b) :
    (3 * d) / (2 * b) - (d ^ 3) / (2 * b ^ 3) ≤ (3 * e) / (2 * b) - (e ^ 3) / (2 * b ^ 3) := by
  have key : ((3 * e) / (2 * b) - (e ^ 3) / (2 * b ^ 3)) -
      ((3 * d) / (2 * b) - (d ^ 3) / (2 * b ^ 3)) =
      (e - d) * (3 * b ^ 2 - (e ^ 2 + e * d + d ^ 2)) / (2 * b ^ 3) := by
    field_simp; ring
  have : 0 ≤ (e - d) * (3 * b ^ 2 - (e ^ 2 + e * d + d ^ 2)) / (2 * b ^ 3) := by
    apply div_nonneg _ (by positivity)
    apply mul_nonneg (by linarith)
    nlinarith [mul_nonneg h0 h0, mul_nonneg h0 (h0.trans hde), mul_self_le_mul_self h0 hde,
      mul_self_le_mul_self (h0.trans hde) heb, mul_le_mul hde le_rfl h0 (h0.trans hde)]
  linarith

theorem spherical_cubic_at {b : ℝ} (hb : b ≠ 0) :
    (3 * b) / (2 * b) - (b ^ 3) / (2 * b ^ 3) = 1 := by
  field_simp; norm_num

/-- Linear, power, gaussian, exponential and spherical variograms never decrease with distance. -/
theorem C02_monotone (a b c : ℝ) (ha : 0 ≤ a) (hb : 0 < b) (γ : ℝ → ℝ)
    (h : Spec.Builtin "linear" [a, c] γ ∨
      ∃ name ∈ ["power", "gaussian", "exponential", "spherical"], Spec.Builtin name [a, b, c] γ)
    (d e : ℝ) (hd : 0 ≤ d) (hde : d ≤ e) : γ d ≤ γ e := by
  rcases h with h | ⟨name, hn, h⟩
  · rw [builtin_linear.1 h]; simp only [linearFormula]; gcongr
  simp only [List.mem_cons, List.not_mem_nil, or_false] at hn
  rcases hn with rfl | rfl | rfl | rfl
  · rw [builtin_power.1 h]; simp only [powerFormula]
    gcongr
  · rw [builtin_gaussian.1 h]; simp only [gaussianFormula]
    gcongr
  · rw [builtin_exponential.1 h]; simp only [exponentialFormula]
    gcongr
  · rw [builtin_spherical.1 h]; simp only [sphericalFormula]
    by_cases h1 : e ≤ b
    · rw [if_pos (hde.trans h1), if_pos h1]
      have := mul_le_mul_of_nonneg_left (spherical_cubic_mono hb hd hde h1) ha
      linarith
    · rw [if_neg h1]
      by_cases h2 : d ≤ b
      · rw [if_pos h2]
        have := mul_le_mul_of_nonneg_left (spherical_cubic_mono hb hd h2 le_rfl) ha
        rw [spherical_cubic_at hb.ne'] at this
        linarith
      · rw [if_neg h2]

/-- Gaussian, exponential and spherical variograms stay between nugget and sill. -/
theorem C02_bounds (a b c : ℝ) (ha : 0 ≤ a) (hb : 0 < b) (γ : ℝ → ℝ)
    (h : ∃ name ∈ ["gaussian", "exponential", "spherical"], Spec.Builtin name [a, b, c] γ)
    (d : ℝ) (hd : 0 ≤ d) : c ≤ γ d ∧ γ d ≤ a + c := by
  constructor
  · have hm := C02_monotone a b c ha hb γ (Or.inr (by
      obtain ⟨name, hn, h⟩ := h
      exact ⟨name, List.mem_cons_of_mem _ hn, h⟩)) 0 d le_rfl hd
    have h0 : γ 0 = c := by
      obtain ⟨name, hn, h⟩ := h
      refine (C02_nugget a b c γ).2.2 hb name ?_ h
      simp only [List.mem_cons, List.not_mem_nil, or_false] at hn ⊢
      tauto
    rwa [h0] at hm
  · obtain ⟨name, hn, h⟩ := h
    simp only [List.mem_cons, List.not_mem_nil, or_false] at hn
    rcases hn with rfl | rfl | rfl
    · rw [builtin_gaussian.1 h]; simp only [gaussianFormula]
      have := mul_nonneg ha (Real.exp_pos (-(d ^ 2) / (b * 4 / 7) ^ 2)).le
      linarith
    · rw [builtin_exponential.1 h]; simp only [exponentialFormula]
      have := mul_nonneg ha (Real.exp_pos (-d / (b / 3))).le
      linarith
    · rw [builtin_spherical.1 h]; simp only [sphericalFormula]
      split
      next h2 =>
        have := mul_le_mul_of_nonneg_left (spherical_cubic_mono hb hd h2 le_rfl) ha
        rw [spherical_cubic_at hb.ne'] at this
        linarith
      · exact le_rfl

/-- The sill models tend to the sill; the spherical one equals it from the range on. -/
theorem C02_sill (a b c : ℝ) (hb : 0 < b) (γ : ℝ → ℝ)
    (h : ∃ name ∈ ["gaussian", "exponential", "spherical", "hole-effect"],
      Spec.Builtin name [a, b, c] γ) :
    Tendsto γ atTop (𝓝 (a + c)) ∧
    (Spec.Builtin "spherical" [a, b, c] γ → ∀ d, b ≤ d → γ d = a + c) := by
  have hsph : Spec.Builtin "spherical" [a, b, c] γ → ∀ d, b ≤ d → γ d = a + c := by
    intro h d hd
    rw [builtin_spherical.1 h]; simp only [sphericalFormula]
    split
    next h2 =>
      have : d = b := le_antisymm h2 hd
      rw [this, spherical_cubic_at hb.ne', mul_one]
    · rfl
  refine ⟨?_, hsph⟩
  have hexp : Tendsto (fun d : ℝ => -d / (b / 3)) atTop atBot :=
    tendsto_neg_atTop_atBot.atBot_div_const (by positivity)
  obtain ⟨name, hn, h⟩ := h
  simp only [List.mem_cons, List.not_mem_nil, or_false] at hn
  rcases hn with rfl | rfl | rfl | rfl
  · rw [builtin_gaussian.1 h]; change Tendsto (fun d => gaussianFormula a b c d) _ _; simp only [gaussianFormula]
    have h1 : Tendsto (fun d : ℝ => -(d ^ 2) / (b * 4 / 7) ^ 2) atTop atBot :=
      (tendsto_neg_atTop_atBot.comp (tendsto_pow_atTop (by norm_num))).atBot_div_const
        (by positivity)
    have h2 := Real.tendsto_exp_atBot.comp h1
    have h3 := ((tendsto_const_nhds (x := (1 : ℝ))).sub h2).const_mul a |>.add_const c
    simpa using h3
  · rw [builtin_exponential.1 h]; change Tendsto (fun d => exponentialFormula a b c d) _ _; simp only [exponentialFormula]
    have h2 := Real.tendsto_exp_atBot.comp hexp
    have h3 := ((tendsto_const_nhds (x := (1 : ℝ))).sub h2).const_mul a |>.add_const c
    simpa using h3
  · refine tendsto_const_nhds.congr' ?_
    filter_upwards [eventually_ge_atTop b] with d hd
    exact (hsph h d hd).symm
  · rw [builtin_hole.1 h]; change Tendsto (fun d => holeEffectFormula a b c d) _ _
    simp only [holeEffectFormula]
    have ht : Tendsto (fun d : ℝ => d / (b / 3)) atTop atTop :=
      tendsto_id.atTop_div_const (by positivity)
    have h1 : Tendsto (fun t : ℝ => (1 - t) * Real.exp (-t)) atTop (𝓝 0) := by
      have e0 := Real.tendsto_exp_neg_atTop_nhds_zero
      have e1 := Real.tendsto_pow_mul_exp_neg_atTop_nhds_zero 1
      have := e0.sub e1
      simp only [pow_one, sub_zero] at this
      refine this.congr fun t => ?_
      ring
    have h2 := h1.comp ht
    have h3 := ((tendsto_const_nhds (x := (1 : ℝ))).sub h2).const_mul a |>.add_const c
    simp only [sub_zero, mul_one] at h3
    refine h3.congr fun d => ?_
    simp [Function.comp, neg_div]

theorem exp_neg_three_le : Real.exp (-3) ≤ 1 / 20 := by
  have h1 : Real.exp 3 = Real.exp 1 ^ 3 := by rw [← Real.exp_nat_mul]; norm_num
  have h2 : (20 : ℝ) ≤ Real.exp 3 := by
    rw [h1]
    have := Real.exp_one_gt_d9
    calc (20 : ℝ) ≤ 2.7182818283 ^ 3 := by norm_num
      _ ≤ _ := by gcongr
  rw [Real.exp_neg, one_div]
  exact inv_anti₀ (by norm_num) h2

/-- `range` is the practical range of the gaussian and exponential models: from there on at least
95% of the partial sill is reached. -/
theorem C02_practical_range (a b c : ℝ) (ha : 0 ≤ a) (hb : 0 < b) (γ : ℝ → ℝ)
    (h : ∃ name ∈ ["gaussian", "exponential"], Spec.Builtin name [a, b, c] γ)
    (d : ℝ) (hd : b ≤ d) : c + 95 / 100 * a ≤ γ d := by
  obtain ⟨name, hn, h⟩ := h
  have hm : γ b ≤ γ d := C02_monotone a b c ha hb γ (Or.inr ⟨name, by
    simp only [List.mem_cons, List.not_mem_nil, or_false] at hn ⊢; tauto, h⟩) b d hb.le hd
  refine le_trans ?_ hm
  simp only [List.mem_cons, List.not_mem_nil, or_false] at hn
  rcases hn with rfl | rfl
  · rw [builtin_gaussian.1 h]; simp only [gaussianFormula]
    have h1 : -(b ^ 2) / (b * 4 / 7) ^ 2 = -(49 / 16) := by field_simp; norm_num
    have h2 : Real.exp (-(b ^ 2) / (b * 4 / 7) ^ 2) ≤ 1 / 20 := by
      rw [h1]
      exact (Real.exp_le_exp.2 (by norm_num)).trans exp_neg_three_le
    nlinarith
  · rw [builtin_exponential.1 h]; simp only [exponentialFormula]
    have h1 : -b / (b / 3) = -3 := by field_simp
    have h2 : Real.exp (-b / (b / 3)) ≤ 1 / 20 := by rw [h1]; exact exp_neg_three_le
    nlinarith

/-- The hole-effect model overshoots: it stays between the nugget and `psill * (1 + exp (-2))`
above it, attains the upper bound at `2/3 range`, and exceeds the sill exactly beyond `range / 3`. -/
theorem C02_hole_effect (a b c : ℝ) (ha : 0 ≤ a) (hb : 0 < b) (γ : ℝ → ℝ)
    (h : Spec.Builtin "hole-effect" [a, b, c] γ) :
    (∀ d, 0 ≤ d → c ≤ γ d ∧ γ d ≤ c + a * (1 + Real.exp (-2))) ∧
    γ (2 / 3 * b) = c + a * (1 + Real.exp (-2)) ∧
    (0 < a → ∀ d, a + c < γ d ↔ b / 3 < d) := by
  rw [builtin_hole.1 h]; simp only [holeEffectFormula]
  refine ⟨?_, ?_, ?_⟩
  · intro d hd
    have ht : 0 ≤ d / (b / 3) := by positivity
    rw [neg_div]
    generalize d / (b / 3) = t at ht
    constructor
    · have h1 : (1 - t) * Real.exp (-t) ≤ 1 := by
        have h2 := Real.one_sub_le_exp_neg t
        have h3 : Real.exp (-t) ≤ 1 := Real.exp_le_one_iff.2 (by linarith)
        have h4 := Real.exp_pos (-t)
        rcases le_or_gt t 1 with ht1 | ht1
        · nlinarith
        · nlinarith
      nlinarith
    · have h1 : (t - 1) * Real.exp (-t) ≤ Real.exp (-2) := by
        have h2 := Real.add_one_le_exp (t - 2)
        have h3 : Real.exp (-2) = Real.exp (t - 2) * Real.exp (-t) := by
          rw [← Real.exp_add]; ring_nf
        rw [h3]
        exact mul_le_mul_of_nonneg_right (by linarith) (Real.exp_pos _).le
      nlinarith
  · have h1 : 2 / 3 * b / (b / 3) = 2 := by field_simp
    rw [neg_div, h1]; ring
  · intro ha' d
    have hb3 : 0 < b / 3 := by positivity
    rw [neg_div, ← one_lt_div hb3]
    generalize d / (b / 3) = t
    have h4 := Real.exp_pos (-t)
    have : a * (1 - (1 - t) * Real.exp (-t)) + c - (a + c) = a * Real.exp (-t) * (t - 1) := by ring
    rw [← sub_pos, this, mul_pos_iff_of_pos_left (by positivity), sub_pos]

/-- The hypotheses are met: every built-in model has such a function. -/
example : ∃ γ, Spec.Builtin "gaussian" [3, 2, 1] γ ∧ γ 0 = 1 ∧ 1 + 95 / 100 * 3 ≤ γ 2 ∧
    γ 5 ≤ 3 + 1 := by
  obtain ⟨f, hf, γ, h⟩ : ∃ f, variogramDict "gaussian" = some f ∧ ∃ γ, f [3, 2, 1] = .ok γ :=
    ⟨_, rfl, _, rfl⟩
  have hγ : Spec.Builtin "gaussian" [3, 2, 1] γ := ⟨f, hf, h⟩
  exact ⟨γ, hγ, (C02_nugget 3 2 1 γ).2.2 (by norm_num) _ (by simp) hγ,
    C02_practical_range 3 2 1 (by norm_num) (by norm_num) γ ⟨_, by simp, hγ⟩ 2 le_rfl,
    (C02_bounds 3 2 1 (by norm_num) (by norm_num) γ ⟨_, by simp, hγ⟩ 5 (by norm_num)).2⟩

example : ∃ γ, Spec.Builtin "hole-effect" [1, 3, 0] γ ∧ 1 + 0 < γ 2 :=
  ⟨_, ⟨_, rfl, rfl⟩, ((C02_hole_effect 1 3 0 (by norm_num) (by norm_num) _
    ⟨_, rfl, rfl⟩).2.2 (by norm_num) 2).2 (by norm_num)⟩

end
end PyKrige
