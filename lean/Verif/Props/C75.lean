import Verif.Props.C49
import Verif.Props.C48
import Verif.Props.C40
import Verif.Examples.More
import Mathlib.Algebra.Order.Chebyshev

/-!
# C75: a rougher variogram never gives a smaller variance, and the nugget is a lower bound

The variogram of the second object is that of the first plus a valid variogram (larger nugget, larger sill or slope with
the same range or exponent, an additional structure): the variance it reports at a location is at least that of the first.
Away from the data the variance is at least the nugget times `1 + 1/k`, `k` the number of data used.
-/

set_option linter.unusedSectionVars false

namespace PyKrige
noncomputable section
open Matrix Spec

/-- The parameters of a built-in variogram grow: slope, scale or partial sill and nugget do not decrease, range or
exponent is the same. -/
def Spec.Grown (ps ps' : List ℝ) : Prop :=
  (∃ a c a' c', ps = [a, c] ∧ ps' = [a', c'] ∧ a ≤ a' ∧ c ≤ c') ∨
  ∃ a b c a' c', ps = [a, b, c] ∧ ps' = [a', b, c'] ∧ a ≤ a' ∧ c ≤ c'

theorem semivar_add {ι : Type} {γ γ' δ : ℝ → ℝ} (h : ∀ d, γ' d = γ d + δ d) (D : ι → ι → ℝ) (i j : ι) :
    semivar γ' D i j = semivar γ D i j + semivar δ D i j := by
  unfold semivar
  split_ifs
  · simp
  · exact h _

theorem semivarTo_add {ι : Type} {γ γ' δ : ℝ → ℝ} (h : ∀ d, γ' d = γ d + δ d) (exact : Bool) (d : ι → ℝ) (i : ι) :
    semivarTo exact γ' d i = semivarTo exact γ d i + semivarTo exact δ d i := by
  unfold semivarTo
  split_ifs
  · simp
  · exact h _

theorem errorVariance_add {n : ℕ} {G G' H : Fin n → Fin n → ℝ} {g g' k : Fin n → ℝ} (hG : ∀ i j, G' i j = G i j + H i j)
    (hg : ∀ i, g' i = g i + k i) (w : Fin n → ℝ) : errorVariance G' g' w = errorVariance G g w + errorVariance H k w := by
  unfold errorVariance
  simp only [hG, hg, mul_add, Finset.sum_add_distrib]
  ring

theorem Spec.CondNeg.sum_of {n : ℕ} {G G' H : Fin n → Fin n → ℝ} (h : CondNeg G) (h' : CondNeg H)
    (hG : ∀ i j, G' i j = G i j + H i j) : CondNeg G' where
  symm i j := by rw [hG, hG, h.symm, h'.symm]
  contrast c hc := by
    have h1 := h.contrast c hc
    have h2 := h'.contrast c hc
    simp only [hG, mul_add, Finset.sum_add_distrib]
    linarith

theorem Spec.IsBlue.rougher {n : ℕ} {S : Set (Fin n)} {G G' H : Fin n → Fin n → ℝ} {g g' k : Fin n → ℝ}
    {D : Fin n → List ℝ} {f : List ℝ} {z z' : Fin n → ℝ} {est var est' var' : ℝ} (h : IsBlue S G g D f z est var)
    (h' : IsBlue S G' g' D f z' est' var') (hG : ∀ i j, G' i j = G i j + H i j) (hg : ∀ i, g' i = g i + k i)
    (hc : CondNeg (withPoint H k)) : var ≤ var' := by
  obtain ⟨w, hw, -, rfl⟩ := h'.exists_weights
  rw [errorVariance_add hG hg]
  have h1 := h.best w hw
  have h2 := errorVariance_nonneg hc hw.sum_one
  linarith

/-- Weights with sum one have squares with sum at least `1 / k`. -/
theorem sq_sum_ge {n : ℕ} {S : Finset (Fin n)} {w : Fin n → ℝ} (hs : ∀ i, i ∉ S → w i = 0) (h1 : ∑ i, w i = 1) :
    1 / (S.card : ℝ) ≤ ∑ i, w i * w i := by
  have e1 : ∑ i ∈ S, w i = 1 := by
    rw [← h1]
    exact Finset.sum_subset (Finset.subset_univ S) fun i _ hi => hs i hi
  have e2 : ∑ i ∈ S, w i * w i = ∑ i, w i * w i :=
    Finset.sum_subset (Finset.subset_univ S) fun i _ hi => by simp [hs i hi]
  have := sq_sum_le_card_mul_sum_sq (s := S) (f := w)
  rw [e1] at this
  have hpos : (0 : ℝ) < S.card := by
    have : S.Nonempty := by
      by_contra hne
      rw [Finset.not_nonempty_iff_eq_empty] at hne
      rw [hne] at e1
      simp at e1
    exact_mod_cast this.card_pos
  rw [div_le_iff₀ hpos, ← e2]
  simp only [pow_two] at this
  linarith

theorem errorVariance_flat {n : ℕ} (c : ℝ) (D : Fin n → Fin n → ℝ) {w : Fin n → ℝ} (h1 : ∑ i, w i = 1) :
    errorVariance (semivar (fun _ => c) D) (fun _ => c) w = c * (1 + ∑ i, w i * w i) := by
  classical
  unfold errorVariance
  have e1 : ∑ i, ∑ j, w i * w j * semivar (fun _ => c) D i j = c * (1 - ∑ i, w i * w i) := by
    have : ∀ i, ∑ j, w i * w j * semivar (fun _ => c) D i j = c * (w i * (∑ j, w j) - w i * w i) := by
      intro i
      have e : ∀ j, w i * w j * semivar (fun _ => c) D i j = c * (w i * w j) - if i = j then c * (w i * w j) else 0 := by
        intro j
        unfold semivar
        by_cases hij : i = j
        · subst hij; simp
        · simp only [if_neg hij]; ring
      rw [Finset.sum_congr rfl fun j _ => e j, Finset.sum_sub_distrib, Finset.sum_ite_eq Finset.univ i, ← Finset.mul_sum,
        ← Finset.mul_sum]
      simp
      ring
    rw [Finset.sum_congr rfl fun i _ => this i, ← Finset.mul_sum, Finset.sum_sub_distrib, ← Finset.sum_mul, h1]
    ring
  rw [e1, ← Finset.sum_mul, h1]
  ring

/-- A best prediction away from the data with a variogram `γ + c`. -/
theorem Spec.IsBlue.floor {n : ℕ} {S : Finset (Fin n)} {γ γ₀ : ℝ → ℝ} {c : ℝ} (hγ : ∀ d, γ d = γ₀ d + c) (hc : 0 ≤ c)
    {exact : Bool} {X : Fin n → Fin n → ℝ} {d : Fin n → ℝ} (hfar : exact = true → ∀ i, 1 / 10 ^ 10 < d i)
    {D : Fin n → List ℝ} {f : List ℝ} {z : Fin n → ℝ} {est var : ℝ}
    (h : IsBlue S (semivar γ X) (semivarTo exact γ d) D f z est var)
    (h0 : CondNeg (withPoint (semivar γ₀ X) (semivarTo exact γ₀ d))) : c * (1 + 1 / (S.card : ℝ)) ≤ var := by
  obtain ⟨w, hw, -, rfl⟩ := h.exists_weights
  have e : semivarTo exact (fun _ => c) d = fun _ => c := by
    funext i
    unfold semivarTo
    refine if_neg fun hh => ?_
    exact absurd hh.2 (not_le.2 (hfar hh.1 i))
  rw [errorVariance_add (fun i j => semivar_add hγ X i j) (fun i => semivarTo_add hγ exact d i), e,
    errorVariance_flat c X hw.sum_one]
  have h1 := errorVariance_nonneg h0 hw.sum_one
  have h2 := sq_sum_ge (S := S) (fun i hi => hw.support i (by simpa using hi)) hw.sum_one
  have h3 := mul_le_mul_of_nonneg_left h2 hc
  linarith

/-- The difference of two built-in variograms of the same model is one too. -/
theorem grown_difference {m : String} {ps ps' : List ℝ} {γ γ' : ℝ → ℝ} (hv : ValidModel m ps) (hv' : ValidModel m ps')
    (hg : Grown ps ps') (hb : Builtin m ps γ) (hb' : Builtin m ps' γ') :
    ∃ δ, Valid3 δ ∧ (∀ d, γ' d = γ d + δ d) ∧ (γ' 0 = 0 → δ 0 = 0) := by
  rcases hv with ⟨a, c, rfl, rfl, ha, hc⟩ | ⟨a, p, c, rfl, rfl, ha, h0, h2, hc⟩ | ⟨a, r, c, hm, rfl, ha, hr, hc⟩
  · rcases hg with ⟨_, _, a', c', e, rfl, h1, h2⟩ | ⟨_, _, _, _, _, e, _⟩
    · cases e
      rw [builtin_linear] at hb hb'
      subst hb hb'
      refine ⟨_, linear_valid (sub_nonneg.2 h1) (sub_nonneg.2 h2), fun d => ?_, fun hz => ?_⟩
      · simp only [linearFormula]; ring
      · simp only [linearFormula, mul_zero, zero_add] at hz ⊢; linarith
    · simp at e
  · rcases hg with ⟨_, _, _, _, e, _⟩ | ⟨_, _, _, a', c', e, rfl, h1, h3⟩
    · simp at e
    · cases e
      rw [builtin_power] at hb hb'
      subst hb hb'
      refine ⟨_, power_valid (sub_nonneg.2 h1) h0 h2 (sub_nonneg.2 h3), fun d => ?_, fun hz => ?_⟩
      · simp only [powerFormula]; ring
      · simp only [powerFormula, Real.zero_rpow h0.ne', mul_zero, zero_add] at hz ⊢; linarith
  · rcases hg with ⟨_, _, _, _, e, _⟩ | ⟨_, _, _, a', c', e, rfl, h1, h3⟩
    · simp at e
    · cases e
      have ha' := sub_nonneg.2 h1
      have hc' := sub_nonneg.2 h3
      simp only [List.mem_cons, List.not_mem_nil, or_false] at hm
      rcases hm with rfl | rfl | rfl
      · rw [builtin_gaussian] at hb hb'
        subst hb hb'
        refine ⟨_, gaussian_valid (r := r) ha' hc', fun d => ?_, fun hz => ?_⟩
        · simp only [gaussianFormula]; ring
        · simp [gaussianFormula] at hz ⊢; linarith
      · rw [builtin_exponential] at hb hb'
        subst hb hb'
        refine ⟨_, exponential_valid ha' hr hc', fun d => ?_, fun hz => ?_⟩
        · simp only [exponentialFormula]; ring
        · simp [exponentialFormula] at hz ⊢; linarith
      · rw [builtin_spherical] at hb hb'
        subst hb hb'
        refine ⟨_, spherical_valid ha' hr hc', fun d => ?_, fun hz => ?_⟩
        · simp only [sphericalFormula]; split_ifs <;> ring
        · simp [sphericalFormula, hr.le] at hz ⊢; linarith

/-- A built-in variogram is the nugget plus a valid variogram without nugget. -/
theorem split_nugget {m : String} {rest : List ℝ} {c : ℝ} {γ : ℝ → ℝ} (hv : ValidModel m (rest ++ [c]))
    (hb : Builtin m (rest ++ [c]) γ) : 0 ≤ c ∧ ∃ γ₀, Valid3 γ₀ ∧ ∀ d, γ d = γ₀ d + c := by
  rcases hv with ⟨a, c', rfl, e, ha, hc⟩ | ⟨a, p, c', rfl, e, ha, h0, h2, hc⟩ | ⟨a, r, c', hm, e, ha, hr, hc⟩
  · obtain ⟨rfl, e2⟩ := List.append_inj' (show rest ++ [c] = [a] ++ [c'] from e) rfl
    cases e2
    obtain rfl := builtin_linear.1 hb
    exact ⟨hc, _, linear_valid ha le_rfl, fun d => by simp only [linearFormula]; ring⟩
  · obtain ⟨rfl, e2⟩ := List.append_inj' (show rest ++ [c] = [a, p] ++ [c'] from e) rfl
    cases e2
    obtain rfl := builtin_power.1 hb
    exact ⟨hc, _, power_valid ha h0 h2 le_rfl, fun d => by simp only [powerFormula]; ring⟩
  · obtain ⟨rfl, e2⟩ := List.append_inj' (show rest ++ [c] = [a, r] ++ [c'] from e) rfl
    cases e2
    simp only [List.mem_cons, List.not_mem_nil, or_false] at hm
    rcases hm with rfl | rfl | rfl
    · obtain rfl := builtin_gaussian.1 hb
      exact ⟨hc, _, gaussian_valid (r := r) ha le_rfl, fun d => by simp only [gaussianFormula]; ring⟩
    · obtain rfl := builtin_exponential.1 hb
      exact ⟨hc, _, exponential_valid ha hr le_rfl, fun d => by simp only [exponentialFormula]; ring⟩
    · obtain rfl := builtin_spherical.1 hb
      exact ⟨hc, _, spherical_valid ha hr le_rfl, fun d => by simp only [sphericalFormula]; split_ifs <;> ring⟩

/-- `OrdinaryKriging`: the second object has the variogram `γ + δ`, `δ` valid. -/
theorem C75_rougher_2d {n : ℕ} {env : Env} {x y z z' : Fin n → ℝ} {args : OKArgs} {m m' : String} {a' : ParamArg}
    {f' : FunArg} {s s' : OK n} (h : OK.create env x y z args = .ok s) (hmn : args.variogramModel = .name m)
    (h' : OK.create env x y z' { args with variogramModel := .name m', params := a', variogramFunction := f' } = .ok s')
    {ea ea' : ExecArgs} (ha : Admissible env args s ea.nClosest)
    (ha' : Admissible env { args with variogramModel := .name m', params := a', variogramFunction := f' } s' ea'.nClosest)
    {γ γ' δ : ℝ → ℝ} (hγ : s.variogramFunction s.params = .ok γ) (hγ' : s'.variogramFunction s'.params = .ok γ')
    (hδ : ∀ d, γ' d = γ d + δ d) {exact : Bool} (hex : args.exactValues = .bool exact) (hp : args.pseudoInv = false ∨ ea.nClosest ≠ none)
    (hG : CondNeg (semivar γ fun i i' => okDistance args (x i, y i) (x i', y i')))
    {r r' : ExecResult} (hr : s.execute env ea = .ok r) (hr' : s'.execute env ea' = .ok r')
    {j j' : ℕ} {p : ℝ × ℝ} (hq : queryAt ea j = some p) (hq' : queryAt ea' j' = some p)
    (hm : maskedAt ea j = false) (hm' : maskedAt ea' j' = false)
    (hk : ea'.nClosest = ea.nClosest) (ht : ea.nClosest = none ∨ ∀ i i', okDistance args p (x i, y i) = okDistance args p (x i', y i') → i = i')
    (hv : CondNeg (withPoint (semivar δ fun i i' => okDistance args (x i, y i) (x i', y i'))
      (semivarTo exact δ fun i => okDistance args p (x i, y i)))) :
    ∃ var var', r.ss[j]? = some (some var) ∧ r'.ss[j']? = some (some var') ∧ var ≤ var' := by
  have hd : okDistance { args with variogramModel := .name m', params := a', variogramFunction := f' } = okDistance args := by
    funext p q
    simp [okDistance, effScaling, effAngle, hmn]
  have hG' : CondNeg (semivar γ' fun i i' => okDistance args (x i, y i) (x i', y i')) :=
    hG.sum_of hv.of_withPoint fun i i' => semivar_add hδ _ i i'
  obtain ⟨S, hS0, hS, est, var, -, hvv, hb⟩ := C28_best_2d h ha hγ hex hG hr hq hm (by tauto)
  obtain ⟨S', hS0', hS', est', var', -, hvv', hb'⟩ := C28_best_2d h' ha' hγ' (exact := exact) hex (by rw [hd]; exact hG') hr' hq' hm'
    (by rw [hk]; tauto)
  rw [hd] at hb' hS'
  have hSS : S' = S := by
    rcases ht with h0 | ht
    · rw [hS0 h0, hS0' (hk.trans h0)]
    · cases hn : ea.nClosest with
      | none => rw [hS0 hn, hS0' (hk.trans hn)]
      | some k =>
        have hk0 : 0 ≤ k := by
          by_contra hneg
          have hk1 : k ≤ 1 := by omega
          by_cases hst : ea.style ∈ ["grid", "masked", "points"]
          · rw [C40_window_2d env s hst hn hk1] at hr; simp at hr
          · obtain he := C40_style_2d env s hst; rw [he] at hr; simp at hr
        obtain ⟨k, rfl⟩ := Int.eq_ofNat_of_zero_le hk0
        obtain ⟨c1, n1⟩ := hS k hn
        obtain ⟨c2, n2⟩ := hS' k (hk.trans hn)
        exact Finset.Subset.antisymm (nearest_subset n2 n1 (by omega) ht) (nearest_subset n1 n2 (by omega) ht)
  rw [hSS] at hb'
  exact ⟨var, var', hvv, hvv', hb.rougher hb' (fun i i' => semivar_add hδ _ i i') (fun i => semivarTo_add hδ exact _ i) hv⟩

/-- `OrdinaryKriging`, built-in models with parameters given or fitted. -/
theorem C75_builtin_2d {n : ℕ} {env : Env} {x y z z' : Fin n → ℝ} {args : OKArgs} {m : String} {a' : ParamArg}
    {f' : FunArg} {s s' : OK n} (h : OK.create env x y z args = .ok s) (hmn : args.variogramModel = .name m)
    (h' : OK.create env x y z' { args with variogramModel := .name m, params := a', variogramFunction := f' } = .ok s')
    {ea ea' : ExecArgs} (ha : Admissible env args s ea.nClosest)
    (ha' : Admissible env { args with variogramModel := .name m, params := a', variogramFunction := f' } s' ea'.nClosest)
    (hct : args.coordinatesType = "euclidean") (hv : ValidModel m s.params) (hv' : ValidModel m s'.params) (hg : Grown s.params s'.params)
    {γ' : ℝ → ℝ} (hγ' : s'.variogramFunction s'.params = .ok γ') {exact : Bool} (hex : args.exactValues = .bool exact) (hp : args.pseudoInv = false ∨ ea.nClosest ≠ none)
    {r r' : ExecResult} (hr : s.execute env ea = .ok r) (hr' : s'.execute env ea' = .ok r')
    {j j' : ℕ} {p : ℝ × ℝ} (hq : queryAt ea j = some p) (hq' : queryAt ea' j' = some p)
    (hm : maskedAt ea j = false) (hm' : maskedAt ea' j' = false)
    (hk : ea'.nClosest = ea.nClosest) (ht : ea.nClosest = none ∨ ∀ i i', okDistance args p (x i, y i) = okDistance args p (x i', y i') → i = i')
    (hcl : Clear exact γ' fun i => okDistance args p (x i, y i)) :
    ∃ var var', r.ss[j]? = some (some var) ∧ r'.ss[j']? = some (some var') ∧ var ≤ var' := by
  obtain ⟨hmb, -, -, γ, hb, hval, -⟩ := hv.builtin
  obtain ⟨-, -, -, γ1, hb1, -, -⟩ := hv'.builtin
  obtain ⟨hev, -⟩ := chosen_evaluates hb hmb (OK.create_function h hmn)
  obtain ⟨hev', -⟩ := chosen_evaluates hb1 hmb (OK.create_function h' (m := m) rfl)
  obtain rfl : γ' = γ1 := by rw [hγ'] at hev'; exact Except.ok.inj hev'
  obtain ⟨δ, hδv, hδ, h0⟩ := grown_difference hv hv' hg hb hb1
  obtain ⟨e, hemb⟩ := okDistance_embed hct
  refine C75_rougher_2d h hmn h' ha ha' hev hγ' hδ hex hp (hval.data (D := okDistance args) hemb fun i => (x i, y i)) hr hr' hq hq' hm hm'
    hk ht (hδv.withPoint' (D := okDistance args) hemb (fun i => (x i, y i)) p fun he i hi => ?_)
  obtain ⟨q1, q2⟩ := hcl he i hi
  exact ⟨q1, q2.imp_left h0⟩

/-- `OrdinaryKriging`: away from the data (with `exact_values=False`: everywhere) the variance is at least the nugget `c`
times one plus the reciprocal of the number of data used. -/
theorem C75_nugget_2d {n : ℕ} {env : Env} {x y z : Fin n → ℝ} {args : OKArgs} {m : String} {s : OK n}
    (h : OK.create env x y z args = .ok s) (hmn : args.variogramModel = .name m) {ea : ExecArgs}
    (ha : Admissible env args s ea.nClosest) (hct : args.coordinatesType = "euclidean")
    {rest : List ℝ} {c : ℝ} (hc : s.params = rest ++ [c]) (hv : ValidModel m s.params)
    {exact : Bool} (hex : args.exactValues = .bool exact) (hp : args.pseudoInv = false ∨ ea.nClosest ≠ none)
    {r : ExecResult} (hr : s.execute env ea = .ok r) {j : ℕ} {p : ℝ × ℝ} (hq : queryAt ea j = some p)
    (hm : maskedAt ea j = false)
    (hfar : exact = true → ∀ i, 1 / 10 ^ 10 < okDistance args p (x i, y i)) :
    (∀ var, r.ss[j]? = some (some var) → ea.nClosest = none → c * (1 + 1 / (n : ℝ)) ≤ var) ∧
      ∀ (var : ℝ) (k : ℕ), r.ss[j]? = some (some var) → ea.nClosest = some (k : ℤ) → c * (1 + 1 / (k : ℝ)) ≤ var := by
  obtain ⟨hmb, -, -, γ, hb, hval, -⟩ := hv.builtin
  obtain ⟨hev, -⟩ := chosen_evaluates hb hmb (OK.create_function h hmn)
  rw [hc] at hb hv
  obtain ⟨hc0, γ₀, hv0, hγ₀⟩ := split_nugget hv hb
  obtain ⟨e, hemb⟩ := okDistance_embed hct
  have hw0 := hv0.withPoint' (D := okDistance args) hemb (fun i => (x i, y i)) p (exact := exact)
    fun he i hi => absurd hi (not_le.2 (hfar he i))
  obtain ⟨S, hS0, hS, est, var', -, hvv, hbl⟩ := C28_best_2d h ha hev hex (hval.data (D := okDistance args) hemb fun i => (x i, y i)) hr hq hm
    (by tauto)
  have key := hbl.floor hγ₀ hc0 hfar hw0
  refine ⟨fun var hj hn => ?_, fun var k hj hk => ?_⟩
  · rw [hvv] at hj
    obtain rfl : var' = var := Option.some.inj (Option.some.inj hj)
    rw [hS0 hn] at key
    simpa using key
  · rw [hvv] at hj
    obtain rfl : var' = var := Option.some.inj (Option.some.inj hj)
    rw [(hS k hk).1] at key
    exact key

/-- `OrdinaryKriging3D`: the second object has the variogram `γ + δ`, `δ` valid. -/
theorem C75_rougher_3d {n : ℕ} {env : Env} {x y z v v' : Fin n → ℝ} {args : OK3DArgs} {m m' : String} {a' : ParamArg}
    {f' : FunArg} {s s' : OK3D n} (h : OK3D.create env x y z v args = .ok s) (hmn : args.variogramModel = .name m)
    (h' : OK3D.create env x y z v' { args with variogramModel := .name m', params := a', variogramFunction := f' } = .ok s')
    {ea ea' : ExecArgs3} (hkn : KnnSpec env) (hw : WindowFits n ea.nClosest)
    (hw' : WindowFits n ea'.nClosest)
    {γ γ' δ : ℝ → ℝ} (hγ : s.variogramFunction s.params = .ok γ) (hγ' : s'.variogramFunction s'.params = .ok γ')
    (hδ : ∀ d, γ' d = γ d + δ d) {exact : Bool} (hex : args.exactValues = .bool exact) (hp : args.pseudoInv = false ∨ ea.nClosest ≠ none)
    (hG : CondNeg (semivar γ fun i i' => ok3Distance args (x i, y i, z i) (x i', y i', z i')))
    {r r' : ExecResult} (hr : s.execute env ea = .ok r) (hr' : s'.execute env ea' = .ok r')
    {j j' : ℕ} {p : ℝ × ℝ × ℝ} (hq : queryAt3 ea j = some p) (hq' : queryAt3 ea' j' = some p)
    (hm : maskedAt3 ea j = false) (hm' : maskedAt3 ea' j' = false)
    (hk : ea'.nClosest = ea.nClosest) (ht : ea.nClosest = none ∨ ∀ i i', ok3Distance args p (x i, y i, z i) = ok3Distance args p (x i', y i', z i') → i = i')
    (hv : CondNeg (withPoint (semivar δ fun i i' => ok3Distance args (x i, y i, z i) (x i', y i', z i'))
      (semivarTo exact δ fun i => ok3Distance args p (x i, y i, z i)))) :
    ∃ var var', r.ss[j]? = some (some var) ∧ r'.ss[j']? = some (some var') ∧ var ≤ var' := by
  have hd : ok3Distance { args with variogramModel := .name m', params := a', variogramFunction := f' } = ok3Distance args := by
    funext p q
    simp [ok3Distance, effAniso, hmn]
  have hG' : CondNeg (semivar γ' fun i i' => ok3Distance args (x i, y i, z i) (x i', y i', z i')) :=
    hG.sum_of hv.of_withPoint fun i i' => semivar_add hδ _ i i'
  obtain ⟨S, hS0, hS, est, var, -, hvv, hb⟩ := C28_best_3d h hkn hw hγ hex hG hr hq hm (by tauto)
  obtain ⟨S', hS0', hS', est', var', -, hvv', hb'⟩ := C28_best_3d h' hkn hw' hγ' (exact := exact) hex (by rw [hd]; exact hG') hr' hq' hm'
    (by rw [hk]; tauto)
  rw [hd] at hb' hS'
  have hSS : S' = S := by
    rcases ht with h0 | ht
    · rw [hS0 h0, hS0' (hk.trans h0)]
    · cases hn : ea.nClosest with
      | none => rw [hS0 hn, hS0' (hk.trans hn)]
      | some k =>
        have hk0 : 0 ≤ k := by
          by_contra hneg
          have hk1 : k ≤ 1 := by omega
          obtain ⟨e, he⟩ := C40_window_3d env s hn hk1
          rw [he] at hr
          simp at hr
        obtain ⟨k, rfl⟩ := Int.eq_ofNat_of_zero_le hk0
        obtain ⟨c1, n1⟩ := hS k hn
        obtain ⟨c2, n2⟩ := hS' k (hk.trans hn)
        exact Finset.Subset.antisymm (nearest_subset n2 n1 (by omega) ht) (nearest_subset n1 n2 (by omega) ht)
  rw [hSS] at hb'
  exact ⟨var, var', hvv, hvv', hb.rougher hb' (fun i i' => semivar_add hδ _ i i') (fun i => semivarTo_add hδ exact _ i) hv⟩

/-- `OrdinaryKriging3D`, built-in models with parameters given or fitted. -/
theorem C75_builtin_3d {n : ℕ} {env : Env} {x y z v v' : Fin n → ℝ} {args : OK3DArgs} {m : String} {a' : ParamArg}
    {f' : FunArg} {s s' : OK3D n} (h : OK3D.create env x y z v args = .ok s) (hmn : args.variogramModel = .name m)
    (h' : OK3D.create env x y z v' { args with variogramModel := .name m, params := a', variogramFunction := f' } = .ok s')
    {ea ea' : ExecArgs3} (hkn : KnnSpec env) (hw : WindowFits n ea.nClosest)
    (hw' : WindowFits n ea'.nClosest)
    (hv : ValidModel m s.params) (hv' : ValidModel m s'.params) (hg : Grown s.params s'.params)
    {γ' : ℝ → ℝ} (hγ' : s'.variogramFunction s'.params = .ok γ') {exact : Bool} (hex : args.exactValues = .bool exact) (hp : args.pseudoInv = false ∨ ea.nClosest ≠ none)
    {r r' : ExecResult} (hr : s.execute env ea = .ok r) (hr' : s'.execute env ea' = .ok r')
    {j j' : ℕ} {p : ℝ × ℝ × ℝ} (hq : queryAt3 ea j = some p) (hq' : queryAt3 ea' j' = some p)
    (hm : maskedAt3 ea j = false) (hm' : maskedAt3 ea' j' = false)
    (hk : ea'.nClosest = ea.nClosest) (ht : ea.nClosest = none ∨ ∀ i i', ok3Distance args p (x i, y i, z i) = ok3Distance args p (x i', y i', z i') → i = i')
    (hcl : Clear exact γ' fun i => ok3Distance args p (x i, y i, z i)) :
    ∃ var var', r.ss[j]? = some (some var) ∧ r'.ss[j']? = some (some var') ∧ var ≤ var' := by
  obtain ⟨hmb, -, -, γ, hb, hval, -⟩ := hv.builtin
  obtain ⟨-, -, -, γ1, hb1, -, -⟩ := hv'.builtin
  obtain ⟨hev, -⟩ := chosen_evaluates hb hmb (OK3D.create_function h hmn)
  obtain ⟨hev', -⟩ := chosen_evaluates hb1 hmb (OK3D.create_function h' (m := m) rfl)
  obtain rfl : γ' = γ1 := by rw [hγ'] at hev'; exact Except.ok.inj hev'
  obtain ⟨δ, hδv, hδ, h0⟩ := grown_difference hv hv' hg hb hb1
  obtain ⟨e, hemb⟩ := distance3_embed _
  refine C75_rougher_3d h hmn h' hkn hw hw' hev hγ' hδ hex hp (hval.data (D := ok3Distance args) hemb fun i => (x i, y i, z i)) hr hr' hq hq' hm hm'
    hk ht (hδv.withPoint' (D := ok3Distance args) hemb (fun i => (x i, y i, z i)) p fun he i hi => ?_)
  obtain ⟨q1, q2⟩ := hcl he i hi
  exact ⟨q1, q2.imp_left h0⟩

/-- `OrdinaryKriging3D`: away from the data (with `exact_values=False`: everywhere) the variance is at least the nugget `c`
times one plus the reciprocal of the number of data used. -/
theorem C75_nugget_3d {n : ℕ} {env : Env} {x y z v : Fin n → ℝ} {args : OK3DArgs} {m : String} {s : OK3D n}
    (h : OK3D.create env x y z v args = .ok s) (hmn : args.variogramModel = .name m) {ea : ExecArgs3}
    (hkn : KnnSpec env) (hw : WindowFits n ea.nClosest)
    {rest : List ℝ} {c : ℝ} (hc : s.params = rest ++ [c]) (hv : ValidModel m s.params)
    {exact : Bool} (hex : args.exactValues = .bool exact) (hp : args.pseudoInv = false ∨ ea.nClosest ≠ none)
    {r : ExecResult} (hr : s.execute env ea = .ok r) {j : ℕ} {p : ℝ × ℝ × ℝ} (hq : queryAt3 ea j = some p)
    (hm : maskedAt3 ea j = false)
    (hfar : exact = true → ∀ i, 1 / 10 ^ 10 < ok3Distance args p (x i, y i, z i)) :
    (∀ var, r.ss[j]? = some (some var) → ea.nClosest = none → c * (1 + 1 / (n : ℝ)) ≤ var) ∧
      ∀ (var : ℝ) (k : ℕ), r.ss[j]? = some (some var) → ea.nClosest = some (k : ℤ) → c * (1 + 1 / (k : ℝ)) ≤ var := by
  obtain ⟨hmb, -, -, γ, hb, hval, -⟩ := hv.builtin
  obtain ⟨hev, -⟩ := chosen_evaluates hb hmb (OK3D.create_function h hmn)
  rw [hc] at hb hv
  obtain ⟨hc0, γ₀, hv0, hγ₀⟩ := split_nugget hv hb
  obtain ⟨e, hemb⟩ := distance3_embed _
  have hw0 := hv0.withPoint' (D := ok3Distance args) hemb (fun i => (x i, y i, z i)) p (exact := exact)
    fun he i hi => absurd hi (not_le.2 (hfar he i))
  obtain ⟨S, hS0, hS, est, var', -, hvv, hbl⟩ := C28_best_3d h hkn hw hev hex (hval.data (D := ok3Distance args) hemb fun i => (x i, y i, z i)) hr hq hm
    (by tauto)
  have key := hbl.floor hγ₀ hc0 hfar hw0
  refine ⟨fun var hj hn => ?_, fun var k hj hk => ?_⟩
  · rw [hvv] at hj
    obtain rfl : var' = var := Option.some.inj (Option.some.inj hj)
    rw [hS0 hn] at key
    simpa using key
  · rw [hvv] at hj
    obtain rfl : var' = var := Option.some.inj (Option.some.inj hj)
    rw [(hS k hk).1] at key
    exact key

/-- `UniversalKriging`: the second object has the variogram `γ + δ`, `δ` valid. -/
theorem C75_rougher_uk {n : ℕ} {env : Env} {x y z z' : Fin n → ℝ} {args : UKArgs} {m m' : String} {a' : ParamArg}
    {f' : FunArg} {s s' : UK n} (h : UK.create env x y z args = .ok s) (hmn : args.variogramModel = .name m)
    (h' : UK.create env x y z' { args with variogramModel := .name m', params := a', variogramFunction := f' } = .ok s')
    {ea ea' : UKExecArgs} 
    {γ γ' δ : ℝ → ℝ} (hγ : s.variogramFunction s.params = .ok γ) (hγ' : s'.variogramFunction s'.params = .ok γ')
    (hδ : ∀ d, γ' d = γ d + δ d) {exact : Bool} (hex : args.exactValues = .bool exact) (hp : args.pseudoInv = false)
    (hG : CondNeg (semivar γ fun i i' => ukDistance args (x i, y i) (x i', y i')))
    {r r' : ExecResult} (hr : s.execute ea = .ok r) (hr' : s'.execute ea' = .ok r')
    {j j' : ℕ} {p : ℝ × ℝ} (hq : queryAt ea.toExec j = some p) (hq' : queryAt ea'.toExec j' = some p)
    (hm : maskedAt ea.toExec j = false) (hm' : maskedAt ea'.toExec j' = false)
    (hs : "specified" ∈ args.driftTerms → ea.toExec.backend = "vectorized")
    (hs' : "specified" ∈ args.driftTerms → ea'.toExec.backend = "vectorized")
    (hsq : specAtQuery ea j = specAtQuery ea' j')
    (hv : CondNeg (withPoint (semivar δ fun i i' => ukDistance args (x i, y i) (x i', y i'))
      (semivarTo exact δ fun i => ukDistance args p (x i, y i)))) :
    ∃ var var', r.ss[j]? = some (some var) ∧ r'.ss[j']? = some (some var') ∧ var ≤ var' := by
  have hd : ukDistance { args with variogramModel := .name m', params := a', variogramFunction := f' } = ukDistance args := by
    funext p q
    simp [ukDistance, effScaling, effAngle, hmn]
  have hG' : CondNeg (semivar γ' fun i i' => ukDistance args (x i, y i) (x i', y i')) :=
    hG.sum_of hv.of_withPoint fun i i' => semivar_add hδ _ i i'
  obtain ⟨est, var, -, hvv, hb⟩ := C28_best_uk h hγ hex hs hG hr hq hm (.inl hp)
  obtain ⟨est', var', -, hvv', hb'⟩ := C28_best_uk h' hγ' (exact := exact) hex hs' (by rw [hd]; exact hG') hr' hq' hm' (.inl hp)
  obtain ⟨a1, a2⟩ := UK.create_aniso h
  obtain ⟨b1, b2⟩ := UK.create_aniso h'
  obtain ⟨d1, d2⟩ := UK.create_center h
  obtain ⟨e1, e2⟩ := UK.create_center h'
  have hadj : s'.adjustPoint = s.adjustPoint := by
    funext q
    unfold UK.adjustPoint
    rw [b1, b2, a1, a2, hmn]
    rw [d1] at e1; rw [d2] at e2
    rw [Except.ok.inj e1, Except.ok.inj e2]
    rfl
  rw [hd, hadj, ← hsq] at hb'
  exact ⟨var, var', hvv, hvv', hb.rougher hb' (fun i i' => semivar_add hδ _ i i') (fun i => semivarTo_add hδ exact _ i) hv⟩

/-- `UniversalKriging`, built-in models with parameters given or fitted. -/
theorem C75_builtin_uk {n : ℕ} {env : Env} {x y z z' : Fin n → ℝ} {args : UKArgs} {m : String} {a' : ParamArg}
    {f' : FunArg} {s s' : UK n} (h : UK.create env x y z args = .ok s) (hmn : args.variogramModel = .name m)
    (h' : UK.create env x y z' { args with variogramModel := .name m, params := a', variogramFunction := f' } = .ok s')
    {ea ea' : UKExecArgs} 
    (hv : ValidModel m s.params) (hv' : ValidModel m s'.params) (hg : Grown s.params s'.params)
    {γ' : ℝ → ℝ} (hγ' : s'.variogramFunction s'.params = .ok γ') {exact : Bool} (hex : args.exactValues = .bool exact) (hp : args.pseudoInv = false)
    {r r' : ExecResult} (hr : s.execute ea = .ok r) (hr' : s'.execute ea' = .ok r')
    {j j' : ℕ} {p : ℝ × ℝ} (hq : queryAt ea.toExec j = some p) (hq' : queryAt ea'.toExec j' = some p)
    (hm : maskedAt ea.toExec j = false) (hm' : maskedAt ea'.toExec j' = false)
    (hs : "specified" ∈ args.driftTerms → ea.toExec.backend = "vectorized")
    (hs' : "specified" ∈ args.driftTerms → ea'.toExec.backend = "vectorized")
    (hsq : specAtQuery ea j = specAtQuery ea' j')
    (hcl : Clear exact γ' fun i => ukDistance args p (x i, y i)) :
    ∃ var var', r.ss[j]? = some (some var) ∧ r'.ss[j']? = some (some var') ∧ var ≤ var' := by
  obtain ⟨hmb, -, -, γ, hb, hval, -⟩ := hv.builtin
  obtain ⟨-, -, -, γ1, hb1, -, -⟩ := hv'.builtin
  obtain ⟨hev, -⟩ := chosen_evaluates hb hmb (UK.create_function h hmn)
  obtain ⟨hev', -⟩ := chosen_evaluates hb1 hmb (UK.create_function h' (m := m) rfl)
  obtain rfl : γ' = γ1 := by rw [hγ'] at hev'; exact Except.ok.inj hev'
  obtain ⟨δ, hδv, hδ, h0⟩ := grown_difference hv hv' hg hb hb1
  obtain ⟨e, hemb⟩ := anisoDist2_embed _ _
  refine C75_rougher_uk h hmn h'  hev hγ' hδ hex hp (hval.data (D := ukDistance args) hemb fun i => (x i, y i)) hr hr' hq hq' hm hm'
    hs hs' hsq (hδv.withPoint' (D := ukDistance args) hemb (fun i => (x i, y i)) p fun he i hi => ?_)
  obtain ⟨q1, q2⟩ := hcl he i hi
  exact ⟨q1, q2.imp_left h0⟩

/-- `UniversalKriging`: away from the data (with `exact_values=False`: everywhere) the variance is at least the nugget `c`
times one plus the reciprocal of the number of data used. -/
theorem C75_nugget_uk {n : ℕ} {env : Env} {x y z : Fin n → ℝ} {args : UKArgs} {m : String} {s : UK n}
    (h : UK.create env x y z args = .ok s) (hmn : args.variogramModel = .name m) {ea : UKExecArgs}
    {rest : List ℝ} {c : ℝ} (hc : s.params = rest ++ [c]) (hv : ValidModel m s.params)
    {exact : Bool} (hex : args.exactValues = .bool exact) (hp : args.pseudoInv = false)
    {r : ExecResult} (hr : s.execute ea = .ok r) {j : ℕ} {p : ℝ × ℝ} (hq : queryAt ea.toExec j = some p)
    (hm : maskedAt ea.toExec j = false)
    (hs : "specified" ∈ args.driftTerms → ea.toExec.backend = "vectorized")
    (hfar : exact = true → ∀ i, 1 / 10 ^ 10 < ukDistance args p (x i, y i)) :
    ∀ var, r.ss[j]? = some (some var) → c * (1 + 1 / (n : ℝ)) ≤ var := by
  obtain ⟨hmb, -, -, γ, hb, hval, -⟩ := hv.builtin
  obtain ⟨hev, -⟩ := chosen_evaluates hb hmb (UK.create_function h hmn)
  rw [hc] at hb hv
  obtain ⟨hc0, γ₀, hv0, hγ₀⟩ := split_nugget hv hb
  obtain ⟨e, hemb⟩ := anisoDist2_embed _ _
  have hw0 := hv0.withPoint' (D := ukDistance args) hemb (fun i => (x i, y i)) p (exact := exact)
    fun he i hi => absurd hi (not_le.2 (hfar he i))
  obtain ⟨est, var', -, hvv, hbl⟩ := C28_best_uk h hev hex hs (hval.data (D := ukDistance args) hemb fun i => (x i, y i)) hr hq hm (.inl hp)
  have key := Spec.IsBlue.floor (S := Finset.univ) hγ₀ hc0 hfar (by simpa using hbl) hw0
  intro var hj
  rw [hvv] at hj
  obtain rfl : var' = var := Option.some.inj (Option.some.inj hj)
  simpa using key

/-- `UniversalKriging3D`: the second object has the variogram `γ + δ`, `δ` valid. -/
theorem C75_rougher_uk3d {n : ℕ} {env : Env} {x y z v v' : Fin n → ℝ} {args : UK3DArgs} {m m' : String} {a' : ParamArg}
    {f' : FunArg} {s s' : UK3D n} (h : UK3D.create env x y z v args = .ok s) (hmn : args.variogramModel = .name m)
    (h' : UK3D.create env x y z v' { args with variogramModel := .name m', params := a', variogramFunction := f' } = .ok s')
    {ea ea' : UK3DExecArgs} 
    {γ γ' δ : ℝ → ℝ} (hγ : s.variogramFunction s.params = .ok γ) (hγ' : s'.variogramFunction s'.params = .ok γ')
    (hδ : ∀ d, γ' d = γ d + δ d) {exact : Bool} (hex : args.exactValues = .bool exact) (hp : args.pseudoInv = false)
    (hG : CondNeg (semivar γ fun i i' => uk3Distance args (x i, y i, z i) (x i', y i', z i')))
    {r r' : ExecResult} (hr : s.execute ea = .ok r) (hr' : s'.execute ea' = .ok r')
    {j j' : ℕ} {p : ℝ × ℝ × ℝ} (hq : queryAt3 ea.toExec j = some p) (hq' : queryAt3 ea'.toExec j' = some p)
    (hm : maskedAt3 ea.toExec j = false) (hm' : maskedAt3 ea'.toExec j' = false)
    (hs : "specified" ∈ args.driftTerms → ea.toExec.backend = "vectorized")
    (hs' : "specified" ∈ args.driftTerms → ea'.toExec.backend = "vectorized")
    (hsq : specAtQuery3 ea j = specAtQuery3 ea' j')
    (hv : CondNeg (withPoint (semivar δ fun i i' => uk3Distance args (x i, y i, z i) (x i', y i', z i'))
      (semivarTo exact δ fun i => uk3Distance args p (x i, y i, z i)))) :
    ∃ var var', r.ss[j]? = some (some var) ∧ r'.ss[j']? = some (some var') ∧ var ≤ var' := by
  have hd : uk3Distance { args with variogramModel := .name m', params := a', variogramFunction := f' } = uk3Distance args := by
    funext p q
    simp [uk3Distance, effAniso, hmn]
  have hG' : CondNeg (semivar γ' fun i i' => uk3Distance args (x i, y i, z i) (x i', y i', z i')) :=
    hG.sum_of hv.of_withPoint fun i i' => semivar_add hδ _ i i'
  obtain ⟨est, var, -, hvv, hb⟩ := C28_best_uk3d h hγ hex hs hG hr hq hm (.inl hp)
  obtain ⟨est', var', -, hvv', hb'⟩ := C28_best_uk3d h' hγ' (exact := exact) hex hs' (by rw [hd]; exact hG') hr' hq' hm' (.inl hp)
  have a1 := UK3D.create_aniso h
  have b1 := UK3D.create_aniso h'
  obtain ⟨d1, d2, d3⟩ := UK3D.create_center h
  obtain ⟨e1, e2, e3⟩ := UK3D.create_center h'
  have hadj : s'.adjustPoint = s.adjustPoint := by
    funext q
    unfold UK3D.adjustPoint
    rw [b1, a1, hmn]
    rw [d1] at e1; rw [d2] at e2; rw [d3] at e3
    rw [Except.ok.inj e1, Except.ok.inj e2, Except.ok.inj e3]
    rfl
  rw [hd, hadj, ← hsq] at hb'
  exact ⟨var, var', hvv, hvv', hb.rougher hb' (fun i i' => semivar_add hδ _ i i') (fun i => semivarTo_add hδ exact _ i) hv⟩

/-- `UniversalKriging3D`, built-in models with parameters given or fitted. -/
theorem C75_builtin_uk3d {n : ℕ} {env : Env} {x y z v v' : Fin n → ℝ} {args : UK3DArgs} {m : String} {a' : ParamArg}
    {f' : FunArg} {s s' : UK3D n} (h : UK3D.create env x y z v args = .ok s) (hmn : args.variogramModel = .name m)
    (h' : UK3D.create env x y z v' { args with variogramModel := .name m, params := a', variogramFunction := f' } = .ok s')
    {ea ea' : UK3DExecArgs} 
    (hv : ValidModel m s.params) (hv' : ValidModel m s'.params) (hg : Grown s.params s'.params)
    {γ' : ℝ → ℝ} (hγ' : s'.variogramFunction s'.params = .ok γ') {exact : Bool} (hex : args.exactValues = .bool exact) (hp : args.pseudoInv = false)
    {r r' : ExecResult} (hr : s.execute ea = .ok r) (hr' : s'.execute ea' = .ok r')
    {j j' : ℕ} {p : ℝ × ℝ × ℝ} (hq : queryAt3 ea.toExec j = some p) (hq' : queryAt3 ea'.toExec j' = some p)
    (hm : maskedAt3 ea.toExec j = false) (hm' : maskedAt3 ea'.toExec j' = false)
    (hs : "specified" ∈ args.driftTerms → ea.toExec.backend = "vectorized")
    (hs' : "specified" ∈ args.driftTerms → ea'.toExec.backend = "vectorized")
    (hsq : specAtQuery3 ea j = specAtQuery3 ea' j')
    (hcl : Clear exact γ' fun i => uk3Distance args p (x i, y i, z i)) :
    ∃ var var', r.ss[j]? = some (some var) ∧ r'.ss[j']? = some (some var') ∧ var ≤ var' := by
  obtain ⟨hmb, -, -, γ, hb, hval, -⟩ := hv.builtin
  obtain ⟨-, -, -, γ1, hb1, -, -⟩ := hv'.builtin
  obtain ⟨hev, -⟩ := chosen_evaluates hb hmb (UK3D.create_function h hmn)
  obtain ⟨hev', -⟩ := chosen_evaluates hb1 hmb (UK3D.create_function h' (m := m) rfl)
  obtain rfl : γ' = γ1 := by rw [hγ'] at hev'; exact Except.ok.inj hev'
  obtain ⟨δ, hδv, hδ, h0⟩ := grown_difference hv hv' hg hb hb1
  obtain ⟨e, hemb⟩ := distance3_embed _
  refine C75_rougher_uk3d h hmn h'  hev hγ' hδ hex hp (hval.data (D := uk3Distance args) hemb fun i => (x i, y i, z i)) hr hr' hq hq' hm hm'
    hs hs' hsq (hδv.withPoint' (D := uk3Distance args) hemb (fun i => (x i, y i, z i)) p fun he i hi => ?_)
  obtain ⟨q1, q2⟩ := hcl he i hi
  exact ⟨q1, q2.imp_left h0⟩

/-- `UniversalKriging3D`: away from the data (with `exact_values=False`: everywhere) the variance is at least the nugget `c`
times one plus the reciprocal of the number of data used. -/
theorem C75_nugget_uk3d {n : ℕ} {env : Env} {x y z v : Fin n → ℝ} {args : UK3DArgs} {m : String} {s : UK3D n}
    (h : UK3D.create env x y z v args = .ok s) (hmn : args.variogramModel = .name m) {ea : UK3DExecArgs}
    {rest : List ℝ} {c : ℝ} (hc : s.params = rest ++ [c]) (hv : ValidModel m s.params)
    {exact : Bool} (hex : args.exactValues = .bool exact) (hp : args.pseudoInv = false)
    {r : ExecResult} (hr : s.execute ea = .ok r) {j : ℕ} {p : ℝ × ℝ × ℝ} (hq : queryAt3 ea.toExec j = some p)
    (hm : maskedAt3 ea.toExec j = false)
    (hs : "specified" ∈ args.driftTerms → ea.toExec.backend = "vectorized")
    (hfar : exact = true → ∀ i, 1 / 10 ^ 10 < uk3Distance args p (x i, y i, z i)) :
    ∀ var, r.ss[j]? = some (some var) → c * (1 + 1 / (n : ℝ)) ≤ var := by
  obtain ⟨hmb, -, -, γ, hb, hval, -⟩ := hv.builtin
  obtain ⟨hev, -⟩ := chosen_evaluates hb hmb (UK3D.create_function h hmn)
  rw [hc] at hb hv
  obtain ⟨hc0, γ₀, hv0, hγ₀⟩ := split_nugget hv hb
  obtain ⟨e, hemb⟩ := distance3_embed _
  have hw0 := hv0.withPoint' (D := uk3Distance args) hemb (fun i => (x i, y i, z i)) p (exact := exact)
    fun he i hi => absurd hi (not_le.2 (hfar he i))
  obtain ⟨est, var', -, hvv, hbl⟩ := C28_best_uk3d h hev hex hs (hval.data (D := uk3Distance args) hemb fun i => (x i, y i, z i)) hr hq hm (.inl hp)
  have key := Spec.IsBlue.floor (S := Finset.univ) hγ₀ hc0 hfar (by simpa using hbl) hw0
  intro var hj
  rw [hvv] at hj
  obtain rfl : var' = var := Option.some.inj (Option.some.inj hj)
  simpa using key

namespace Demo

theorem sph5_valid : ValidModel "spherical" (listMeaning "spherical" [5, 2, 2]) :=
  .inr (.inr ⟨3, 2, 2, by simp, by simp [listMeaning]; norm_num, by norm_num, by norm_num, by norm_num⟩)

theorem sph5_grows : Growing (listMeaning "spherical" [5, 2, 2]) := ⟨3, [2, 2], by simp [listMeaning]; norm_num, by norm_num⟩

theorem sph_grown : Grown (listMeaning "spherical" [3, 2, 1]) (listMeaning "spherical" [5, 2, 2]) :=
  .inr ⟨2, 2, 1, 3, 2, by simp [listMeaning]; norm_num, by simp [listMeaning]; norm_num, by norm_num, by norm_num⟩

theorem sph_nugget : listMeaning "spherical" [3, 2, 1] = [2, 2] ++ [1] := by simp [listMeaning]; norm_num

/-- Sill 3 and nugget 1 raised to sill 5 and nugget 2: the variance does not decrease; it is at least 5/4 to begin with. -/
example (z z' : Fin 4 → ℝ) (p : ℝ × ℝ) (hfar : ∀ i, 1 / 10 ^ 10 < okDistance (any "spherical" [3, 2, 1]) p (x4 i, y4 i)) :
    ∃ s s' r r' var var', OK.create stdEnv x4 y4 z (any "spherical" [3, 2, 1]) = .ok s ∧
      OK.create stdEnv x4 y4 z' (any "spherical" [5, 2, 2]) = .ok s' ∧
      s.execute stdEnv (pts [p] "loop") = .ok r ∧ s'.execute stdEnv (pts [p] "loop") = .ok r' ∧
      r.ss[0]? = some (some var) ∧ r'.ss[0]? = some (some var') ∧ 5 / 4 ≤ var ∧ var ≤ var' := by
  obtain ⟨s, h, hp, ha, hr⟩ := any_ok (n := 4) (by norm_num) z sph_valid sph_grows inj4
  obtain ⟨s', h', hp', ha', hr'⟩ := any_ok (n := 4) (by norm_num) z' sph5_valid sph5_grows inj4
  obtain ⟨r, hr⟩ := hr (pts [p] "loop") (pts_wellPosed [p] "loop").1 (by intro k hk; cases hk) (by intro k hk; cases hk)
    (pts_wellPosed [p] "loop").2 (.inl rfl)
  obtain ⟨r', hr'⟩ := hr' (pts [p] "loop") (pts_wellPosed [p] "loop").1 (by intro k hk; cases hk) (by intro k hk; cases hk)
    (pts_wellPosed [p] "loop").2 (.inl rfl)
  obtain ⟨hb, -, -, γ, hγ, -⟩ := sph5_valid.builtin
  obtain ⟨hev, -⟩ := chosen_evaluates hγ hb (OK.create_function h' (m := "spherical") rfl)
  rw [← hp'] at hev
  obtain ⟨var, var', h1, h2, h3⟩ := C75_builtin_2d h (m := "spherical") rfl h' (ha _ (by intro k hk; cases hk)) (ha' _ (by intro k hk; cases hk)) rfl (hp ▸ sph_valid) (hp' ▸ sph5_valid)
    (by rw [hp, hp']; exact sph_grown) hev (exact := true) rfl (.inl rfl) hr hr' (j := 0) (j' := 0) (p := p) (by simp [queryAt, pts]) (by simp [queryAt, pts])
    rfl rfl rfl (.inl rfl) (fun _ i hi => absurd hi (not_le.2 (hfar i)))
  have h4 := C75_nugget_2d h (m := "spherical") rfl (ha _ (by intro k hk; cases hk)) rfl (hp.trans sph_nugget) (hp ▸ sph_valid) (exact := true) rfl (.inl rfl) hr
    (j := 0) (p := p) (by simp [queryAt, pts]) rfl  (fun _ => hfar)
  have h5 := h4.1 var h1 rfl
  exact ⟨s, s', r, r', var, var', h, h', hr, hr', h1, h2, by norm_num at h5; linarith, h3⟩

/-- Sill 3 and nugget 1 raised to sill 5 and nugget 2: the variance does not decrease; it is at least 5/4 to begin with. -/
example (v v' : Fin 4 → ℝ) (p : ℝ × ℝ × ℝ) (hfar : ∀ i, 1 / 10 ^ 10 < ok3Distance (any3 "spherical" [3, 2, 1]) p (x4 i, y4 i, z4 i)) :
    ∃ s s' r r' var var', OK3D.create stdEnv x4 y4 z4 v (any3 "spherical" [3, 2, 1]) = .ok s ∧
      OK3D.create stdEnv x4 y4 z4 v' (any3 "spherical" [5, 2, 2]) = .ok s' ∧
      s.execute stdEnv (pts3 [p] "loop") = .ok r ∧ s'.execute stdEnv (pts3 [p] "loop") = .ok r' ∧
      r.ss[0]? = some (some var) ∧ r'.ss[0]? = some (some var') ∧ 5 / 4 ≤ var ∧ var ≤ var' := by
  obtain ⟨s, h, hp, hr⟩ := any3_ok (n := 4) (by norm_num) v sph_valid sph_grows inj4'
  obtain ⟨s', h', hp', hr'⟩ := any3_ok (n := 4) (by norm_num) v' sph5_valid sph5_grows inj4'
  obtain ⟨r, hr⟩ := hr (pts3 [p] "loop") (pts_wellPosed3 [p] "loop").1 (by intro k hk; cases hk) (by intro k hk; cases hk)
    (pts_wellPosed3 [p] "loop").2 (.inl rfl)
  obtain ⟨r', hr'⟩ := hr' (pts3 [p] "loop") (pts_wellPosed3 [p] "loop").1 (by intro k hk; cases hk) (by intro k hk; cases hk)
    (pts_wellPosed3 [p] "loop").2 (.inl rfl)
  obtain ⟨hb, -, -, γ, hγ, -⟩ := sph5_valid.builtin
  obtain ⟨hev, -⟩ := chosen_evaluates hγ hb (OK3D.create_function h' (m := "spherical") rfl)
  rw [← hp'] at hev
  obtain ⟨var, var', h1, h2, h3⟩ := C75_builtin_3d h (m := "spherical") rfl h' stdEnv_knn (by intro k hk; cases hk) (by intro k hk; cases hk) (hp ▸ sph_valid) (hp' ▸ sph5_valid)
    (by rw [hp, hp']; exact sph_grown) hev (exact := true) rfl (.inl rfl) hr hr' (j := 0) (j' := 0) (p := p) (by simp [queryAt3, pts3]) (by simp [queryAt3, pts3])
    rfl rfl rfl (.inl rfl) (fun _ i hi => absurd hi (not_le.2 (hfar i)))
  have h4 := C75_nugget_3d h (m := "spherical") rfl stdEnv_knn (by intro k hk; cases hk) (hp.trans sph_nugget) (hp ▸ sph_valid) (exact := true) rfl (.inl rfl) hr
    (j := 0) (p := p) (by simp [queryAt3, pts3]) rfl  (fun _ => hfar)
  have h5 := h4.1 var h1 rfl
  exact ⟨s, s', r, r', var, var', h, h', hr, hr', h1, h2, by norm_num at h5; linarith, h3⟩

/-- Sill 3 and nugget 1 raised to sill 5 and nugget 2: the variance does not decrease; it is at least 5/4 to begin with. -/
example (z z' : Fin 4 → ℝ) (p : ℝ × ℝ) (hfar : ∀ i, 1 / 10 ^ 10 < ukDistance (uany "spherical" [3, 2, 1]) p (x4 i, y4 i)) :
    ∃ s s' r r' var var', UK.create stdEnv x4 y4 z (uany "spherical" [3, 2, 1]) = .ok s ∧
      UK.create stdEnv x4 y4 z' (uany "spherical" [5, 2, 2]) = .ok s' ∧
      s.execute { toExec := pts [p] "loop" } = .ok r ∧ s'.execute { toExec := pts [p] "loop" } = .ok r' ∧
      r.ss[0]? = some (some var) ∧ r'.ss[0]? = some (some var') ∧ 5 / 4 ≤ var ∧ var ≤ var' := by
  obtain ⟨s, h, hp, -, hr⟩ := uany_ok (n := 4) (by norm_num) z sph_valid sph_grows inj4 plane4
  obtain ⟨s', h', hp', -, hr'⟩ := uany_ok (n := 4) (by norm_num) z' sph5_valid sph5_grows inj4 plane4
  obtain ⟨r, hr⟩ := hr { toExec := pts [p] "loop" } (pts_wellPosed [p] "loop").1 (pts_wellPosed [p] "loop").2 (.inr rfl)
  obtain ⟨r', hr'⟩ := hr' { toExec := pts [p] "loop" } (pts_wellPosed [p] "loop").1 (pts_wellPosed [p] "loop").2 (.inr rfl)
  obtain ⟨hb, -, -, γ, hγ, -⟩ := sph5_valid.builtin
  obtain ⟨hev, -⟩ := chosen_evaluates hγ hb (UK.create_function h' (m := "spherical") rfl)
  rw [← hp'] at hev
  obtain ⟨var, var', h1, h2, h3⟩ := C75_builtin_uk h (m := "spherical") rfl h'  (hp ▸ sph_valid) (hp' ▸ sph5_valid)
    (by rw [hp, hp']; exact sph_grown) hev (exact := true) rfl rfl hr hr' (j := 0) (j' := 0) (p := p) (by simp [queryAt, pts]) (by simp [queryAt, pts])
    rfl rfl (by simp [uany]) (by simp [uany]) rfl (fun _ i hi => absurd hi (not_le.2 (hfar i)))
  have h4 := C75_nugget_uk h (m := "spherical") rfl  (hp.trans sph_nugget) (hp ▸ sph_valid) (exact := true) rfl rfl hr
    (j := 0) (p := p) (by simp [queryAt, pts]) rfl (by simp [uany]) (fun _ => hfar)
  have h5 := h4 var h1
  exact ⟨s, s', r, r', var, var', h, h', hr, hr', h1, h2, by norm_num at h5; linarith, h3⟩

/-- Sill 3 and nugget 1 raised to sill 5 and nugget 2: the variance does not decrease; it is at least 5/4 to begin with. -/
example (v v' : Fin 4 → ℝ) (p : ℝ × ℝ × ℝ) (hfar : ∀ i, 1 / 10 ^ 10 < uk3Distance (uany3 "spherical" [3, 2, 1]) p (x4 i, y4 i, z4 i)) :
    ∃ s s' r r' var var', UK3D.create stdEnv x4 y4 z4 v (uany3 "spherical" [3, 2, 1]) = .ok s ∧
      UK3D.create stdEnv x4 y4 z4 v' (uany3 "spherical" [5, 2, 2]) = .ok s' ∧
      s.execute { toExec := pts3 [p] "loop" } = .ok r ∧ s'.execute { toExec := pts3 [p] "loop" } = .ok r' ∧
      r.ss[0]? = some (some var) ∧ r'.ss[0]? = some (some var') ∧ 5 / 4 ≤ var ∧ var ≤ var' := by
  obtain ⟨s, h, hp, -, hr⟩ := uany3_ok (n := 4) (by norm_num) v sph_valid sph_grows inj4' space4
  obtain ⟨s', h', hp', -, hr'⟩ := uany3_ok (n := 4) (by norm_num) v' sph5_valid sph5_grows inj4' space4
  obtain ⟨r, hr⟩ := hr { toExec := pts3 [p] "loop" } (pts_wellPosed3 [p] "loop").1 (pts_wellPosed3 [p] "loop").2 (.inr rfl)
  obtain ⟨r', hr'⟩ := hr' { toExec := pts3 [p] "loop" } (pts_wellPosed3 [p] "loop").1 (pts_wellPosed3 [p] "loop").2 (.inr rfl)
  obtain ⟨hb, -, -, γ, hγ, -⟩ := sph5_valid.builtin
  obtain ⟨hev, -⟩ := chosen_evaluates hγ hb (UK3D.create_function h' (m := "spherical") rfl)
  rw [← hp'] at hev
  obtain ⟨var, var', h1, h2, h3⟩ := C75_builtin_uk3d h (m := "spherical") rfl h'  (hp ▸ sph_valid) (hp' ▸ sph5_valid)
    (by rw [hp, hp']; exact sph_grown) hev (exact := true) rfl rfl hr hr' (j := 0) (j' := 0) (p := p) (by simp [queryAt3, pts3]) (by simp [queryAt3, pts3])
    rfl rfl (by simp [uany3]) (by simp [uany3]) rfl (fun _ i hi => absurd hi (not_le.2 (hfar i)))
  have h4 := C75_nugget_uk3d h (m := "spherical") rfl  (hp.trans sph_nugget) (hp ▸ sph_valid) (exact := true) rfl rfl hr
    (j := 0) (p := p) (by simp [queryAt3, pts3]) rfl (by simp [uany3]) (fun _ => hfar)
  have h5 := h4 var h1
  exact ⟨s, s', r, r', var, var', h, h', hr, hr', h1, h2, by norm_num at h5; linarith, h3⟩

/-- There are such places. -/
example (i : Fin 4) : 1 / 10 ^ 10 < okDistance (any "spherical" [3, 2, 1]) (5, 5) (x4 i, y4 i) := by
  refine lt_of_lt_of_le (by norm_num : (1 : ℝ) / 10 ^ 10 < 1) ?_
  simp only [okDistance, distance2, anisoDist2, any, effScaling, effAngle, rad, if_true]
  refine Real.le_sqrt_of_sq_le ?_
  fin_cases i <;> simp [x4, y4] <;> norm_num

end Demo

end
end PyKrige
