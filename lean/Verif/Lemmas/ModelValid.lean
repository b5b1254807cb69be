import Verif.Props.C02
import Verif.Props.C26
import Verif.Lemmas.Accepted

/-! The built-in variograms with admissible parameters are valid. -/

set_option linter.unusedSectionVars false

namespace PyKrige
noncomputable section
open Spec

theorem Spec.ValidModel.builtin {m : String} {ps : List ℝ} (h : ValidModel m ps) :
    m ∈ builtins ∧ m ≠ "custom" ∧ m ∈ compiledModels ∧ ∃ γ, Builtin m ps γ ∧ Valid3 γ ∧ (Growing ps → StrictlyValid3 γ) ∧
      (PositiveNugget ps → StronglyValid3 γ) := by
  rcases h with ⟨a, c, rfl, rfl, ha, hc⟩ | ⟨a, p, c, rfl, rfl, ha, h0, h2, hc⟩ | ⟨a, r, c, hm, rfl, ha, hr, hc⟩
  · refine ⟨by simp [builtins], by simp, by simp [compiledModels], _, builtin_linear.2 rfl, linear_valid ha hc, ?_, ?_⟩
    · rintro ⟨a', rest, e, hp⟩
      cases e
      exact linear_strict hp hc
    · rintro ⟨rest, c', e, hp⟩
      have := congrArg List.getLast? e
      simp at this
      subst this
      exact linear_strong ha hp
  · refine ⟨by simp [builtins], by simp, by simp [compiledModels], _, builtin_power.2 rfl, power_valid ha h0 h2 hc, ?_, ?_⟩
    · rintro ⟨a', rest, e, hp⟩
      cases e
      exact power_strict hp h0 h2 hc
    · rintro ⟨rest, c', e, hp⟩
      have := congrArg List.getLast? e
      simp at this
      subst this
      exact power_strong ha h0 h2 hp
  · have hg : Growing [a, r, c] → 0 < a := by rintro ⟨a', rest, e, hp⟩; cases e; exact hp
    have hn : PositiveNugget [a, r, c] → 0 < c := by
      rintro ⟨rest, c', e, hp⟩
      have := congrArg List.getLast? e
      simp at this
      subst this
      exact hp
    simp only [List.mem_cons, List.not_mem_nil, or_false] at hm
    rcases hm with rfl | rfl | rfl
    · exact ⟨by simp [builtins], by simp, by simp [compiledModels], _, builtin_gaussian.2 rfl, gaussian_valid ha hc,
        fun h => gaussian_strict (hg h) hr hc, fun h => gaussian_strong ha (hn h)⟩
    · exact ⟨by simp [builtins], by simp, by simp [compiledModels], _, builtin_exponential.2 rfl, exponential_valid ha hr hc,
        fun h => exponential_strict (hg h) hr hc, fun h => exponential_strong ha hr (hn h)⟩
    · exact ⟨by simp [builtins], by simp, by simp [compiledModels], _, builtin_spherical.2 rfl, spherical_valid ha hr hc,
        fun h => spherical_strict (hg h) hr hc, fun h => spherical_strong ha hr (hn h)⟩

theorem chooseFunction_builtin {m : String} {ps : List ℝ} {γ : ℝ → ℝ} (hb : Builtin m ps γ) (hm : m ∈ builtins) (fA : FunArg) :
    ∃ f, chooseFunction m fA = .ok (f, variogramFunctionName m) ∧ f ps = .ok γ := by
  obtain ⟨f, hf, h⟩ := hb
  have hc : m ≠ "custom" := by rintro rfl; simp [builtins] at hm
  refine ⟨f, ?_, h⟩
  unfold chooseFunction
  simp [hc, hf]

theorem chosen_evaluates {m : String} {ps : List ℝ} {γ : ℝ → ℝ} {f : VFun} {nm : String} {fA : FunArg}
    (hb : Builtin m ps γ) (hm : m ∈ builtins) (h : chooseFunction m fA = .ok (f, nm)) :
    f ps = .ok γ ∧ nm = variogramFunctionName m := by
  obtain ⟨f', hf, hg⟩ := chooseFunction_builtin hb hm fA
  rw [h] at hf
  simp only [Except.ok.injEq, Prod.mk.injEq] at hf
  obtain ⟨rfl, rfl⟩ := hf
  exact ⟨hg, rfl⟩

theorem Spec.ValidModel.rangeOk {m : String} {ps : List ℝ} (h : ValidModel m ps) :
    RangeOk (variogramFunctionName m) ps := by
  rcases h with ⟨a, c, rfl, rfl, ha, hc⟩ | ⟨a, p, c, rfl, rfl, ha, h0, h2, hc⟩ | ⟨a, r, c, hm, rfl, ha, hr, hc⟩
  · intro h; simp [variogramFunctionName] at h
  · intro h; simp [variogramFunctionName] at h
  · intro _; simpa using hr.ne'

/-- The semivariances between data at Euclidean distances. -/
theorem Valid3.data {γ : ℝ → ℝ} (h : Valid3 γ) {ι α : Type} [Fintype ι] {D : α → α → ℝ} {e : α → E3}
    (he : ∀ p q, D p q = ‖e p - e q‖) (x : ι → α) : CondNeg (semivar γ fun i j => D (x i) (x j)) := by
  simp only [he]
  exact h ι fun i => e (x i)

theorem strict_data {γ : ℝ → ℝ} {ps : List ℝ} (h1 : Growing ps → StrictlyValid3 γ)
    (h2 : PositiveNugget ps → StronglyValid3 γ) {ι α : Type} [Fintype ι] {D : α → α → ℝ} {e : α → E3}
    (he : ∀ p q, D p q = ‖e p - e q‖) (x : ι → α) (hs : Separates ps fun i j => D (x i) (x j)) :
    StrictCondNeg (semivar γ fun i j => D (x i) (x j)) := by
  simp only [he] at hs ⊢
  rcases hs with ⟨hg, hd⟩ | hp
  · refine h1 hg ι (fun i => e (x i)) fun i j hij => ?_
    by_contra hne
    exact hd i j hne (by simpa [sub_eq_zero] using hij)
  · exact h2 hp ι fun i => e (x i)

/-- The semivariances between data and prediction point. -/
theorem Valid3.withPoint' {γ : ℝ → ℝ} (h : Valid3 γ) {n : ℕ} {α : Type} {D : α → α → ℝ} {e : α → E3}
    (he : ∀ p q, D p q = ‖e p - e q‖) (x : Fin n → α) (q : α) {exact : Bool} (hc : Clear exact γ fun i => D q (x i)) :
    CondNeg (Spec.withPoint (semivar γ fun i j => D (x i) (x j)) (semivarTo exact γ fun i => D q (x i))) := by
  simp only [he] at hc ⊢
  exact h.withPoint (fun i => e (x i)) (e q) hc

theorem okDistance_embed {args : OKArgs} (h : args.coordinatesType = "euclidean") :
    ∃ e : ℝ × ℝ → E3, ∀ p q, okDistance args p q = ‖e p - e q‖ := by
  obtain ⟨e, he⟩ := anisoDist2_embed (effScaling args.variogramModel args.anisotropyScaling)
    (effAngle args.variogramModel args.anisotropyAngle)
  refine ⟨e, fun p q => ?_⟩
  unfold okDistance distance2
  rw [← he]
  simp [h]

/-- Lists of numbers are accepted as parameters. -/
theorem makeParams_list {m : String} {l : List ℝ} (h : ValidModel m (listMeaning m l)) :
    makeVariogramParameterList m (.list l) = .ok (some (listMeaning m l)) := by
  unfold listMeaning at h ⊢
  rcases h with ⟨a, c, rfl, e, -⟩ | ⟨a, p, c, rfl, e, -⟩ | ⟨a, r, c, hm, e, -⟩
  · split at e
    · rename_i s r n
      simp at e
    · subst e
      simp [makeVariogramParameterList]
  · split at e
    · rename_i s r n
      simp [makeVariogramParameterList]
    · subst e
      simp [makeVariogramParameterList]
  · split at e
    · rename_i s r n
      simp only [List.mem_cons, List.not_mem_nil, or_false] at hm
      rcases hm with rfl | rfl | rfl <;> simp [makeVariogramParameterList, pyGet]
    · rename_i hx
      exact absurd e (hx a r c)

end
end PyKrige
