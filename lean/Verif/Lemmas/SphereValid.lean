import Verif.Lemmas.Sphere
import Verif.Lemmas.ModelValid
import Verif.Lemmas.SphereSph
import Verif.Spec.Sphere
import Verif.Props.C30

/-! Built-in variograms of the great-circle distance. -/

set_option linter.unusedSectionVars false

namespace PyKrige
noncomputable section
open Spec

theorem norm_onSphere (p : ℝ × ℝ) : ‖onSphere p‖ = 1 := norm_sphereVec _ _

theorem sphereDist_zero {p q : ℝ × ℝ} : sphereDist p q = 0 ↔ onSphere p = onSphere q := by
  rw [← greatCircle_eq]; exact C30_zero_iff _ _ _ _

theorem sphereDist_nonneg (p q : ℝ × ℝ) : 0 ≤ sphereDist p q := by
  rw [← greatCircle_eq]; exact (C30_range _ _ _ _).1

section
variable {ι : Type} [Fintype ι]

theorem condNeg_sphereDist (p : ι → ℝ × ℝ) : CondNeg fun i j => sphereDist (p i) (p j) :=
  (condNeg_angle fun i => norm_onSphere (p i)).smul (by have := Real.pi_pos; positivity)

theorem strictCondNeg_sphereDist {p : ι → ℝ × ℝ} (h : ∀ i j, i ≠ j → onSphere (p i) ≠ onSphere (p j))
    (h' : ∀ i j, onSphere (p i) ≠ -onSphere (p j)) : StrictCondNeg fun i j => sphereDist (p i) (p j) :=
  (strictCondNeg_angle (fun i => norm_onSphere (p i)) fun i j hij => ⟨h i j hij, h' i j⟩).smul
    (by have := Real.pi_pos; positivity)

theorem sphereDist_pos {p : ι → ℝ × ℝ} (h : ∀ i j, i ≠ j → onSphere (p i) ≠ onSphere (p j)) (i j : ι) (hij : i ≠ j) :
    0 < sphereDist (p i) (p j) :=
  lt_of_le_of_ne (sphereDist_nonneg _ _) fun e => h i j hij (sphereDist_zero.1 e.symm)

/-- A table that is conditionally negative definite, plus a nugget. -/
theorem sphere_semivar {γ : ℝ → ℝ} {B : ℝ → ℝ} {c0 : ℝ} (h0 : B 0 = 0) (h : ∀ d, γ d = B d + c0) (hc : 0 ≤ c0)
    {p : ι → ℝ × ℝ} (hB : CondNeg fun i j => B (sphereDist (p i) (p j))) :
    CondNeg (semivar γ fun i j => sphereDist (p i) (p j)) ∧
      (0 < c0 ∨ StrictCondNeg (fun i j => B (sphereDist (p i) (p j))) →
        StrictCondNeg (semivar γ fun i j => sphereDist (p i) (p j))) :=
  ⟨condNeg_semivar (fun i j => sphereDist_comm _ _) (fun i => by rw [sphereDist_self, h0]) (fun i j _ => h _) hc hB,
    fun hs => strictCondNeg_semivar (fun i j => sphereDist_comm _ _) (fun i => by rw [sphereDist_self, h0])
      (fun i j _ => h _) hc hB hs.symm⟩

end

/-- The models of `Spec.ValidOnSphere`. -/
theorem Spec.ValidOnSphere.builtin {m : String} {ps : List ℝ} (h : ValidOnSphere m ps) :
    ValidModel m ps ∧ ∃ γ, Builtin m ps γ ∧ ∀ (ι : Type) [Fintype ι] (p : ι → ℝ × ℝ),
      CondNeg (semivar γ fun i j => sphereDist (p i) (p j)) ∧
      (SeparatesOnSphere m ps p → StrictCondNeg (semivar γ fun i j => sphereDist (p i) (p j))) := by
  have last : ∀ {l : List ℝ} {a : ℝ}, PositiveNugget (l ++ [a]) → 0 < a := by
    rintro l a ⟨rest, c', e, hp⟩
    have := congrArg List.getLast? e
    simp at this
    subst this
    exact hp
  have first : ∀ {l : List ℝ} {a : ℝ}, Growing (a :: l) → 0 < a := by
    rintro l a ⟨a', rest, e, hp⟩
    cases e
    exact hp
  rcases h with ⟨a, c, rfl, rfl, ha, hc⟩ | ⟨a, e, c, rfl, rfl, ha, h0, h1, hc⟩ | ⟨a, r, c, rfl | rfl, rfl, ha, hr, hc⟩
  · refine ⟨.inl ⟨a, c, rfl, rfl, ha, hc⟩, _, builtin_linear.2 rfl, fun ι _ p => ?_⟩
    obtain ⟨h1, h2⟩ := sphere_semivar (γ := linearFormula a c) (B := fun d => a * d) (mul_zero a) (fun d => rfl) hc
      (p := p) ((condNeg_sphereDist p).smul ha)
    refine ⟨h1, fun hs => h2 (hs.imp (fun h => last (l := [a]) h) fun ⟨hg, hd, hp⟩ => ?_)⟩
    exact (strictCondNeg_sphereDist hd (hp (.inl rfl))).smul (first hg)
  · refine ⟨.inr (.inl ⟨a, e, c, rfl, rfl, ha, h0, by linarith, hc⟩), _, builtin_power.2 rfl, fun ι _ p => ?_⟩
    have key : CondNeg (fun i j => sphereDist (p i) (p j) ^ e) ∧ (Growing [a, e, c] →
        (∀ i j, i ≠ j → onSphere (p i) ≠ onSphere (p j)) →
        (Proportional "power" [a, e, c] → ∀ i j, onSphere (p i) ≠ -onSphere (p j)) →
        StrictCondNeg fun i j => sphereDist (p i) (p j) ^ e) := by
      rcases h1.lt_or_eq with h1 | rfl
      · exact ⟨(condNeg_sphereDist p).rpow (fun i j => sphereDist_nonneg _ _) h0 h1, fun _ hd _ =>
          (condNeg_sphereDist p).rpow_strict (fun i => sphereDist_self _) (sphereDist_pos hd) h0 h1⟩
      · simp only [Real.rpow_one]
        exact ⟨condNeg_sphereDist p, fun _ hd hp => strictCondNeg_sphereDist hd (hp (.inr ⟨a, c, rfl, rfl⟩))⟩
    obtain ⟨h1, h2⟩ := sphere_semivar (γ := powerFormula a e c) (B := fun d => a * d ^ e)
      (by simp [Real.zero_rpow h0.ne']) (fun d => rfl) hc (p := p) (key.1.smul ha)
    refine ⟨h1, fun hs => h2 (hs.imp (fun h => last (l := [a, e]) h) fun ⟨hg, hd, hp⟩ => ?_)⟩
    exact (key.2 hg hd hp).smul (first hg)
  · refine ⟨.inr (.inr ⟨a, r, c, by simp, rfl, ha, hr, hc⟩), _, builtin_exponential.2 rfl, fun ι _ p => ?_⟩
    obtain ⟨h1, h2⟩ := sphere_semivar (γ := exponentialFormula a r c)
      (B := fun d => a * (1 - Real.exp (-(1 / (r / 3) * d)))) (by simp) (fun d => exponential_eq d) hc
      (p := p) ((exp_form (condNeg_sphereDist p) (by positivity)).smul ha)
    refine ⟨h1, fun hs => h2 (hs.imp (fun h => last (l := [a, r]) h) fun ⟨hg, hd, hp⟩ => ?_)⟩
    exact (exp_form_strict (condNeg_sphereDist p) (fun i => sphereDist_self _) (sphereDist_pos hd)
      (by positivity)).smul (first hg)
  · refine ⟨.inr (.inr ⟨a, r, c, by simp, rfl, ha, hr, hc⟩), _, builtin_spherical.2 rfl, fun ι _ p => ?_⟩
    obtain ⟨h1, h2⟩ := sphere_semivar (γ := sphericalFormula a r c) (B := sphericalFormula a r 0)
      (by simp [sphericalFormula, hr.le]) (fun d => by unfold sphericalFormula; split_ifs <;> ring) hc
      (p := p) (spherical_sphere_base ha hr fun i => norm_onSphere (p i))
    refine ⟨h1, fun hs => h2 (hs.imp (fun h => last (l := [a, r]) h) fun ⟨hg, hd, hp⟩ => ?_)⟩
    exact spherical_sphere_strict (first hg) hr (fun i => norm_onSphere (p i)) fun i j e => by
      by_contra hij
      exact hd i j hij e

/-- A variogram valid on the sphere is valid on the data and one more point. -/
theorem sphere_withPoint {γ : ℝ → ℝ} (h : ∀ (ι : Type) [Fintype ι] (p : ι → ℝ × ℝ),
    CondNeg (semivar γ fun i j => sphereDist (p i) (p j))) {n : ℕ} (x : Fin n → ℝ × ℝ) (q : ℝ × ℝ) {exact : Bool}
    (hc : Clear exact γ fun i => sphereDist q (x i)) :
    CondNeg (withPoint (semivar γ fun i j => sphereDist (x i) (x j)) (semivarTo exact γ fun i => sphereDist q (x i))) := by
  classical
  by_cases hs : exact = true ∧ ∃ i, sphereDist q (x i) ≤ 1 / 10 ^ 10 ∧ ∀ k, k ≠ i → 1 / 10 ^ 10 < sphereDist q (x k)
  · obtain ⟨rfl, i, hi, hk⟩ := hs
    have hq : onSphere q = onSphere (x i) := sphereDist_zero.1 (hc rfl i hi).1
    have := (h _ x).comap (fun o : Option (Fin n) => o.getD i)
    refine (congrArg CondNeg ?_).mp this
    have key : ∀ k, semivarTo true γ (fun i => sphereDist q (x i)) k =
        semivar γ (fun i j => sphereDist (x i) (x j)) i k := fun k => by
      unfold semivarTo semivar
      by_cases hki : k = i
      · subst hki; rw [if_pos ⟨rfl, hi⟩, if_pos rfl]
      · rw [if_neg (by simpa using hk k hki), if_neg (Ne.symm hki)]
        unfold sphereDist
        rw [hq]
    funext a b
    cases a <;> cases b
    · simp [Spec.withPoint, semivar]
    · simp [Spec.withPoint, key]
    · simp only [Spec.withPoint, key, Option.getD]
      exact semivar_symm (fun i j => sphereDist_comm _ _) _ _
    · rfl
  · have key : ∀ k, semivarTo exact γ (fun i => sphereDist q (x i)) k = γ (sphereDist q (x k)) := fun k => by
      unfold semivarTo
      split
      · next hk =>
        obtain ⟨h1, h2⟩ := hc hk.1 k hk.2
        rcases h2 with h2 | h2
        · have h1' : sphereDist q (x k) = 0 := h1
          rw [h1', h2]
        · exact absurd ⟨hk.1, k, hk.2, h2⟩ hs
      · rfl
    have := h (Option (Fin n)) fun o => o.elim q x
    refine (congrArg CondNeg ?_).mp this
    funext a b
    cases a <;> cases b
    · simp [Spec.withPoint, semivar]
    · simp [Spec.withPoint, key, semivar]
    · simp [Spec.withPoint, key, semivar, sphereDist_comm]
    · simp [Spec.withPoint, semivar]

theorem okDistance_sphere {args : OKArgs} (h : args.coordinatesType = "geographic") (p q : ℝ × ℝ) :
    okDistance args p q = sphereDist p q := by
  unfold okDistance distance2
  rw [if_neg (by rw [h]; decide)]

end
end PyKrige
