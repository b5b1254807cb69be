import Mathlib.Topology.Algebra.Module.FiniteDimension
import Mathlib.Topology.MetricSpace.Pseudo.Lemmas
import Mathlib.Analysis.SpecialFunctions.Log.Basic
import Mathlib.Analysis.SpecialFunctions.Pow.Continuity
import Mathlib.Topology.LocallyFinite
import Verif.Lemmas.PWCreate
import Verif.Lemmas.ArgDist
import Verif.Lemmas.OnlyDist
import Verif.Lemmas.Nearest
import Verif.Lemmas.Perm

/-! Continuity of the answers in the query location. -/

namespace PyKrige
noncomputable section
open Spec Matrix Filter Topology

section answer
variable {ι κ : Type} [Fintype ι] [Fintype κ] [DecidableEq ι] [DecidableEq κ]

theorem krigAnswer_continuous (b : Bool) (G : ι → ι → ℝ) (F : κ → ι → ℝ) (z : ι → ℝ) :
    Continuous fun gf : (ι → ℝ) × (κ → ℝ) => krigAnswer b G F z gf.1 gf.2 := by
  have h1 : Continuous fun gf : (ι → ℝ) × (κ → ℝ) => krigRhs gf.1 gf.2 1 := by
    refine continuous_pi fun k => ?_
    rcases k with i | l | u
    · exact ((continuous_apply i).comp continuous_fst).neg
    · exact (continuous_apply l).comp continuous_snd
    · exact continuous_const
  have h2 : Continuous fun gf : (ι → ℝ) × (κ → ℝ) => krigInv b (krigMat G F) *ᵥ krigRhs gf.1 gf.2 1 :=
    Continuous.matrix_mulVec continuous_const h1
  have h3 : ∀ k, Continuous fun gf : (ι → ℝ) × (κ → ℝ) => (krigInv b (krigMat G F) *ᵥ krigRhs gf.1 gf.2 1) k :=
    fun k => (continuous_apply k).comp h2
  unfold krigAnswer answerOf estimate krigingVariance
  refine Continuous.prodMk ?_ ?_
  · exact continuous_finsetSum _ fun i _ => (h3 _).mul continuous_const
  · refine Continuous.sub (Continuous.sub ?_ ?_) (h3 _)
    · exact continuous_finsetSum _ fun i _ => (h3 _).mul ((continuous_apply i).comp continuous_fst)
    · exact continuous_finsetSum _ fun i _ => (h3 _).mul ((continuous_apply i).comp continuous_snd)

end answer

/-- Semivariances to the query point change continuously. -/
theorem semivarTo_continuousWithinAt {α ι : Type} [TopologicalSpace α] {d : α → ι → ℝ} {S : Set α} {p : α} {i : ι}
    {γ : ℝ → ℝ} (hγ : ContinuousOn γ (Set.Ici 0)) (hd : ContinuousWithinAt (fun q => d q i) S p)
    (h0 : ∀ q, 0 ≤ d q i) {exact : Bool} (he : exact = true → d p i ≠ 1 / 10 ^ 10) :
    ContinuousWithinAt (fun q => semivarTo exact γ (d q) i) S p := by
  have hc : ContinuousWithinAt (fun q => γ (d q i)) S p :=
    ContinuousWithinAt.comp (t := Set.Ici 0) (hγ _ (h0 p)) hd fun q _ => h0 q
  unfold semivarTo
  cases exact with
  | false => simpa using hc
  | true =>
    simp only [true_and]
    rcases lt_or_gt_of_ne (he rfl) with h | h
    · have : (fun _ => (0 : ℝ)) =ᶠ[𝓝[S] p] fun q => if d q i ≤ 1 / 10 ^ 10 then 0 else γ (d q i) := by
        filter_upwards [hd.tendsto.eventually_lt_const h] with q hq
        rw [if_pos hq.le]
      refine ContinuousWithinAt.congr_of_eventuallyEq continuousWithinAt_const this.symm ?_
      rw [if_pos h.le]
    · refine hc.congr_of_eventuallyEq ?_ ?_
      · filter_upwards [hd.tendsto.eventually_const_lt h] with q hq
        rw [if_neg (not_le.2 hq)]
      · rw [if_neg (not_le.2 h)]

theorem anisoDist2_continuous (sc an : ℝ) (c : ℝ × ℝ) : Continuous fun q => anisoDist2 sc an q c := by
  unfold anisoDist2
  fun_prop

theorem distance3_continuous (an : Aniso3) (c : ℝ × ℝ × ℝ) : Continuous fun q => distance3 an q c := by
  unfold distance3 rotZ rotY rotX
  dsimp only
  fun_prop

theorem onSphere_ne_zero (p : ℝ × ℝ) : onSphere p ≠ 0 := by
  intro h
  have h1 : ∀ i, onSphere p i = 0 := fun i => by rw [h]; rfl
  have a := h1 0
  have b := h1 1
  have c := h1 2
  simp only [onSphere, PiLp.toLp_apply, Matrix.cons_val_zero, Matrix.cons_val_one, Matrix.cons_val] at a b c
  have e1 := Real.sin_sq_add_cos_sq (rad p.1)
  have e2 := Real.sin_sq_add_cos_sq (rad p.2)
  have e3 : (Real.cos (rad p.1) * Real.cos (rad p.2)) ^ 2 + (Real.sin (rad p.1) * Real.cos (rad p.2)) ^ 2 +
      Real.sin (rad p.2) ^ 2 = 1 := by
    linear_combination Real.cos (rad p.2) ^ 2 * e1 + e2
  rw [a, b, c] at e3
  norm_num at e3

theorem onSphere_continuous : Continuous onSphere := by
  unfold onSphere rad
  refine (PiLp.continuous_toLp 2 _).comp ?_
  refine continuous_pi fun i => ?_
  fin_cases i <;> simp <;> fun_prop

theorem sphereDist_continuous (c : ℝ × ℝ) : Continuous fun q => sphereDist q c := by
  unfold sphereDist
  refine continuous_const.mul ?_
  refine continuous_iff_continuousAt.2 fun q => ?_
  have := InnerProductGeometry.continuousAt_angle (x := (onSphere q, onSphere c)) (onSphere_ne_zero q) (onSphere_ne_zero c)
  exact ContinuousAt.comp (f := fun q => (onSphere q, onSphere c)) (g := fun y : EuclideanSpace ℝ (Fin 3) × EuclideanSpace ℝ (Fin 3) =>
    InnerProductGeometry.angle y.1 y.2) this (onSphere_continuous.prodMk continuous_const).continuousAt

theorem okDistance_continuous (args : OKArgs) (c : ℝ × ℝ) : Continuous fun q => okDistance args q c := by
  unfold okDistance distance2
  split
  · exact anisoDist2_continuous _ _ c
  · exact sphereDist_continuous c

/-- The data nearest to a point stay nearest nearby. -/
theorem sel_stable {α : Type} [TopologicalSpace α] {n : ℕ} {d : α → Fin n → ℝ} {p : α}
    (hd : ∀ i, ContinuousAt (fun q => d q i) p) (hinj : Function.Injective (d p)) {sel : α → List (Fin n)} {k : ℕ}
    (hl : ∀ q, (sel q).length = k ∧ (sel q).Nodup) (hs : ∀ q, ∀ i ∈ sel q, ∀ j, j ∉ sel q → d q i ≤ d q j) :
    ∀ᶠ q in 𝓝 p, (sel q).Perm (sel p) := by
  have h1 : ∀ᶠ q in 𝓝 p, ∀ i j, d p i < d p j → d q i < d q j := by
    refine eventually_all.2 fun i => eventually_all.2 fun j => ?_
    by_cases hij : d p i < d p j
    · filter_upwards [(hd i).eventually_lt (hd j) hij] with q hq _ using hq
    · exact Eventually.of_forall fun q hc => absurd hc hij
  filter_upwards [h1] with q hq
  refine nearest_unique (d := d p) ((hl q).1.trans (hl p).1.symm) (hl q).2 (hl p).2 (fun i hi j hj => ?_) (hs p) hinj
  by_contra hc
  exact absurd (hq j i (not_le.1 hc)) (not_lt.2 (hs q i hi j hj))

/-- From continuity to ε and δ. -/
theorem eps_delta {α : Type} [PseudoMetricSpace α] {a : α → ℝ × ℝ} {S : Set α} {p : α} (h : ContinuousWithinAt a S p)
    {ε : ℝ} (hε : 0 < ε) : ∃ δ > 0, ∀ q ∈ S, dist q p < δ → |(a q).1 - (a p).1| < ε ∧ |(a q).2 - (a p).2| < ε := by
  obtain ⟨δ, hδ, hh⟩ := Metric.continuousWithinAt_iff.1 h ε hε
  refine ⟨δ, hδ, fun q hq hd => ?_⟩
  have := hh hq hd
  rw [Prod.dist_eq, max_lt_iff, Real.dist_eq, Real.dist_eq] at this
  exact this

end
end PyKrige
