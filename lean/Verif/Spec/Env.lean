import Verif.Model.Core
import Mathlib.Data.List.Sort

/-!
# What is assumed about external procedures

`scipy.spatial.cKDTree` and `scipy.optimize.least_squares` are not modelled; these predicates say what a
theorem may assume about them.  `stdEnv` is one environment with these properties (so the assumptions are
satisfiable).
-/

namespace PyKrige.Spec
noncomputable section

/-- `cKDTree(X).query(q, k)` with `k ≤ n` returns `k` different indices, nearest data first: nobody left out
is strictly nearer than somebody chosen. -/
def KnnSpec (env : Env) : Prop :=
  ∀ {m n : ℕ} (X : Fin n → Fin m → ℝ) (q : Fin m → ℝ) (k : ℕ), k ≤ n →
    (env.knn X q k).length = k ∧ (env.knn X q k).Nodup ∧
    ∀ i ∈ env.knn X q k, ∀ j, j ∉ env.knn X q k → euclid (X i) q ≤ euclid (X j) q

/-- `least_squares(..., x0, bounds)` returns a point with as many coordinates as the start vector, within the
bounds. -/
def LsqSpec (env : Env) : Prop :=
  ∀ res p, lsqChecks p = .ok () → p.lb.length = p.x0.length → p.ub.length = p.x0.length →
    (env.lsq res p).length = p.x0.length ∧
    (∀ b ∈ (env.lsq res p).zip (p.lb.zip p.ub), b.2.1 ≤ b.1 ∧ (b.1 : WithTop ℝ) ≤ b.2.2)

open Classical in
/-- The `k` nearest data by sorting. -/
def sortKnn {m n : ℕ} (X : Fin n → Fin m → ℝ) (q : Fin m → ℝ) (k : ℕ) : List (Fin n) :=
  ((List.finRange n).mergeSort fun i j => decide (euclid (X i) q ≤ euclid (X j) q)).take k

/-- An environment that meets the assumptions; the compiled extension is available, GSTools 1.5 is
installed. -/
def stdEnv : Env where
  lsq _ p := p.x0.map fun v => v.getD 0
  knn := sortKnn
  cAvailable := true
  outOfBounds _ := (0, 0)
  gstoolsVersion := some (1, 5)

theorem stdEnv_knn : KnnSpec stdEnv := by
  classical
  intro m n X q k hk
  change (sortKnn X q k).length = k ∧ (sortKnn X q k).Nodup ∧
    ∀ i ∈ sortKnn X q k, ∀ j, j ∉ sortKnn X q k → euclid (X i) q ≤ euclid (X j) q
  unfold sortKnn
  set le : Fin n → Fin n → Bool := fun i j => decide (euclid (X i) q ≤ euclid (X j) q) with hle
  set L := (List.finRange n).mergeSort le with hL
  have hperm : L.Perm (List.finRange n) := List.mergeSort_perm _ _
  have hlen : L.length = n := by rw [hperm.length_eq, List.length_finRange]
  have hnd : L.Nodup := hperm.nodup_iff.2 (List.nodup_finRange n)
  have hs : L.Pairwise fun a b => le a b = true := by
    apply List.pairwise_mergeSort
    · intro a b c h1 h2
      simp only [hle, decide_eq_true_eq] at *
      exact h1.trans h2
    · intro a b
      simp only [hle, Bool.or_eq_true, decide_eq_true_eq]
      exact le_total _ _
  refine ⟨by rw [List.length_take, hlen, min_eq_left hk], hnd.sublist (List.take_sublist _ _), ?_⟩
  intro i hi j hj
  have hjL : j ∈ L := hperm.mem_iff.2 (List.mem_finRange j)
  rw [← List.take_append_drop k L] at hjL hs
  rcases List.mem_append.1 hjL with h | h
  · exact absurd h hj
  · have := (List.pairwise_append.1 hs).2.2 i hi j h
    simpa [hle] using this

theorem stdEnv_lsq : LsqSpec stdEnv := by
  intro res p hc _ _
  refine ⟨by simp [stdEnv], ?_⟩
  unfold lsqChecks at hc
  split at hc
  · simp at hc
  · split at hc
    · simp at hc
    · next h =>
      simp only [not_not] at h
      intro b hb
      simp only [stdEnv, List.zip_map_left, List.mem_map, Prod.exists] at hb
      obtain ⟨x, c, c2, hm, rfl⟩ := hb
      obtain ⟨v, hv, h1, h2⟩ := h _ hm
      simp only at hv
      subst hv
      exact ⟨h1, h2⟩

end
end PyKrige.Spec
