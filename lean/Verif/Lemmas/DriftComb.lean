import Verif.Lemmas.DriftSpan
import Verif.Lemmas.BlueMono
import Verif.Props.C23
import Verif.Props.C47
import Mathlib.LinearAlgebra.Span.Basic
import Mathlib.LinearAlgebra.Finsupp.LinearCombination

/-! Drift functions that are combinations of others. -/

set_option linter.unusedSectionVars false

namespace PyKrige
noncomputable section
open Matrix Spec

/-- `u i` are the values of some functions at location `i`.  Each of the functions `u'` is a linear combination of
the functions `u` and constants. -/
def Spec.CombinationOf {ι : Type} (u u' : ι → List ℝ) : Prop :=
  ∀ l, (fun i => (u' i).getD l 0) ∈ Submodule.span ℝ (insert 1 (Set.range fun m i => (u i).getD m 0))

/-- The values of all drift terms of `UniversalKriging` at the data (`some i`) and at the query point (`none`). -/
def Spec.driftAt2 {n : ℕ} (args : UKArgs) (adj : ℝ × ℝ → Fin 2 → ℝ) (x y : Fin n → ℝ) (ea : UKExecArgs) (j : ℕ)
    (p : ℝ × ℝ) : Option (Fin n) → List ℝ
  | some i => driftTerms2 args adj (specAtDatum args.specifiedDrift i) (x i, y i)
  | none => driftTerms2 args adj (specAtQuery ea j) p

/-- The same in three dimensions. -/
def Spec.driftAt3 {n : ℕ} (args : UK3DArgs) (adj : ℝ × ℝ × ℝ → Fin 3 → ℝ) (x y z : Fin n → ℝ) (ea : UK3DExecArgs) (j : ℕ)
    (p : ℝ × ℝ × ℝ) : Option (Fin n) → List ℝ
  | some i => driftTerms3 args adj (specAtDatum args.specifiedDrift i) (x i, y i, z i)
  | none => driftTerms3 args adj (specAtQuery3 ea j) p

theorem comb_coeffs {n L L' : ℕ} {u u' : Option (Fin n) → List ℝ} (h : CombinationOf u u')
    {F : Fin L → Fin n → ℝ} {f : Fin L → ℝ} {F' : Fin L' → Fin n → ℝ} {f' : Fin L' → ℝ}
    (hF : ∀ i, List.ofFn (fun l => F l i) = u (some i)) (hf : List.ofFn f = u none)
    (hF' : ∀ i, List.ofFn (fun l => F' l i) = u' (some i)) (hf' : List.ofFn f' = u' none) :
    ∃ (A : Fin L' → Fin L → ℝ) (c : Fin L' → ℝ), (∀ l i, F' l i = ∑ m, A l m * F m i + c l) ∧
      ∀ l, f' l = ∑ m, A l m * f m + c l := by
  have key : ∀ l : Fin L', ∃ (a : Fin L → ℝ) (c : ℝ), (∀ i, F' l i = ∑ m, a m * F m i + c) ∧ f' l = ∑ m, a m * f m + c := by
    intro l
    let Φ : Fin L → Option (Fin n) → ℝ := fun m o => o.elim (f m) (F m)
    have hle : Submodule.span ℝ (insert 1 (Set.range fun m (i : Option (Fin n)) => (u i).getD m 0)) ≤
        Submodule.span ℝ (insert 1 (Set.range Φ)) := by
      rw [Submodule.span_le]
      rintro φ (rfl | ⟨m, rfl⟩)
      · exact Submodule.subset_span (Set.mem_insert _ _)
      · by_cases hm : m < L
        · refine Submodule.subset_span (Set.mem_insert_of_mem _ ⟨⟨m, hm⟩, ?_⟩)
          funext o
          cases o with
          | none => simp [Φ, ← hf, hm]
          | some i => simp [Φ, ← hF, hm]
        · have : (fun i => (u i).getD m 0) = 0 := by
            funext o
            cases o with
            | none => simp [← hf, hm]
            | some i => simp [← hF, hm]
          simp only [SetLike.mem_coe]
          rw [this]
          exact Submodule.zero_mem _
    obtain ⟨c, φ, hφ, e⟩ := Submodule.mem_span_insert.1 (hle (h l.val))
    obtain ⟨a, rfl⟩ := (Submodule.mem_span_range_iff_exists_fun ℝ).1 hφ
    refine ⟨a, c, fun i => ?_, ?_⟩
    · have := congrFun e (some i)
      rw [← hF'] at this
      simpa [Φ, add_comm] using this
    · have := congrFun e none
      rw [← hf'] at this
      simpa [Φ, add_comm] using this
  choose A c h1 h2 using key
  exact ⟨A, c, fun l i => h1 l i, h2⟩

/-- Two regular systems whose drift functions are combinations of each other have the same answers. -/
theorem KrigingEqs.comb {n L L' : ℕ} {u u' : Option (Fin n) → List ℝ} (h : CombinationOf u u') (h' : CombinationOf u' u)
    {F : Fin L → Fin n → ℝ} {f : Fin L → ℝ} {F' : Fin L' → Fin n → ℝ} {f' : Fin L' → ℝ}
    (hF : ∀ i, List.ofFn (fun l => F l i) = u (some i)) (hf : List.ofFn f = u none)
    (hF' : ∀ i, List.ofFn (fun l => F' l i) = u' (some i)) (hf' : List.ofFn f' = u' none)
    {G : Fin n → Fin n → ℝ} {g w w' : Fin n → ℝ} {ν : Fin L → ℝ} {ν' : Fin L' → ℝ} {μ μ' : ℝ}
    (hr' : Regular G F') (hk : KrigingEqs G F g f 1 w ν μ) (hk' : KrigingEqs G F' g f' 1 w' ν' μ') :
    w' = w ∧ krigingVariance g f' w' ν' μ' = krigingVariance g f w ν μ := by
  obtain ⟨A, c, a1, a2⟩ := comb_coeffs h hF hf hF' hf'
  obtain ⟨B, d, b1, b2⟩ := comb_coeffs h' hF' hf' hF hf
  have := change_drift (s := 1) (f' := f') a1 (fun l => by rw [a2]; ring) b1 hk
  obtain ⟨rfl, rfl, rfl⟩ := hk'.unique hr' this
  refine ⟨rfl, ?_⟩
  unfold krigingVariance
  have e2 : ∑ l, ν l * f l = ∑ m, (∑ l, B l m * ν l) * f' m + ∑ l, d l * ν l := by
    simp only [b2, mul_add, Finset.sum_add_distrib, Finset.mul_sum, Finset.sum_mul]
    rw [Finset.sum_comm]
    congr 1
    · refine Finset.sum_congr rfl fun m _ => Finset.sum_congr rfl fun l _ => ?_
      ring
    · exact Finset.sum_congr rfl fun l _ => by ring
  rw [e2]
  ring

/-- Each function is rescaled: `u' = c.1 u + c.2`. -/
theorem comb_affine {ι : Type} {u u' : ι → List ℝ} {cs : List (ℝ × ℝ)} (hl : ∀ i, (u i).length = cs.length)
    (h : ∀ i, u' i = List.zipWith (fun c v => c.1 * v + c.2) cs (u i)) : CombinationOf u u' := by
  intro l
  by_cases hc : l < cs.length
  · have e : (fun i => (u' i).getD l 0) = (cs[l].1 • fun i => (u i).getD l 0) + cs[l].2 • (1 : ι → ℝ) := by
      funext i
      have : l < (u i).length := by rw [hl]; exact hc
      simp [h, List.getElem?_zipWith, hc, this]
    rw [e]
    exact Submodule.add_mem _ (Submodule.smul_mem _ _ (Submodule.subset_span (Set.mem_insert_of_mem _ ⟨l, rfl⟩)))
      (Submodule.smul_mem _ _ (Submodule.subset_span (Set.mem_insert _ _)))
  · have e : (fun i => (u' i).getD l 0) = 0 := by
      funext i
      simp [h, List.getElem?_zipWith, hc]
    rw [e]
    exact Submodule.zero_mem _

/-- The inverse rescaling. -/
theorem comb_affine_inv {ι : Type} {u u' : ι → List ℝ} {cs : List (ℝ × ℝ)} (hl : ∀ i, (u i).length = cs.length)
    (h : ∀ i, u' i = List.zipWith (fun c v => c.1 * v + c.2) cs (u i)) (h0 : ∀ c ∈ cs, c.1 ≠ 0) :
    CombinationOf u' u := by
  refine comb_affine (cs := cs.map fun c => (c.1⁻¹, - c.1⁻¹ * c.2)) (fun i => by simp [h, hl]) fun i => ?_
  rw [h]
  have := hl i
  clear h hl
  generalize u i = v at this ⊢
  induction cs generalizing v with
  | nil =>
    simp at this
    simp [this]
  | cons c cs ih =>
    cases v with
    | nil => simp at this
    | cons a v =>
      simp only [List.map_cons, List.zipWith_cons_cons, List.cons.injEq]
      refine ⟨?_, ih (fun c hc => h0 c (by simp [hc])) v (by simpa using this)⟩
      have := h0 c (by simp)
      field_simp
      ring

/-- Every function of the list is in the other list. -/
theorem comb_of_mem {ι : Type} {u u' : ι → List ℝ}
    (h : ∀ l, (∀ i, (u' i).getD l 0 = 0) ∨ ∃ m, ∀ i, (u' i).getD l 0 = (u i).getD m 0) : CombinationOf u u' := by
  intro l
  rcases h l with h0 | ⟨m, hm⟩
  · have : (fun i => (u' i).getD l 0) = 0 := funext h0
    rw [this]
    exact Submodule.zero_mem _
  · have : (fun i => (u' i).getD l 0) = fun i => (u i).getD m 0 := funext hm
    rw [this]
    exact Submodule.subset_span (Set.mem_insert_of_mem _ ⟨m, rfl⟩)

end
end PyKrige
