import Verif.Lemmas.Relabel
import Verif.Lemmas.ArgDist
import Verif.Examples.Demo

/-!
# C15: the order of the data does not matter

`σ` is any renumbering of the data.  The reordered data are `x ∘ σ`, `y ∘ σ`, `z ∘ σ` (and, for universal kriging,
the reordered arrays of the specified drift, `Spec.reorderedUK`).

Only the cross-validation statistics (`epsilon`, `Q1`, ...) depend on the order - datum `i` is predicted from the
data before it - so with statistics the constructor may fail for one order and succeed for another; for this
reason the theorems assume that both constructions succeed, except `C15_create_ok`.  In a moving window the choice
among equally distant data is up to the KD-tree, hence the no-ties condition.
-/

namespace PyKrige
noncomputable section
open Matrix Spec

/-- The experimental variogram of any data. -/
theorem C15_experimental_variogram {n m : ℕ} (X : Fin n → Fin m → ℝ) (y : Fin n → ℝ) (nlags : ℕ) (ct : String)
    (σ : Fin n ≃ Fin n) :
    experimentalVariogram (fun i => X (σ i)) (fun i => y (σ i)) nlags ct = experimentalVariogram X y nlags ct :=
  experimentalVariogram_perm X y nlags ct σ

/-- Without statistics the constructor does not care about the order. -/
theorem C15_create_ok {n : ℕ} {env : Env} {x y z : Fin n → ℝ} {args : OKArgs} (hst : args.enableStatistics = false)
    (σ : Fin n ≃ Fin n) :
    (∃ s, OK.create env x y z args = .ok s) ↔
      ∃ s, OK.create env (fun i => x (σ i)) (fun i => y (σ i)) (fun i => z (σ i)) args = .ok s := by
  constructor
  · rintro ⟨s, h⟩
    exact (OK.create_perm h σ).2 hst
  · rintro ⟨s, h⟩
    have := (OK.create_perm h σ.symm).2 hst
    simpa using this

theorem C15_ok {n : ℕ} {env : Env} {x y z : Fin n → ℝ} {args : OKArgs} {s s' : OK n} (σ : Fin n ≃ Fin n)
    (h : OK.create env x y z args = .ok s)
    (h' : OK.create env (fun i => x (σ i)) (fun i => y (σ i)) (fun i => z (σ i)) args = .ok s') :
    s'.lags = s.lags ∧ s'.params = s.params ∧
      ∀ ea, Admissible env args s ea.nClosest →
        NoTies ea.nClosest (queryAt ea) (fun p i => okDistance args p (x i, y i)) →
        ∀ r, s.execute env ea = .ok r ↔ s'.execute env ea = .ok r := by
  have e := (OK.create_perm h σ).1 s' h'
  have hd := OK.create_dist h
  have hd' := OK.create_dist h'
  have hZ : s.Z = z := (OK.create_fields h).2.2.2.2.2.2.2
  have hZ' : s'.Z = fun i => z (σ i) := (OK.create_fields h').2.2.2.2.2.2.2
  have f1 : s'.variogramFunction = s.variogramFunction := by rw [e]
  have f2 : s'.functionName = s.functionName := by rw [e]
  have f3 : s'.params = s.params := by rw [e]
  have f4 : s'.paramsInt = s.paramsInt := by rw [e]
  have f5 : s'.exactValues = s.exactValues := by rw [e]
  have f6 : s'.pseudoInv = s.pseudoInv := by rw [e]
  have f7 : s'.coordinatesType = s.coordinatesType := by rw [e]
  refine ⟨by rw [e], f3, fun ea ha ht r => ⟨fun hr => ?_, fun hr => ?_⟩⟩
  · refine OK.same_distances h h' ha ha.noClash f1 f2 f3 f4 f5 f6 σ (fun i => by rw [hZ, hZ'])
      (fun i j => by rw [hd.1, hd'.1]) f7 (moved_id ea) (fun p i => ?_) ?_ hr
    · rw [hd.2, hd'.2]; rfl
    · simpa only [hd.2] using ht
  · have ha' : Admissible env args s' ea.nClosest := ⟨ha.knn, ha.noClash, by rw [f2, f3]; exact ha.range, ha.window⟩
    refine OK.same_distances h' h ha' ha.noClash f1.symm f2.symm f3.symm f4.symm f5.symm f6.symm σ.symm
      (fun i => by rw [hZ, hZ']; simp)
      (fun i j => by rw [hd.1, hd'.1]; simp) f7.symm (moved_id ea) (fun p i => ?_) ?_ hr
    · rw [hd.2, hd'.2]; simp
    · simp only [hd'.2]
      intro hn j p hp a b hab
      exact σ.injective (ht hn j p hp hab)

theorem C15_ok3 {n : ℕ} {env : Env} {x y z v : Fin n → ℝ} {args : OK3DArgs} {s s' : OK3D n} (σ : Fin n ≃ Fin n)
    (h : OK3D.create env x y z v args = .ok s)
    (h' : OK3D.create env (fun i => x (σ i)) (fun i => y (σ i)) (fun i => z (σ i)) (fun i => v (σ i)) args = .ok s') :
    s'.lags = s.lags ∧ s'.params = s.params ∧
      ∀ ea, KnnSpec env → WindowFits n ea.nClosest →
        NoTies ea.nClosest (queryAt3 ea) (fun p i => ok3Distance args p (x i, y i, z i)) →
        ∀ r, s.execute env ea = .ok r ↔ s'.execute env ea = .ok r := by
  have e := OK3D.create_perm h σ h'
  have hd := OK3D.create_dist h
  have hd' := OK3D.create_dist h'
  have hZ : s.VALUES = v := (OK3D.create_fields h).2.2.2.2.2.2.2
  have hZ' : s'.VALUES = fun i => v (σ i) := (OK3D.create_fields h').2.2.2.2.2.2.2
  have f1 : s'.variogramFunction = s.variogramFunction := by rw [e]
  have f3 : s'.params = s.params := by rw [e]
  have f5 : s'.exactValues = s.exactValues := by rw [e]
  have f6 : s'.pseudoInv = s.pseudoInv := by rw [e]
  refine ⟨by rw [e], f3, fun ea hk hw ht r => ⟨fun hr => ?_, fun hr => ?_⟩⟩
  · refine OK3D.same_distances h h' hk hw f1 f3 f5 f6 σ (fun i => by rw [hZ, hZ'])
      (fun i j => by rw [hd.1, hd'.1]) (moved_id3 ea) (fun p i => ?_) ?_ hr
    · rw [hd.2, hd'.2]; rfl
    · simpa only [hd.2] using ht
  · refine OK3D.same_distances h' h hk hw f1.symm f3.symm f5.symm f6.symm σ.symm
      (fun i => by rw [hZ, hZ']; simp)
      (fun i j => by rw [hd.1, hd'.1]; simp) (moved_id3 ea) (fun p i => ?_) ?_ hr
    · rw [hd.2, hd'.2]; simp
    · simp only [hd'.2]
      intro hn j p hp a b hab
      exact σ.injective (ht hn j p hp hab)

theorem C15_uk {n : ℕ} {env : Env} {x y z : Fin n → ℝ} {args : UKArgs} {s s' : UK n} (σ : Fin n ≃ Fin n)
    (h : UK.create env x y z args = .ok s)
    (h' : UK.create env (fun i => x (σ i)) (fun i => y (σ i)) (fun i => z (σ i)) (reorderedUK args σ) = .ok s') :
    s'.lags = s.lags ∧ s'.params = s.params ∧
      ∀ ea r, s.execute ea = .ok r ↔ s'.execute ea = .ok r := by
  have e := UK.create_perm h σ h'
  exact ⟨by rw [e], by rw [e], UK.perm_execute h σ h'⟩

theorem C15_uk3 {n : ℕ} {env : Env} {x y z v : Fin n → ℝ} {args : UK3DArgs} {s s' : UK3D n} (σ : Fin n ≃ Fin n)
    (h : UK3D.create env x y z v args = .ok s)
    (h' : UK3D.create env (fun i => x (σ i)) (fun i => y (σ i)) (fun i => z (σ i)) (fun i => v (σ i))
      (reorderedUK3 args σ) = .ok s') :
    s'.lags = s.lags ∧ s'.params = s.params ∧
      ∀ ea r, s.execute ea = .ok r ↔ s'.execute ea = .ok r := by
  have e := UK3D.create_perm h σ h'
  exact ⟨by rw [e], by rw [e], UK3D.perm_execute h σ h'⟩

/-- The running example with its two data swapped. -/
example : ∃ s r s', OK.create stdEnv Demo.X Demo.O ![3, 5] (Demo.args 1 true false) = .ok s ∧
    s.execute stdEnv (Demo.pts [(0, 0), (2, 5)] "vectorized") = .ok r ∧
    OK.create stdEnv (fun i => Demo.X (Equiv.swap 0 1 i)) (fun i => Demo.O (Equiv.swap 0 1 i))
      (fun i => ![3, 5] (Equiv.swap 0 1 i)) (Demo.args 1 true false) = .ok s' ∧
    s'.execute stdEnv (Demo.pts [(0, 0), (2, 5)] "vectorized") = .ok r := by
  obtain ⟨s, h, -⟩ := Demo.ok ![3, 5] 1 true false
  obtain ⟨ha, r, hr⟩ := Demo.ok_run zero_le_one h [(0, 0), (2, 5)] (b := "vectorized") (.inl rfl)
  obtain ⟨s', h'⟩ := (C15_create_ok (args := Demo.args 1 true false) rfl (Equiv.swap 0 1)).1 ⟨s, h⟩
  exact ⟨s, r, s', h, hr, h', ((C15_ok (Equiv.swap 0 1) h h').2.2 _ ha (fun hn => absurd rfl hn) r).1 hr⟩

/-- Universal kriging with a functional drift. -/
example : ∃ s r s', UK.create stdEnv Demo.X Demo.O ![3, 5] (Demo.uargs 1 true false) = .ok s ∧
    s.execute { toExec := Demo.pts [(0, 0), (2, 5)] "loop" } = .ok r ∧
    UK.create stdEnv (fun i => Demo.X (Equiv.swap 0 1 i)) (fun i => Demo.O (Equiv.swap 0 1 i))
      (fun i => ![3, 5] (Equiv.swap 0 1 i)) (reorderedUK (Demo.uargs 1 true false) (Equiv.swap (0 : Fin 2) 1)) = .ok s' ∧
    s'.execute { toExec := Demo.pts [(0, 0), (2, 5)] "loop" } = .ok r := by
  obtain ⟨s, h, -⟩ := Demo.uk ![3, 5] 1 true false
  obtain ⟨r, hr⟩ := Demo.uk_run h [(0, 0), (2, 5)] (b := "loop") (.inr rfl)
  have h' : ∃ s', UK.create stdEnv (fun i => Demo.X (Equiv.swap 0 1 i)) (fun i => Demo.O (Equiv.swap 0 1 i))
      (fun i => ![3, 5] (Equiv.swap 0 1 i)) (reorderedUK (Demo.uargs 1 true false) (Equiv.swap (0 : Fin 2) 1)) = .ok s' := by
    obtain ⟨ev, h2⟩ := Demo.expVar_ok (adjustData2 (fun i => Demo.X (Equiv.swap 0 1 i))
      (fun i => Demo.O (Equiv.swap 0 1 i)) (1 / 2) 0 1 0) (fun i => ![3, 5] (Equiv.swap 0 1 i)) 6
    obtain ⟨st, h3⟩ := Demo.stats_ok (adjustData2 (fun i => Demo.X (Equiv.swap 0 1 i))
      (fun i => Demo.O (Equiv.swap 0 1 i)) (1 / 2) 0 1 0) (fun i => ![3, 5] (Equiv.swap 0 1 i)) (Demo.vario 1) false
    simp only [one_div] at h2 h3
    simp [UK.create, reorderedUK, Demo.uargs, UK.resolveModel, chooseFunction, variogramDict, midrange_perm,
      Demo.midrange_X, Demo.midrange_O, makeVariogramParameterList, initializeVariogramModel, h2, h3,
      variogramFunctionName, setupExternalZ, setupPointLog, setupSpecifiedTerm, setupFunctionalTerm, setupFunctional]
  obtain ⟨s', h'⟩ := h'
  exact ⟨s, r, s', h, hr, h', ((C15_uk (Equiv.swap 0 1) h h').2.2 _ r).1 hr⟩

end
end PyKrige
