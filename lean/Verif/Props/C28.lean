import Verif.Lemmas.BlueRow
import Verif.Lemmas.Nearest
import Verif.Lemmas.Sel
import Verif.Lemmas.UKDrift
import Verif.Examples.Demo

/-!
# C28: kriging returns the best linear unbiased predictor

Whenever the variogram is conditionally negative definite on the data, the estimate is the one with the smallest mean
squared error among all unbiased linear combinations of the data (`Spec/Best.lean`), and the returned variance is that
smallest error.  A moving window does the same with the nearest data only.  With `pseudo_inv=True` the variogram must
also be conditionally negative definite on the data plus the prediction point.
-/

set_option linter.unusedSectionVars false

namespace PyKrige
noncomputable section
open Matrix Spec

theorem range_get {n : ℕ} (l : List (Fin n)) : Set.range l.get = {i | i ∈ l.toFinset} := by
  ext i
  simp [List.mem_iff_get]

/-- `OrdinaryKriging`. -/
theorem C28_best_2d {n : ℕ} {env : Env} {x y z : Fin n → ℝ} {args : OKArgs} {s : OK n}
    (h : OK.create env x y z args = .ok s) {ea : ExecArgs} (ha : Admissible env args s ea.nClosest)
    {γ : ℝ → ℝ} (hγ : s.variogramFunction s.params = .ok γ) {exact : Bool} (hex : args.exactValues = .bool exact)
    (hG : CondNeg (semivar γ fun i i' => okDistance args (x i, y i) (x i', y i')))
    {r : ExecResult} (hr : s.execute env ea = .ok r) {j : ℕ} {p : ℝ × ℝ} (hq : queryAt ea j = some p)
    (hm : maskedAt ea j = false)
    (hp : args.pseudoInv = false ∨ ea.nClosest ≠ none ∨
      CondNeg (withPoint (semivar γ fun i i' => okDistance args (x i, y i) (x i', y i'))
        (semivarTo exact γ fun i => okDistance args p (x i, y i)))) :
    ∃ S : Finset (Fin n), (ea.nClosest = none → S = Finset.univ) ∧
      (∀ k : ℕ, ea.nClosest = some (k : ℤ) → S.card = k ∧
        ∀ i ∈ S, ∀ i', i' ∉ S → okDistance args p (x i, y i) ≤ okDistance args p (x i', y i')) ∧
      ∃ est var, r.z[j]? = some (some est) ∧ r.ss[j]? = some (some var) ∧
        IsBlue S (semivar γ fun i i' => okDistance args (x i, y i) (x i', y i'))
          (semivarTo exact γ fun i => okDistance args p (x i, y i)) (fun _ => []) [] z est var := by
  obtain ⟨hD, hd⟩ := OK.create_dist h
  obtain ⟨-, hE, hP, -⟩ := OK.create_fields h
  obtain ⟨_, _, _, hZ⟩ := OK.create_placed h
  have hex' : s.exactValues = exact := by rw [hex] at hE; simpa using hE.symm
  have hD' : s.dataDist = fun i i' => okDistance args (x i, y i) (x i', y i') := by funext i i'; exact hD i i'
  have hd' : s.queryDist (s.queryPt p) = fun i => okDistance args p (x i, y i) := by funext i; exact hd p i
  obtain ⟨row, ⟨γ', hγ', hF⟩, h1, h2⟩ := (OK.create_weighs h ha).at_point (z := s.Z) (lags := s.lags) (stats := s.stats) hr hq hm
  obtain rfl : γ' = γ := by rw [hγ] at hγ'; exact (Except.ok.inj hγ').symm
  rw [hex', hD', hd'] at hF
  rcases hF with ⟨hn, hF⟩ | ⟨k, hk', hF⟩
  · refine ⟨Finset.univ, fun _ => rfl, fun k hk => (by rw [hn] at hk; cases hk), _, _, h1, h2, ?_⟩
    have h2le := OK.create_two_le h
    have := hF.blue hG (hp.imp (fun e => hP.trans e) fun e => ⟨e.resolve_left (fun e => e hn), _,
      unbiased_single (i := ⟨0, by omega⟩) (by simp)⟩) z
    rw [hZ]
    simpa using this
  · have hle := ha.window k hk'
    obtain ⟨hl, hnd⟩ := OK.sel_spec ha.knn s (k := k.toNat) (by omega) p
    refine ⟨(s.sel env k.toNat p).toFinset, fun e => (by rw [hk'] at e; cases e), fun k' e => ?_, _, _, h1, h2, ?_⟩
    · rw [hk'] at e
      obtain rfl : k = k' := Option.some.inj e
      refine ⟨by rw [List.toFinset_card_of_nodup hnd, hl]; simp, fun i hi i' hi' => ?_⟩
      have := OK.sel_nearest ha.knn s (k := (k' : ℤ).toNat) (by omega) p (List.mem_toFinset.1 hi)
        (fun hc => hi' (List.mem_toFinset.2 hc))
      rwa [hd'] at this
    · have := hF.blue hG (.inl rfl) z
      rw [hZ]
      simpa [range_get] using this

/-- `OrdinaryKriging3D`. -/
theorem C28_best_3d {n : ℕ} {env : Env} {x y z v : Fin n → ℝ} {args : OK3DArgs} {s : OK3D n}
    (h : OK3D.create env x y z v args = .ok s) {ea : ExecArgs3} (hk : KnnSpec env)
    (hw : WindowFits n ea.nClosest)
    {γ : ℝ → ℝ} (hγ : s.variogramFunction s.params = .ok γ) {exact : Bool} (hex : args.exactValues = .bool exact)
    (hG : CondNeg (semivar γ fun i i' => ok3Distance args (x i, y i, z i) (x i', y i', z i')))
    {r : ExecResult} (hr : s.execute env ea = .ok r) {j : ℕ} {p : ℝ × ℝ × ℝ} (hq : queryAt3 ea j = some p)
    (hm : maskedAt3 ea j = false)
    (hp : args.pseudoInv = false ∨ ea.nClosest ≠ none ∨
      CondNeg (withPoint (semivar γ fun i i' => ok3Distance args (x i, y i, z i) (x i', y i', z i'))
        (semivarTo exact γ fun i => ok3Distance args p (x i, y i, z i)))) :
    ∃ S : Finset (Fin n), (ea.nClosest = none → S = Finset.univ) ∧
      (∀ k : ℕ, ea.nClosest = some (k : ℤ) → S.card = k ∧
        ∀ i ∈ S, ∀ i', i' ∉ S → ok3Distance args p (x i, y i, z i) ≤ ok3Distance args p (x i', y i', z i')) ∧
      ∃ est var, r.z[j]? = some (some est) ∧ r.ss[j]? = some (some var) ∧
        IsBlue S (semivar γ fun i i' => ok3Distance args (x i, y i, z i) (x i', y i', z i'))
          (semivarTo exact γ fun i => ok3Distance args p (x i, y i, z i)) (fun _ => []) [] v est var := by
  obtain ⟨hD, hd⟩ := OK3D.create_dist h
  obtain ⟨-, hE, hP, -⟩ := OK3D.create_fields h
  obtain ⟨_, _, _, _, hZ⟩ := OK3D.create_placed h
  have hex' : s.exactValues = exact := by rw [hex] at hE; simpa using hE.symm
  have hD' : s.dataDist = fun i i' => ok3Distance args (x i, y i, z i) (x i', y i', z i') := by funext i i'; exact hD i i'
  have hd' : s.queryDist (s.queryPt p) = fun i => ok3Distance args p (x i, y i, z i) := by funext i; exact hd p i
  obtain ⟨row, ⟨γ', hγ', hF⟩, h1, h2⟩ := (OK3D.create_weighs h hk hw).at_point (z := s.VALUES) (lags := s.lags) (stats := s.stats) hr hq hm
  obtain rfl : γ' = γ := by rw [hγ] at hγ'; exact (Except.ok.inj hγ').symm
  rw [hex', hD', hd'] at hF
  rcases hF with ⟨hn, hF⟩ | ⟨k, hk', hF⟩
  · refine ⟨Finset.univ, fun _ => rfl, fun k hk => (by rw [hn] at hk; cases hk), _, _, h1, h2, ?_⟩
    have h2le := OK3D.create_two_le h
    have := hF.blue hG (hp.imp (fun e => hP.trans e) fun e => ⟨e.resolve_left (fun e => e hn), _,
      unbiased_single (i := ⟨0, by omega⟩) (by simp)⟩) v
    rw [hZ]
    simpa using this
  · have hle := hw k hk'
    obtain ⟨hl, hnd⟩ := OK3D.sel_spec hk s (k := k.toNat) (by omega) p
    refine ⟨(s.sel env k.toNat p).toFinset, fun e => (by rw [hk'] at e; cases e), fun k' e => ?_, _, _, h1, h2, ?_⟩
    · rw [hk'] at e
      obtain rfl : k = k' := Option.some.inj e
      refine ⟨by rw [List.toFinset_card_of_nodup hnd, hl]; simp, fun i hi i' hi' => ?_⟩
      have := OK3D.sel_nearest hk s (k := (k' : ℤ).toNat) (by omega) p (List.mem_toFinset.1 hi)
        (fun hc => hi' (List.mem_toFinset.2 hc))
      rwa [hd'] at this
    · have := hF.blue hG (.inl rfl) v
      rw [hZ]
      simpa [range_get] using this

/-- `UniversalKriging`.  For specified drift the backend is "vectorized" (C24 tells what "loop" does). -/
theorem C28_best_uk {n : ℕ} {env : Env} {x y z : Fin n → ℝ} {args : UKArgs} {s : UK n}
    (h : UK.create env x y z args = .ok s) {ea : UKExecArgs}
    {γ : ℝ → ℝ} (hγ : s.variogramFunction s.params = .ok γ) {exact : Bool} (hex : args.exactValues = .bool exact)
    (hs : "specified" ∈ args.driftTerms → ea.toExec.backend = "vectorized")
    (hG : CondNeg (semivar γ fun i i' => ukDistance args (x i, y i) (x i', y i')))
    {r : ExecResult} (hr : s.execute ea = .ok r) {j : ℕ} {p : ℝ × ℝ} (hq : queryAt ea.toExec j = some p)
    (hm : maskedAt ea.toExec j = false)
    (hp : args.pseudoInv = false ∨
      CondNeg (withPoint (semivar γ fun i i' => ukDistance args (x i, y i) (x i', y i'))
        (semivarTo exact γ fun i => ukDistance args p (x i, y i))) ∧
      ∃ u, Unbiased Set.univ (fun i => driftTerms2 args s.adjustPoint (specAtDatum args.specifiedDrift i) (x i, y i))
        (driftTerms2 args s.adjustPoint (specAtQuery ea j) p) u) :
    ∃ est var, r.z[j]? = some (some est) ∧ r.ss[j]? = some (some var) ∧
      IsBlue Set.univ (semivar γ fun i i' => ukDistance args (x i, y i) (x i', y i'))
        (semivarTo exact γ fun i => ukDistance args p (x i, y i))
        (fun i => driftTerms2 args s.adjustPoint (specAtDatum args.specifiedDrift i) (x i, y i))
        (driftTerms2 args s.adjustPoint (specAtQuery ea j) p) z est var := by
  obtain ⟨hD, hd⟩ := UK.create_dist h
  obtain ⟨-, hE, hP, -⟩ := UK.create_fields h
  obtain ⟨_, _, _, hZ⟩ := UK.create_placed h
  have hex' : s.exactValues = exact := by rw [hex] at hE; simpa using hE.symm
  have hD' : s.dataDist = fun i i' => ukDistance args (x i, y i) (x i', y i') := by funext i i'; exact hD i i'
  have hd' : s.queryDist p = fun i => ukDistance args p (x i, y i) := by funext i; exact hd p i
  obtain ⟨row, hF, h1, h2⟩ := (UK.create_weighs h ea).at_point (z := s.Z) (lags := s.lags) (stats := s.stats) hr hq hm
  obtain ⟨γ', L, F, f, hγ', hK, hFi, hf⟩ := hF.args h hq hs
  obtain rfl : γ' = γ := by rw [hγ] at hγ'; exact (Except.ok.inj hγ').symm
  rw [hex', hD', hd'] at hK
  simp only [← hFi, ← hf] at hp ⊢
  rw [← Set.range_id] at hp ⊢
  refine ⟨_, _, h1, h2, ?_⟩
  rw [hZ]
  exact hK.blue hG (hp.imp_left fun e => hP.trans e) z

/-- `UniversalKriging3D`.  For specified drift the backend is "vectorized" (C24 tells what "loop" does). -/
theorem C28_best_uk3d {n : ℕ} {env : Env} {x y z v : Fin n → ℝ} {args : UK3DArgs} {s : UK3D n}
    (h : UK3D.create env x y z v args = .ok s) {ea : UK3DExecArgs}
    {γ : ℝ → ℝ} (hγ : s.variogramFunction s.params = .ok γ) {exact : Bool} (hex : args.exactValues = .bool exact)
    (hs : "specified" ∈ args.driftTerms → ea.toExec.backend = "vectorized")
    (hG : CondNeg (semivar γ fun i i' => uk3Distance args (x i, y i, z i) (x i', y i', z i')))
    {r : ExecResult} (hr : s.execute ea = .ok r) {j : ℕ} {p : ℝ × ℝ × ℝ} (hq : queryAt3 ea.toExec j = some p)
    (hm : maskedAt3 ea.toExec j = false)
    (hp : args.pseudoInv = false ∨
      CondNeg (withPoint (semivar γ fun i i' => uk3Distance args (x i, y i, z i) (x i', y i', z i'))
        (semivarTo exact γ fun i => uk3Distance args p (x i, y i, z i))) ∧
      ∃ u, Unbiased Set.univ (fun i => driftTerms3 args s.adjustPoint (specAtDatum args.specifiedDrift i) (x i, y i, z i))
        (driftTerms3 args s.adjustPoint (specAtQuery3 ea j) p) u) :
    ∃ est var, r.z[j]? = some (some est) ∧ r.ss[j]? = some (some var) ∧
      IsBlue Set.univ (semivar γ fun i i' => uk3Distance args (x i, y i, z i) (x i', y i', z i'))
        (semivarTo exact γ fun i => uk3Distance args p (x i, y i, z i))
        (fun i => driftTerms3 args s.adjustPoint (specAtDatum args.specifiedDrift i) (x i, y i, z i))
        (driftTerms3 args s.adjustPoint (specAtQuery3 ea j) p) v est var := by
  obtain ⟨hD, hd⟩ := UK3D.create_dist h
  obtain ⟨-, hE, hP, -⟩ := UK3D.create_fields h
  obtain ⟨_, _, _, _, hZ⟩ := UK3D.create_placed h
  have hex' : s.exactValues = exact := by rw [hex] at hE; simpa using hE.symm
  have hD' : s.dataDist = fun i i' => uk3Distance args (x i, y i, z i) (x i', y i', z i') := by funext i i'; exact hD i i'
  have hd' : s.queryDist p = fun i => uk3Distance args p (x i, y i, z i) := by funext i; exact hd p i
  obtain ⟨row, hF, h1, h2⟩ := (UK3D.create_weighs h ea).at_point (z := s.VALUES) (lags := s.lags) (stats := s.stats) hr hq hm
  obtain ⟨γ', L, F, f, hγ', hK, hFi, hf⟩ := hF.args h hq hs
  obtain rfl : γ' = γ := by rw [hγ] at hγ'; exact (Except.ok.inj hγ').symm
  rw [hex', hD', hd'] at hK
  simp only [← hFi, ← hf] at hp ⊢
  rw [← Set.range_id] at hp ⊢
  refine ⟨_, _, h1, h2, ?_⟩
  rw [hZ]
  exact hK.blue hG (hp.imp_left fun e => hP.trans e) v


end
end PyKrige
