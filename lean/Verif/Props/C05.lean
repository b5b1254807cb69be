import Verif.Lemmas.Laws
import Verif.Lemmas.Nearest
import Verif.Lemmas.UKDrift
import Verif.Examples.Demo

/-!
# C05: kriging honours the data

With `exact_values=True`, evaluating at the location of datum `i` gives its value and variance 0, for any
variogram, backend, style and (ordinary kriging) moving window, if no other datum is within `1e-10` of it.
The distances are those of `Spec/Distance.lean`.
-/

set_option linter.unusedSectionVars false

namespace PyKrige
noncomputable section
open Matrix Spec

/-- `OrdinaryKriging`. -/
theorem C05_exact_2d {n : ℕ} {env : Env} {x y z : Fin n → ℝ} {args : OKArgs} {s : OK n}
    (h : OK.create env x y z args = .ok s) {ea : ExecArgs} (ha : Admissible env args s ea.nClosest)
    (hex : args.exactValues = .bool true) (hp : args.pseudoInv = false ∨ ea.nClosest ≠ none)
    {r : ExecResult} (hr : s.execute env ea = .ok r)
    {i : Fin n} {j : ℕ} (hq : queryAt ea j = some (x i, y i)) (hm : maskedAt ea j = false)
    (hfar : ∀ k, k ≠ i → 1 / 10 ^ 10 < distance2 args.coordinatesType s.anisotropyScaling s.anisotropyAngle (x k, y k) (x i, y i)) :
    r.z[j]? = some (some (z i)) ∧ r.ss[j]? = some (some 0) := by
  obtain ⟨-, hE, hP, -⟩ := OK.create_fields h
  have hC := (OK.create_fields h).2.2.2.2.1
  obtain ⟨hpl, hx, hy, hZ⟩ := OK.create_placed h
  have hex' : s.exactValues = true := by rw [hex] at hE; simpa using hE.symm
  obtain ⟨row, hF, h1, h2⟩ := (OK.create_weighs h ha).at_point (z := s.Z) (lags := s.lags) (stats := s.stats) hr hq hm
  obtain ⟨hw', hv⟩ := hF.at_datum ha.knn ha.window hpl hex' (by rwa [hP]) (i₀ := i)
    (by rw [hx, hy]) (fun k hk => by rw [hx, hy, hC]; exact hfar k hk)
  rw [h1, h2, hw', hv, estimate_single, hZ]
  exact ⟨rfl, rfl⟩

/-- `OrdinaryKriging3D`. -/
theorem C05_exact_3d {n : ℕ} {env : Env} {x y z v : Fin n → ℝ} {args : OK3DArgs} {s : OK3D n}
    (h : OK3D.create env x y z v args = .ok s) {ea : ExecArgs3} (hk : KnnSpec env)
    (hw : WindowFits n ea.nClosest)
    (hex : args.exactValues = .bool true) (hp : args.pseudoInv = false ∨ ea.nClosest ≠ none)
    {r : ExecResult} (hr : s.execute env ea = .ok r)
    {i : Fin n} {j : ℕ} (hq : queryAt3 ea j = some (x i, y i, z i)) (hm : maskedAt3 ea j = false)
    (hfar : ∀ k, k ≠ i → 1 / 10 ^ 10 < distance3 s.aniso (x k, y k, z k) (x i, y i, z i)) :
    r.z[j]? = some (some (v i)) ∧ r.ss[j]? = some (some 0) := by
  obtain ⟨-, hE, hP, -⟩ := OK3D.create_fields h
  
  obtain ⟨hpl, hx, hy, hz, hZ⟩ := OK3D.create_placed h
  have hex' : s.exactValues = true := by rw [hex] at hE; simpa using hE.symm
  obtain ⟨row, hF, h1, h2⟩ := (OK3D.create_weighs h hk hw).at_point (z := s.VALUES) (lags := s.lags) (stats := s.stats) hr hq hm
  obtain ⟨hw', hv⟩ := hF.at_datum hk hw hpl hex' (by rwa [hP]) (i₀ := i)
    (by rw [hx, hy, hz]) (fun k hk => by rw [hx, hy, hz]; exact hfar k hk)
  rw [h1, h2, hw', hv, estimate_single, hZ]
  exact ⟨rfl, rfl⟩

/-- `UniversalKriging`; a specified drift must be given the value it has at the datum. -/
theorem C05_exact_uk {n : ℕ} {env : Env} {x y z : Fin n → ℝ} {args : UKArgs} {s : UK n}
    (h : UK.create env x y z args = .ok s) {ea : UKExecArgs}
    (hex : args.exactValues = .bool true) (hp : args.pseudoInv = false)
    {r : ExecResult} (hr : s.execute ea = .ok r)
    {i : Fin n} {j : ℕ} (hq : queryAt ea.toExec j = some (x i, y i)) (hm : maskedAt ea.toExec j = false)
    (hfar : ∀ k, k ≠ i → 1 / 10 ^ 10 < anisoDist2 s.anisotropyScaling s.anisotropyAngle (x k, y k) (x i, y i))
    (hs : "specified" ∈ args.driftTerms →
      ea.toExec.backend = "vectorized" ∧ specAtQuery ea j = specAtDatum args.specifiedDrift i) :
    r.z[j]? = some (some (z i)) ∧ r.ss[j]? = some (some 0) := by
  obtain ⟨-, hE, hP, -⟩ := UK.create_fields h
  
  obtain ⟨hpl, hx, hy, hZ⟩ := UK.create_placed h
  have hex' : s.exactValues = true := by rw [hex] at hE; simpa using hE.symm
  obtain ⟨row, hF, h1, h2⟩ := (UK.create_weighs h ea).at_point (z := s.Z) (lags := s.lags) (stats := s.stats) hr hq hm
  obtain ⟨γ, L, F, f, hγ, hK, hFi, hf⟩ := hF.args h hq (fun ht => (hs ht).1)
  have hff : ∀ l, F l i = f l := by
    have : driftTerms2 args s.adjustPoint (specAtDatum args.specifiedDrift i) (x i, y i) =
        driftTerms2 args s.adjustPoint (specAtQuery ea j) (x i, y i) := by
      unfold driftTerms2
      by_cases ht : "specified" ∈ args.driftTerms
      · rw [(hs ht).2]
      · simp only [if_neg ht]
    exact congrFun (List.ofFn_injective (((hFi i).trans this).trans hf.symm))
  rw [hex'] at hK
  obtain ⟨hw', hv⟩ := hK.at_datum (Or.inl (by rw [hP, hp])) (i₀ := i) (j₀ := i) rfl
    (by rw [hpl.queryDist, hx, hy, anisoDist2_self])
    (fun k _ => by rw [hpl.queryDist, hpl.dataDist, hx, hy, anisoDist2_comm])
    (fun k hk => by rw [hpl.dataDist, hx, hy]; exact hfar k hk) hff
  rw [h1, h2, hw', hv, estimate_single, hZ]
  exact ⟨rfl, rfl⟩

/-- `UniversalKriging3D`; a specified drift must be given the value it has at the datum. -/
theorem C05_exact_uk3d {n : ℕ} {env : Env} {x y z v : Fin n → ℝ} {args : UK3DArgs} {s : UK3D n}
    (h : UK3D.create env x y z v args = .ok s) {ea : UK3DExecArgs}
    (hex : args.exactValues = .bool true) (hp : args.pseudoInv = false)
    {r : ExecResult} (hr : s.execute ea = .ok r)
    {i : Fin n} {j : ℕ} (hq : queryAt3 ea.toExec j = some (x i, y i, z i)) (hm : maskedAt3 ea.toExec j = false)
    (hfar : ∀ k, k ≠ i → 1 / 10 ^ 10 < distance3 s.aniso (x k, y k, z k) (x i, y i, z i))
    (hs : "specified" ∈ args.driftTerms →
      ea.toExec.backend = "vectorized" ∧ specAtQuery3 ea j = specAtDatum args.specifiedDrift i) :
    r.z[j]? = some (some (v i)) ∧ r.ss[j]? = some (some 0) := by
  obtain ⟨-, hE, hP, -⟩ := UK3D.create_fields h
  
  obtain ⟨hpl, hx, hy, hz, hZ⟩ := UK3D.create_placed h
  have hex' : s.exactValues = true := by rw [hex] at hE; simpa using hE.symm
  obtain ⟨row, hF, h1, h2⟩ := (UK3D.create_weighs h ea).at_point (z := s.VALUES) (lags := s.lags) (stats := s.stats) hr hq hm
  obtain ⟨γ, L, F, f, hγ, hK, hFi, hf⟩ := hF.args h hq (fun ht => (hs ht).1)
  have hff : ∀ l, F l i = f l := by
    have : driftTerms3 args s.adjustPoint (specAtDatum args.specifiedDrift i) (x i, y i, z i) =
        driftTerms3 args s.adjustPoint (specAtQuery3 ea j) (x i, y i, z i) := by
      unfold driftTerms3
      by_cases ht : "specified" ∈ args.driftTerms
      · rw [(hs ht).2]
      · simp only [if_neg ht]
    exact congrFun (List.ofFn_injective (((hFi i).trans this).trans hf.symm))
  rw [hex'] at hK
  obtain ⟨hw', hv⟩ := hK.at_datum (Or.inl (by rw [hP, hp])) (i₀ := i) (j₀ := i) rfl
    (by rw [hpl.queryDist, hx, hy, hz, distance3_self])
    (fun k _ => by rw [hpl.queryDist, hpl.dataDist, hx, hy, hz, distance3_comm])
    (fun k hk => by rw [hpl.dataDist, hx, hy, hz]; exact hfar k hk) hff
  rw [h1, h2, hw', hv, estimate_single, hZ]
  exact ⟨rfl, rfl⟩

/-! The hypotheses are met: data at 0 and 1, linear variogram with nugget, evaluated at the second datum. -/

example (a b c : ℝ) (hc : 0 ≤ c) : ∃ s r, OK.create stdEnv Demo.X Demo.O ![a, b] (Demo.args c true false) = .ok s ∧
    s.execute stdEnv (Demo.pts [(7, 7), (1, 0)] "loop") = .ok r ∧ r.z[1]? = some (some b) ∧
    r.ss[1]? = some (some 0) := by
  obtain ⟨s, h, -, -, -, h1, h2, -⟩ := Demo.ok ![a, b] c true false
  obtain ⟨ha, r, hr⟩ := Demo.ok_run hc h [(7, 7), (1, 0)] (b := "loop") (by simp)
  refine ⟨s, r, h, hr, C05_exact_2d h ha rfl (Or.inl rfl) hr (i := 1) (by simp [queryAt, Demo.pts, Demo.X, Demo.O])
    (by simp [maskedAt, Demo.pts]) (fun k hk => ?_)⟩
  fin_cases k
  · rw [h1, h2]
    change _ < distance2 "euclidean" 1 0 (Demo.X 0, Demo.O 0) (Demo.X 1, Demo.O 1)
    rw [Demo.dist01]; norm_num
  · exact absurd rfl hk

example (a b c : ℝ) (hc : 0 ≤ c) : ∃ s r,
    OK3D.create stdEnv Demo.X Demo.O Demo.O ![a, b] (Demo.args3 c true false) = .ok s ∧
    s.execute stdEnv (Demo.pts3 [(7, 7, 7), (1, 0, 0)] "vectorized") = .ok r ∧ r.z[1]? = some (some b) ∧
    r.ss[1]? = some (some 0) := by
  obtain ⟨s, h, -, -, -, h1⟩ := Demo.ok3 ![a, b] c true false
  obtain ⟨ha, r, hr⟩ := Demo.ok3_run hc h [(7, 7, 7), (1, 0, 0)] (b := "vectorized") (by simp)
  refine ⟨s, r, h, hr, C05_exact_3d h stdEnv_knn ha rfl (Or.inl rfl) hr (i := 1)
    (by simp [queryAt3, Demo.pts3, Demo.X, Demo.O]) (by simp [maskedAt3, Demo.pts3]) (fun k hk => ?_)⟩
  fin_cases k
  · rw [h1]
    change _ < distance3 {} (Demo.X 0, Demo.O 0, Demo.O 0) (Demo.X 1, Demo.O 1, Demo.O 1)
    rw [Demo.dist01_3]; norm_num
  · exact absurd rfl hk

example (a b c : ℝ) : ∃ s r, UK.create stdEnv Demo.X Demo.O ![a, b] (Demo.uargs c true false) = .ok s ∧
    s.execute { toExec := Demo.pts [(7, 7), (1, 0)] "loop" } = .ok r ∧ r.z[1]? = some (some b) ∧
    r.ss[1]? = some (some 0) := by
  obtain ⟨s, h, -, -, -, h1, h2, -⟩ := Demo.uk ![a, b] c true false
  obtain ⟨r, hr⟩ := Demo.uk_run h [(7, 7), (1, 0)] (b := "loop") (by simp)
  refine ⟨s, r, h, hr, C05_exact_uk h rfl rfl hr (i := 1) (by simp [queryAt, Demo.pts, Demo.X, Demo.O])
    (by simp [maskedAt, Demo.pts]) (fun k hk => ?_) (by simp [Demo.uargs])⟩
  fin_cases k
  · rw [h1, h2]
    have := Demo.dist01
    simp only [distance2, if_true] at this
    change _ < anisoDist2 1 0 (Demo.X 0, Demo.O 0) (Demo.X 1, Demo.O 1)
    rw [this]; norm_num
  · exact absurd rfl hk

example (a b c : ℝ) : ∃ s r,
    UK3D.create stdEnv Demo.X Demo.O Demo.O ![a, b] (Demo.uargs3 c true false) = .ok s ∧
    s.execute { toExec := Demo.pts3 [(7, 7, 7), (1, 0, 0)] "vectorized" } = .ok r ∧ r.z[1]? = some (some b) ∧
    r.ss[1]? = some (some 0) := by
  obtain ⟨s, h, -, -, -, h1, -⟩ := Demo.uk3 ![a, b] c true false
  obtain ⟨r, hr⟩ := Demo.uk3_run h [(7, 7, 7), (1, 0, 0)] (b := "vectorized") (by simp)
  refine ⟨s, r, h, hr, C05_exact_uk3d h rfl rfl hr (i := 1)
    (by simp [queryAt3, Demo.pts3, Demo.X, Demo.O]) (by simp [maskedAt3, Demo.pts3]) (fun k hk => ?_)
    (by simp [Demo.uargs3])⟩
  fin_cases k
  · rw [h1]
    change _ < distance3 {} (Demo.X 0, Demo.O 0, Demo.O 0) (Demo.X 1, Demo.O 1, Demo.O 1)
    rw [Demo.dist01_3]; norm_num
  · exact absurd rfl hk

end
end PyKrige
