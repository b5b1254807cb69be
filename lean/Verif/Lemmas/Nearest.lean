import Verif.Lemmas.Laws

/-! The data selected for a moving window are the nearest ones. -/

set_option linter.unusedSectionVars false

namespace PyKrige
noncomputable section
open Matrix Spec

theorem chord_sq (lon1 lat1 lon2 lat2 : ℝ) : euclid (unitVector lon1 lat1) (unitVector lon2 lat2) ^ 2 =
    2 - 2 * inner ℝ (sphereVec lon1 lat1) (sphereVec lon2 lat2) := by
  rw [euclid_eq_dist, dist_eq_norm]
  change ‖sphereVec lon1 lat1 - sphereVec lon2 lat2‖ ^ 2 = _
  rw [norm_sub_sq_real, norm_sphereVec, norm_sphereVec]
  ring

theorem inner_sphereVec_le (lon1 lat1 lon2 lat2 : ℝ) :
    -1 ≤ inner ℝ (sphereVec lon1 lat1) (sphereVec lon2 lat2) ∧
      inner ℝ (sphereVec lon1 lat1) (sphereVec lon2 lat2) ≤ 1 := by
  have := abs_real_inner_le_norm (sphereVec lon1 lat1) (sphereVec lon2 lat2)
  rw [norm_sphereVec, norm_sphereVec, mul_one] at this
  exact abs_le.1 this

theorem gcd_arccos (lon1 lat1 lon2 lat2 : ℝ) : greatCircleDistance lon1 lat1 lon2 lat2 =
    180 / Real.pi * Real.arccos (inner ℝ (sphereVec lon1 lat1) (sphereVec lon2 lat2)) := by
  rw [greatCircleDistance_eq_angle, InnerProductGeometry.angle, norm_sphereVec, norm_sphereVec, mul_one,
    div_one]

/-- Ranking by chord is ranking by great-circle distance. -/
theorem chord_le_iff (a1 b1 a2 b2 c1 d1 c2 d2 : ℝ) :
    euclid (unitVector a1 b1) (unitVector a2 b2) ≤ euclid (unitVector c1 d1) (unitVector c2 d2) ↔
      greatCircleDistance a1 b1 a2 b2 ≤ greatCircleDistance c1 d1 c2 d2 := by
  rw [← pow_le_pow_iff_left₀ (euclid_nonneg _ _) (euclid_nonneg _ _) (two_ne_zero), chord_sq, chord_sq,
    gcd_arccos, gcd_arccos]
  have hpi : 0 < 180 / Real.pi := by positivity
  rw [mul_le_mul_iff_right₀ hpi]
  obtain ⟨h1, h2⟩ := inner_sphereVec_le a1 b1 a2 b2
  obtain ⟨h3, h4⟩ := inner_sphereVec_le c1 d1 c2 d2
  rw [Real.strictAntiOn_arccos.le_iff_ge ⟨h1, h2⟩ ⟨h3, h4⟩]
  constructor <;> intro h <;> linarith

/-- The selected data are at most as far from the query point as the others. -/
theorem OK.sel_nearest {n : ℕ} {env : Env} (he : KnnSpec env) (s : OK n) {k : ℕ} (hk : k ≤ n) (p : ℝ × ℝ)
    {i : Fin n} (hi : i ∈ s.sel env k p) {j : Fin n} (hj : j ∉ s.sel env k p) :
    s.queryDist (s.queryPt p) i ≤ s.queryDist (s.queryPt p) j := by
  unfold OK.sel OK.neighbours at hi hj
  unfold OK.queryDist
  dsimp only at hi hj
  split
  · next hc =>
    rw [if_pos hc] at hi hj
    rw [euclid_comm _ (s.pts i), euclid_comm _ (s.pts j)]
    exact (he _ _ k hk).2.2 i hi j hj
  · next hc =>
    rw [if_neg hc] at hi hj
    rw [← chord_le_iff, euclid_comm, euclid_comm _ (unitVector (s.X_ADJUSTED j) (s.Y_ADJUSTED j))]
    exact (he _ _ k hk).2.2 i hi j hj

theorem OK3D.sel_nearest {n : ℕ} {env : Env} (he : KnnSpec env) (s : OK3D n) {k : ℕ} (hk : k ≤ n)
    (p : ℝ × ℝ × ℝ) {i : Fin n} (hi : i ∈ s.sel env k p) {j : Fin n} (hj : j ∉ s.sel env k p) :
    s.queryDist (s.queryPt p) i ≤ s.queryDist (s.queryPt p) j := by
  unfold OK3D.sel OK3D.neighbours at hi hj
  unfold OK3D.queryDist
  dsimp only at hi hj
  rw [euclid_comm _ (zyx (s.pts i)), euclid_comm _ (zyx (s.pts j))]
  exact (he _ _ k hk).2.2 i hi j hj

/-- A kriging system without data is not regular. -/
theorem regular_nonempty {m : ℕ} {G : Fin m → Fin m → ℝ} {L : ℕ} {F : Fin L → Fin m → ℝ} (h : Regular G F) :
    0 < m := by
  rcases Nat.eq_zero_or_pos m with rfl | h0
  · have := h 0 0 1 ⟨fun i => i.elim0, fun l => by simp, by simp⟩
    exact absurd this.2.2 one_ne_zero
  · exact h0

theorem KrigedBy.pos {n L m : ℕ} {sel : Fin m → Fin n} {exact : Bool} {γ : ℝ → ℝ}
    {D : Fin n → Fin n → ℝ} {F : Fin L → Fin n → ℝ} {d : Fin n → ℝ} {f : Fin L → ℝ} {row : WRow n}
    (h : KrigedBy sel false exact γ D F d f row) : 0 < m :=
  regular_nonempty (h.solvable.resolve_left (by simp))

/-- A datum at the query point that is the only one there is selected. -/
theorem mem_of_nearest {n : ℕ} {l : List (Fin n)} (hl : 0 < l.length) {d : Fin n → ℝ}
    (hn : ∀ i ∈ l, ∀ j, j ∉ l → d i ≤ d j) {i₀ : Fin n} (h0 : d i₀ = 0) (hfar : ∀ i, i ≠ i₀ → 0 < d i) :
    i₀ ∈ l := by
  by_contra hcon
  obtain ⟨a, ha⟩ := List.exists_mem_of_length_pos hl
  have h1 := hn a ha i₀ hcon
  have : a ≠ i₀ := fun e => hcon (e ▸ ha)
  have := hfar a this
  linarith

/-- Kriging at a datum (`OrdinaryKriging`). -/
theorem OK.Fact.at_datum {n : ℕ} {env : Env} {s : OK n} {ea : ExecArgs} {j : ℕ} {p : ℝ × ℝ} {row : WRow n}
    (hk : KnnSpec env) (hw : WindowFits n ea.nClosest) (hpl : s.Placed)
    (h : s.Fact env ea.nClosest j p row) (hex : s.exactValues = true)
    (hp : s.pseudoInv = false ∨ ea.nClosest ≠ none) {i₀ : Fin n} (hi : p = (s.X_ORIG i₀, s.Y_ORIG i₀))
    (hfar : ∀ i, i ≠ i₀ → 1 / 10 ^ 10 < distance2 s.coordinatesType s.anisotropyScaling s.anisotropyAngle
      (s.X_ORIG i, s.Y_ORIG i) p) : row.w = Pi.single i₀ 1 ∧ row.var = 0 := by
  subst hi
  obtain ⟨γ, hγ, hk'⟩ := h
  rw [hex] at hk'
  have hd0 : s.queryDist (s.queryPt (s.X_ORIG i₀, s.Y_ORIG i₀)) i₀ = 0 := by
    rw [hpl.queryDist, distance2_self]
  have hd : ∀ i, s.queryDist (s.queryPt (s.X_ORIG i₀, s.Y_ORIG i₀)) i = s.dataDist i i₀ := by
    intro i; rw [hpl.queryDist, hpl.dataDist, distance2_comm]
  have hfar' : ∀ i, i ≠ i₀ → 1 / 10 ^ 10 < s.dataDist i i₀ := by
    intro i hi; rw [hpl.dataDist]; exact hfar i hi
  rcases hk' with ⟨hn, hk'⟩ | ⟨k, hn, hk'⟩
  · exact hk'.at_datum (Or.inl (hp.resolve_right (not_not.2 hn))) (j₀ := i₀) rfl hd0 (fun i _ => hd i) hfar'
      (fun l => l.elim0)
  · have hkn : k.toNat ≤ n := by have := hw k hn; omega
    have hmem := mem_of_nearest hk'.pos (fun i hi j hj => s.sel_nearest hk hkn _ hi hj) hd0
      (fun i hi => by rw [hd]; have := hfar' i hi; linarith [show (0 : ℝ) < 1 / 10 ^ 10 by norm_num])
    obtain ⟨j₀, hj₀⟩ := List.get_of_mem hmem
    exact hk'.at_datum (Or.inl rfl) hj₀ hd0 (fun i _ => hd i) hfar' (fun l => l.elim0)

theorem OK3D.Fact.at_datum {n : ℕ} {env : Env} {s : OK3D n} {ea : ExecArgs3} {j : ℕ} {p : ℝ × ℝ × ℝ}
    {row : WRow n} (hk : KnnSpec env) (hw : WindowFits n ea.nClosest) (hpl : s.Placed)
    (h : s.Fact env ea.nClosest j p row) (hex : s.exactValues = true)
    (hp : s.pseudoInv = false ∨ ea.nClosest ≠ none) {i₀ : Fin n}
    (hi : p = (s.X_ORIG i₀, s.Y_ORIG i₀, s.Z_ORIG i₀))
    (hfar : ∀ i, i ≠ i₀ → 1 / 10 ^ 10 < distance3 s.aniso (s.X_ORIG i, s.Y_ORIG i, s.Z_ORIG i) p) :
    row.w = Pi.single i₀ 1 ∧ row.var = 0 := by
  subst hi
  obtain ⟨γ, hγ, hk'⟩ := h
  rw [hex] at hk'
  have hd0 : s.queryDist (s.queryPt (s.X_ORIG i₀, s.Y_ORIG i₀, s.Z_ORIG i₀)) i₀ = 0 := by
    rw [hpl.queryDist, distance3_self]
  have hd : ∀ i, s.queryDist (s.queryPt (s.X_ORIG i₀, s.Y_ORIG i₀, s.Z_ORIG i₀)) i = s.dataDist i i₀ := by
    intro i; rw [hpl.queryDist, hpl.dataDist, distance3_comm]
  have hfar' : ∀ i, i ≠ i₀ → 1 / 10 ^ 10 < s.dataDist i i₀ := by
    intro i hi; rw [hpl.dataDist]; exact hfar i hi
  rcases hk' with ⟨hn, hk'⟩ | ⟨k, hn, hk'⟩
  · exact hk'.at_datum (Or.inl (hp.resolve_right (not_not.2 hn))) (j₀ := i₀) rfl hd0 (fun i _ => hd i) hfar'
      (fun l => l.elim0)
  · have hkn : k.toNat ≤ n := by have := hw k hn; omega
    have hmem := mem_of_nearest hk'.pos (fun i hi j hj => s.sel_nearest hk hkn _ hi hj) hd0
      (fun i hi => by rw [hd]; have := hfar' i hi; linarith [show (0 : ℝ) < 1 / 10 ^ 10 by norm_num])
    obtain ⟨j₀, hj₀⟩ := List.get_of_mem hmem
    exact hk'.at_datum (Or.inl rfl) hj₀ hd0 (fun i _ => hd i) hfar' (fun l => l.elim0)

end
end PyKrige
