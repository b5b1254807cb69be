import Verif.Lemmas.Nearest
import Verif.Props.C11
import Verif.Props.C30

/-!
# C31: nearest neighbours found in 3D chord space are nearest on the sphere
-/

namespace PyKrige
noncomputable section
open Spec

/-- Ranking points by the straight-line distance of the unit vectors computed for the neighbour search is
ranking them by great-circle distance. -/
theorem C31_ranking (lon lat lon1 lat1 lon2 lat2 : ℝ) :
    euclid (unitVector lon1 lat1) (unitVector lon lat) ≤ euclid (unitVector lon2 lat2) (unitVector lon lat) ↔
      sphereDist (lon1, lat1) (lon, lat) ≤ sphereDist (lon2, lat2) (lon, lat) := by
  rw [chord_le_iff, C30_angle, C30_angle]
  rfl

/-- `euclid3_to_great_circle` converts that straight-line distance into the great-circle distance. -/
theorem C31_chord (lon1 lat1 lon2 lat2 : ℝ) :
    euclid3ToGreatCircle (euclid (unitVector lon1 lat1) (unitVector lon2 lat2)) =
      greatCircleDistance lon1 lat1 lon2 lat2 := by
  have hsq := chord_sq lon1 lat1 lon2 lat2
  obtain ⟨h1, h2⟩ := inner_sphereVec_le lon1 lat1 lon2 lat2
  rw [gcd_arccos]
  set c : ℝ := inner ℝ (sphereVec lon1 lat1) (sphereVec lon2 lat2)
  set e := euclid (unitVector lon1 lat1) (unitVector lon2 lat2)
  have he : 0 ≤ e := euclid_nonneg _ _
  set θ := Real.arccos c
  have hθ0 : 0 ≤ θ := Real.arccos_nonneg _
  have hθ1 : θ ≤ Real.pi := Real.arccos_le_pi _
  have hc : Real.cos θ = c := Real.cos_arccos h1 h2
  have hs : 0 ≤ Real.sin (θ / 2) := Real.sin_nonneg_of_nonneg_of_le_pi (by linarith) (by linarith)
  have hsin : e = 2 * Real.sin (θ / 2) := by
    have h3 : Real.cos θ = 1 - 2 * Real.sin (θ / 2) ^ 2 := by
      have := Real.cos_two_mul (θ / 2)
      have h4 := Real.sin_sq_add_cos_sq (θ / 2)
      rw [mul_div_cancel₀ _ (two_ne_zero)] at this
      linarith
    nlinarith
  have hle : ¬ e > 2 := by
    rw [hsin]; linarith [Real.sin_le_one (θ / 2)]
  unfold euclid3ToGreatCircle
  dsimp only
  rw [if_neg hle, hsin, show 1 / 2 * (2 * Real.sin (θ / 2)) = Real.sin (θ / 2) by ring,
    ← Real.cos_pi_div_two_sub, Real.arccos_cos (by linarith) (by linarith)]
  have := Real.pi_pos
  field_simp
  ring

/-- Distances above 2, which only rounding can produce, count as antipodes. -/
theorem C31_clipped (d : ℝ) (h : 2 < d) : euclid3ToGreatCircle d = 180 := by
  unfold euclid3ToGreatCircle
  simp [h]

/-- On `[0, 2]` the conversion is strictly increasing, from 0 to 180. -/
theorem C31_monotone {d e : ℝ} (h0 : 0 ≤ d) (h : d < e) (h2 : e ≤ 2) :
    0 ≤ euclid3ToGreatCircle d ∧ euclid3ToGreatCircle d < euclid3ToGreatCircle e ∧ euclid3ToGreatCircle e ≤ 180 := by
  have hpi := Real.pi_pos
  have e1 : ∀ t : ℝ, t ≤ 2 → euclid3ToGreatCircle t = 180 - 360 / Real.pi * Real.arccos (t / 2) := by
    intro t ht
    unfold euclid3ToGreatCircle
    dsimp only
    rw [if_neg (not_lt.2 ht)]
    ring_nf
  have h3 : Real.arccos (e / 2) < Real.arccos (d / 2) :=
    Real.strictAntiOn_arccos ⟨by linarith, by linarith⟩ ⟨by linarith, by linarith⟩ (by linarith)
  have h4 : Real.arccos (d / 2) ≤ Real.pi / 2 := Real.arccos_le_pi_div_two.2 (by linarith)
  have h5 := Real.arccos_nonneg (e / 2)
  rw [e1 d (by linarith), e1 e h2]
  have h6 : 0 < 360 / Real.pi := by positivity
  refine ⟨?_, by nlinarith, by nlinarith⟩
  have : 360 / Real.pi * Real.arccos (d / 2) ≤ 360 / Real.pi * (Real.pi / 2) := by gcongr
  have e2 : 360 / Real.pi * (Real.pi / 2) = 180 := by field_simp; norm_num
  linarith

/-- In a geographic moving window, no datum outside the window is nearer on the sphere than one inside. -/
theorem C31_window {n : ℕ} {env : Env} (hk : KnnSpec env) {x y z : Fin n → ℝ} {args : OKArgs} {s : OK n}
    (h : OK.create env x y z args = .ok s) (hg : args.coordinatesType = "geographic") {k : ℕ} (hkn : k ≤ n)
    (p : ℝ × ℝ) {i j : Fin n} (hi : i ∈ s.sel env k p) (hj : j ∉ s.sel env k p) :
    sphereDist p (x i, y i) ≤ sphereDist p (x j, y j) := by
  have := OK.sel_nearest hk s hkn p hi hj
  obtain ⟨hpl, hx, hy, -⟩ := OK.create_placed h
  rw [hpl.queryDist, hpl.queryDist, hx, hy, (OK.create_fields h).2.2.2.2.1, hg] at this
  simpa [distance2] using this

/-- What a user sees: with `coordinates_type='geographic'` and `n_closest_points=k`, every answer is the answer of the
kriging problem made of `k` data such that no other datum is nearer to the place on the sphere. -/
theorem C31_used {n : ℕ} {env : Env} {x y z : Fin n → ℝ} {args : OKArgs} {s : OK n}
    (h : OK.create env x y z args = .ok s) (hg : args.coordinatesType = "geographic")
    (hpg : ParamsGiven args.variogramModel args.params)
    {ea : ExecArgs} {k : ℕ} (hk : ea.nClosest = some (k : ℤ)) (ha : Admissible env args s ea.nClosest)
    {r : ExecResult} (hr : s.execute env ea = .ok r) {j : ℕ} {p : ℝ × ℝ} (hq : queryAt ea j = some p)
    (hm : maskedAt ea j = false) :
    ∃ sel : Fin k → Fin n, Function.Injective sel ∧
      (∀ i i', i' ∉ Set.range sel → sphereDist p (x (sel i), y (sel i)) ≤ sphereDist p (x i', y i')) ∧
      ∃ v w, r.z[j]? = some (some v) ∧ r.ss[j]? = some (some w) ∧
        ∀ s', OK.create env (x ∘ sel) (y ∘ sel) (z ∘ sel) args = .ok s' → ∀ b, Supports env args none b →
          s'.execute env (pointsCall [p] b) = .ok ⟨[1], [some v], [some w]⟩ := by
  obtain ⟨sel, hi, hd, hh⟩ := C11_neighbours_2d h hpg hk ha hr hq hm
  refine ⟨sel, hi, fun i i' hi' => ?_, hh⟩
  have := hd i i' hi'
  rw [(OK.create_fields h).2.2.2.2.1, hg] at this
  simpa [distance2] using this

end
end PyKrige
