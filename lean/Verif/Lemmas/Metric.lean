import Verif.Spec.Distance
import Verif.Lemmas.Dist
import Verif.Lemmas.Create
import Verif.Lemmas.OKExec
import Verif.Lemmas.OK3DExec
import Verif.Lemmas.UKExec
import Verif.Lemmas.UK3DExec

/-! The distances computed by the classes are those of `Spec.Distance`. -/

namespace PyKrige
noncomputable section
open Matrix Spec

theorem onSphere_eq (p : ℝ × ℝ) : onSphere p = sphereVec p.1 p.2 := rfl

theorem greatCircle_eq (p q : ℝ × ℝ) : greatCircleDistance p.1 p.2 q.1 q.2 = sphereDist p q :=
  greatCircleDistance_eq_angle _ _ _ _

theorem adjust2_euclid (c : Fin 2 → ℝ) (sc an : ℝ) (p q : ℝ × ℝ) :
    euclid (adjust2 c sc an ![p.1, p.2]) (adjust2 c sc an ![q.1, q.2]) = anisoDist2 sc an p q := by
  unfold euclid adjust2 anisoDist2 rad
  simp only [Fin.sum_univ_two, Pi.add_apply, Matrix.mulVec, dotProduct, Pi.sub_apply, Real.cos_neg,
    Real.sin_neg, neg_neg]
  simp
  congr 1
  ring

theorem adjust3_euclid (c : Fin 3 → ℝ) (an : Aniso3) (p q : ℝ × ℝ × ℝ) :
    euclid (adjust3 c ![an.scalingY, an.scalingZ] ![an.angleX, an.angleY, an.angleZ] ![p.1, p.2.1, p.2.2])
      (adjust3 c ![an.scalingY, an.scalingZ] ![an.angleX, an.angleY, an.angleZ] ![q.1, q.2.1, q.2.2]) =
      distance3 an p q := by
  unfold euclid adjust3 distance3 rotX rotY rotZ rad
  simp only [Fin.sum_univ_three, Pi.add_apply, Matrix.mulVec, dotProduct, Pi.sub_apply, Real.cos_neg,
    Real.sin_neg, neg_neg, Prod.fst_sub, Prod.snd_sub]
  simp [Matrix.mul_apply, Fin.sum_univ_three]
  congr 1
  ring

/-! ### Placement of the data -/

/-- The adjusted coordinates are the original ones, adjusted with the current settings. -/
structure OK.Placed {n : ℕ} (s : OK n) : Prop where
  ctype : s.coordinatesType = "euclidean" ∨ s.coordinatesType = "geographic"
  euclidean : s.coordinatesType = "euclidean" → ∀ i, s.pts i =
    adjust2 ![s.XCENTER, s.YCENTER] s.anisotropyScaling s.anisotropyAngle ![s.X_ORIG i, s.Y_ORIG i]
  geographic : s.coordinatesType = "geographic" → s.X_ADJUSTED = s.X_ORIG ∧ s.Y_ADJUSTED = s.Y_ORIG ∧
    s.anisotropyScaling = 1 ∧ s.anisotropyAngle = 0

structure OK3D.Placed {n : ℕ} (s : OK3D n) : Prop where
  euclidean : ∀ i, s.pts i =
    adjustPoint3 s.XCENTER s.YCENTER s.ZCENTER s.aniso (s.X_ORIG i) (s.Y_ORIG i) (s.Z_ORIG i)

structure UK.Placed {n : ℕ} (s : UK n) : Prop where
  euclidean : ∀ i, s.pts i = s.adjustPoint (s.X_ORIG i, s.Y_ORIG i)

structure UK3D.Placed {n : ℕ} (s : UK3D n) : Prop where
  euclidean : ∀ i, s.pts i =
    adjustPoint3 s.XCENTER s.YCENTER s.ZCENTER s.aniso (s.X_ORIG i) (s.Y_ORIG i) (s.Z_ORIG i)

theorem vec2_eta (v : Fin 2 → ℝ) : ![v 0, v 1] = v := by
  funext i; fin_cases i <;> rfl

theorem vec3_eta (v : Fin 3 → ℝ) : ![v 0, v 1, v 2] = v := by
  funext i; fin_cases i <;> rfl

theorem OK.create_placed {n : ℕ} {env : Env} {x y z : Fin n → ℝ} {args : OKArgs} {s : OK n}
    (h : OK.create env x y z args = .ok s) : s.Placed ∧ s.X_ORIG = x ∧ s.Y_ORIG = y ∧ s.Z = z := by
  obtain ⟨hp, exact, name, model, fArg, pArg, sc₀, an₀, f, fname, xc, yc, sc, an, adj, vp, lags, ps, stats,
    h1, h2, h3, h4, h5, h6, h7, rfl⟩ := OK.create_ok h
  refine ⟨?_, rfl, rfl, rfl⟩
  unfold OK.setupCoordinates at h4
  split at h4
  · next he =>
    obtain ⟨xc', hx, h4⟩ := py_bind_eq_ok.1 h4
    obtain ⟨yc', hy, h4⟩ := py_bind_eq_ok.1 h4
    simp only [py_pure, Except.ok.injEq, Prod.mk.injEq] at h4
    obtain ⟨rfl, rfl, rfl, rfl, rfl⟩ := h4
    refine ⟨Or.inl he, fun _ i => ?_, fun hg => ?_⟩
    · exact vec2_eta (adjustData2 x y xc' yc' sc₀ an₀ i)
    · exact absurd (he.symm.trans hg) (by decide)
  · split at h4
    · next he hg =>
      simp only [Except.ok.injEq, Prod.mk.injEq] at h4
      obtain ⟨rfl, rfl, rfl, rfl, rfl⟩ := h4
      exact ⟨Or.inr hg, fun h => absurd h he, fun _ => ⟨rfl, rfl, rfl, rfl⟩⟩
    · simp at h4

theorem OK3D.create_placed {n : ℕ} {env : Env} {x y z v : Fin n → ℝ} {args : OK3DArgs} {s : OK3D n}
    (h : OK3D.create env x y z v args = .ok s) :
    s.Placed ∧ s.X_ORIG = x ∧ s.Y_ORIG = y ∧ s.Z_ORIG = z ∧ s.VALUES = v := by
  obtain ⟨hp, exact, name, model, fArg, pArg, an, f, fname, xc, yc, zc, vp, lags, ps, stats,
    h1, h2, h3, h4, h5, h6, h7, h8, h9, rfl⟩ := OK3D.create_ok h
  exact ⟨⟨fun i => vec3_eta (adjustPoint3 xc yc zc an (x i) (y i) (z i))⟩, rfl, rfl, rfl, rfl⟩

theorem UK.create_placed {n : ℕ} {env : Env} {x y z : Fin n → ℝ} {args : UKArgs} {s : UK n}
    (h : UK.create env x y z args = .ok s) : s.Placed ∧ s.X_ORIG = x ∧ s.Y_ORIG = y ∧ s.Z = z := by
  obtain ⟨hp, exact, name, model, fArg, pArg, sc, an, f, fname, xc, yc, vp, lags, ps, stats, ext, plog, spec,
    func, h1, h2, h3, h4, h5, h6, h7, h8, h9, h10, h11, h12, rfl⟩ := UK.create_ok h
  exact ⟨⟨fun i => vec2_eta (adjustData2 x y xc yc sc an i)⟩, rfl, rfl, rfl⟩

theorem UK3D.create_placed {n : ℕ} {env : Env} {x y z v : Fin n → ℝ} {args : UK3DArgs} {s : UK3D n}
    (h : UK3D.create env x y z v args = .ok s) :
    s.Placed ∧ s.X_ORIG = x ∧ s.Y_ORIG = y ∧ s.Z_ORIG = z ∧ s.VALUES = v := by
  obtain ⟨hp, exact, name, model, fArg, pArg, an, f, fname, xc, yc, zc, vp, lags, ps, stats, spec, func,
    h1, h2, h3, h4, h5, h6, h7, h8, h9, h10, h11, rfl⟩ := UK3D.create_ok h
  exact ⟨⟨fun i => vec3_eta (adjustPoint3 xc yc zc an (x i) (y i) (z i))⟩, rfl, rfl, rfl, rfl⟩

/-! ### Distances -/

theorem OK.Placed.dataDist {n : ℕ} {s : OK n} (h : s.Placed) (i j : Fin n) : s.dataDist i j =
    distance2 s.coordinatesType s.anisotropyScaling s.anisotropyAngle (s.X_ORIG i, s.Y_ORIG i)
      (s.X_ORIG j, s.Y_ORIG j) := by
  unfold OK.dataDist distance2
  split
  · next he =>
    rw [h.euclidean he, h.euclidean he]
    exact adjust2_euclid _ _ _ (s.X_ORIG i, s.Y_ORIG i) (s.X_ORIG j, s.Y_ORIG j)
  · next he =>
    obtain ⟨h1, h2, -⟩ := h.geographic (h.ctype.resolve_left he)
    rw [h1, h2]
    exact greatCircle_eq (s.X_ORIG i, s.Y_ORIG i) (s.X_ORIG j, s.Y_ORIG j)

theorem OK.Placed.queryDist {n : ℕ} {s : OK n} (h : s.Placed) (p : ℝ × ℝ) (i : Fin n) :
    s.queryDist (s.queryPt p) i =
    distance2 s.coordinatesType s.anisotropyScaling s.anisotropyAngle p (s.X_ORIG i, s.Y_ORIG i) := by
  unfold OK.queryDist distance2 OK.queryPt
  split
  · next he =>
    rw [h.euclidean he]
    exact adjust2_euclid _ _ _ p (s.X_ORIG i, s.Y_ORIG i)
  · next he =>
    obtain ⟨h1, h2, -⟩ := h.geographic (h.ctype.resolve_left he)
    rw [h1, h2]
    exact greatCircle_eq p (s.X_ORIG i, s.Y_ORIG i)

theorem OK3D.Placed.dataDist {n : ℕ} {s : OK3D n} (h : s.Placed) (i j : Fin n) : s.dataDist i j =
    distance3 s.aniso (s.X_ORIG i, s.Y_ORIG i, s.Z_ORIG i) (s.X_ORIG j, s.Y_ORIG j, s.Z_ORIG j) := by
  unfold OK3D.dataDist
  rw [h.euclidean, h.euclidean]
  exact adjust3_euclid _ _ (s.X_ORIG i, s.Y_ORIG i, s.Z_ORIG i) (s.X_ORIG j, s.Y_ORIG j, s.Z_ORIG j)

theorem OK3D.Placed.queryDist {n : ℕ} {s : OK3D n} (h : s.Placed) (p : ℝ × ℝ × ℝ) (i : Fin n) :
    s.queryDist (s.queryPt p) i = distance3 s.aniso p (s.X_ORIG i, s.Y_ORIG i, s.Z_ORIG i) := by
  rw [OK3D.queryDist_eq, h.euclidean]
  exact adjust3_euclid _ _ p (s.X_ORIG i, s.Y_ORIG i, s.Z_ORIG i)

theorem UK.Placed.dataDist {n : ℕ} {s : UK n} (h : s.Placed) (i j : Fin n) : s.dataDist i j =
    anisoDist2 s.anisotropyScaling s.anisotropyAngle (s.X_ORIG i, s.Y_ORIG i)
      (s.X_ORIG j, s.Y_ORIG j) := by
  unfold UK.dataDist
  rw [h.euclidean, h.euclidean]
  exact adjust2_euclid _ _ _ (s.X_ORIG i, s.Y_ORIG i) (s.X_ORIG j, s.Y_ORIG j)

theorem UK.Placed.queryDist {n : ℕ} {s : UK n} (h : s.Placed) (p : ℝ × ℝ) (i : Fin n) :
    s.queryDist p i =
    anisoDist2 s.anisotropyScaling s.anisotropyAngle p (s.X_ORIG i, s.Y_ORIG i) := by
  unfold UK.queryDist
  rw [h.euclidean]
  exact adjust2_euclid _ _ _ p (s.X_ORIG i, s.Y_ORIG i)

theorem UK3D.Placed.dataDist {n : ℕ} {s : UK3D n} (h : s.Placed) (i j : Fin n) : s.dataDist i j =
    distance3 s.aniso (s.X_ORIG i, s.Y_ORIG i, s.Z_ORIG i) (s.X_ORIG j, s.Y_ORIG j, s.Z_ORIG j) := by
  unfold UK3D.dataDist
  rw [h.euclidean, h.euclidean]
  exact adjust3_euclid _ _ (s.X_ORIG i, s.Y_ORIG i, s.Z_ORIG i) (s.X_ORIG j, s.Y_ORIG j, s.Z_ORIG j)

theorem UK3D.Placed.queryDist {n : ℕ} {s : UK3D n} (h : s.Placed) (p : ℝ × ℝ × ℝ) (i : Fin n) :
    s.queryDist p i = distance3 s.aniso p (s.X_ORIG i, s.Y_ORIG i, s.Z_ORIG i) := by
  unfold UK3D.queryDist
  rw [h.euclidean]
  exact adjust3_euclid _ _ p (s.X_ORIG i, s.Y_ORIG i, s.Z_ORIG i)

/-! ### Properties of the distances -/

theorem anisoDist2_comm (sc an : ℝ) (p q : ℝ × ℝ) : anisoDist2 sc an p q = anisoDist2 sc an q p := by
  rw [← adjust2_euclid 0, ← adjust2_euclid 0, euclid_comm]

theorem anisoDist2_self (sc an : ℝ) (p : ℝ × ℝ) : anisoDist2 sc an p p = 0 := by
  rw [← adjust2_euclid 0, euclid_self]

theorem distance3_comm (an : Aniso3) (p q : ℝ × ℝ × ℝ) : distance3 an p q = distance3 an q p := by
  rw [← adjust3_euclid 0, ← adjust3_euclid 0, euclid_comm]

theorem distance3_self (an : Aniso3) (p : ℝ × ℝ × ℝ) : distance3 an p p = 0 := by
  rw [← adjust3_euclid 0, euclid_self]

theorem sphereDist_comm (p q : ℝ × ℝ) : sphereDist p q = sphereDist q p := by
  unfold sphereDist; rw [InnerProductGeometry.angle_comm]

theorem sphereDist_self (p : ℝ × ℝ) : sphereDist p p = 0 := by
  rw [← greatCircle_eq, greatCircleDistance_self]

theorem distance2_comm (ct : String) (sc an : ℝ) (p q : ℝ × ℝ) :
    distance2 ct sc an p q = distance2 ct sc an q p := by
  unfold distance2; rw [anisoDist2_comm, sphereDist_comm]

theorem distance2_self (ct : String) (sc an : ℝ) (p : ℝ × ℝ) : distance2 ct sc an p p = 0 := by
  unfold distance2; rw [anisoDist2_self, sphereDist_self, ite_self]

theorem adjust2_id (c p : Fin 2 → ℝ) : adjust2 c 1 0 p = p := by
  have h : (!![1, 0; 0, 1] : Matrix (Fin 2) (Fin 2) ℝ) = 1 := by
    ext i j; fin_cases i <;> fin_cases j <;> rfl
  simp [adjust2, h]

theorem adjust3_id (c p : Fin 3 → ℝ) : adjust3 c ![1, 1] ![0, 0, 0] p = p := by
  have h : (!![1, 0, 0; 0, 1, 0; 0, 0, 1] : Matrix (Fin 3) (Fin 3) ℝ) = 1 := by
    ext i j; fin_cases i <;> fin_cases j <;> rfl
  simp [adjust3, h]

end
end PyKrige
