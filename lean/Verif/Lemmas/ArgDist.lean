import Verif.Lemmas.MetricCongr

/-! The distances of constructed objects in terms of the constructor arguments. -/

namespace PyKrige
noncomputable section
open Matrix Spec

theorem OK.create_dist {n : ℕ} {env : Env} {x y z : Fin n → ℝ} {args : OKArgs} {s : OK n}
    (h : OK.create env x y z args = .ok s) :
    (∀ i j, s.dataDist i j = okDistance args (x i, y i) (x j, y j)) ∧
      ∀ p i, s.queryDist (s.queryPt p) i = okDistance args p (x i, y i) := by
  obtain ⟨s', h1, -, -, -, -, -, -, -, -, -, -, hD, hq, -⟩ := OK.create_metric h x y args.anisotropyScaling
    args.anisotropyAngle (fun _ _ => rfl)
  obtain ⟨hpl, hx, hy, -⟩ := OK.create_placed h
  refine ⟨fun i j => ?_, hq⟩
  rw [hpl.dataDist, ← hpl.queryDist, hq, hx, hy]
  rfl

theorem OK3D.create_dist {n : ℕ} {env : Env} {x y z v : Fin n → ℝ} {args : OK3DArgs} {s : OK3D n}
    (h : OK3D.create env x y z v args = .ok s) :
    (∀ i j, s.dataDist i j = ok3Distance args (x i, y i, z i) (x j, y j, z j)) ∧
      ∀ p i, s.queryDist (s.queryPt p) i = ok3Distance args p (x i, y i, z i) := by
  obtain ⟨s', h1, -, -, -, -, -, -, -, hD, hq, -⟩ := OK3D.create_metric h x y z args.aniso (fun _ _ => rfl)
  obtain ⟨hpl, hx, hy, hz, -⟩ := OK3D.create_placed h
  refine ⟨fun i j => ?_, hq⟩
  rw [hpl.dataDist, ← hpl.queryDist, hq, hx, hy, hz]
  rfl

theorem UK.create_aniso {n : ℕ} {env : Env} {x y z : Fin n → ℝ} {args : UKArgs} {s : UK n}
    (h : UK.create env x y z args = .ok s) :
    s.anisotropyScaling = effScaling args.variogramModel args.anisotropyScaling ∧
      s.anisotropyAngle = effAngle args.variogramModel args.anisotropyAngle := by
  obtain ⟨hp, exact, name, model, fArg, pArg, sc, an, f, fname, xc, yc, vp, lags, ps, stats, ext, plog, spec,
    func, h1, h2, h3, h4, h5, h6, h7, h8, h9, h10, h11, h12, rfl⟩ := UK.create_ok h
  obtain ⟨h1, h2, -⟩ := UK.resolveModel_eff h2
  exact ⟨h1, h2⟩

theorem UK3D.create_aniso {n : ℕ} {env : Env} {x y z v : Fin n → ℝ} {args : UK3DArgs} {s : UK3D n}
    (h : UK3D.create env x y z v args = .ok s) :
    s.aniso = effAniso args.variogramModel args.aniso := by
  obtain ⟨hp, exact, name, model, fArg, pArg, an, f, fname, xc, yc, zc, vp, lags, ps, stats, spec, func,
    h1, h2, h3, h4, h5, h6, h7, h8, h9, h10, h11, rfl⟩ := UK3D.create_ok h
  exact (OK3D.resolveModel_eff h2).1

theorem UK.create_dist {n : ℕ} {env : Env} {x y z : Fin n → ℝ} {args : UKArgs} {s : UK n}
    (h : UK.create env x y z args = .ok s) :
    (∀ i j, s.dataDist i j = ukDistance args (x i, y i) (x j, y j)) ∧
      ∀ p i, s.queryDist p i = ukDistance args p (x i, y i) := by
  obtain ⟨hpl, hx, hy, -⟩ := UK.create_placed h
  obtain ⟨h1, h2⟩ := UK.create_aniso h
  refine ⟨fun i j => ?_, fun p i => ?_⟩
  · rw [hpl.dataDist, h1, h2, hx, hy]; rfl
  · rw [hpl.queryDist, h1, h2, hx, hy]; rfl

theorem UK3D.create_dist {n : ℕ} {env : Env} {x y z v : Fin n → ℝ} {args : UK3DArgs} {s : UK3D n}
    (h : UK3D.create env x y z v args = .ok s) :
    (∀ i j, s.dataDist i j = uk3Distance args (x i, y i, z i) (x j, y j, z j)) ∧
      ∀ p i, s.queryDist p i = uk3Distance args p (x i, y i, z i) := by
  obtain ⟨hpl, hx, hy, hz, -⟩ := UK3D.create_placed h
  have h1 := UK3D.create_aniso h
  refine ⟨fun i j => ?_, fun p i => ?_⟩
  · rw [hpl.dataDist, h1, hx, hy, hz]; rfl
  · rw [hpl.queryDist, h1, hx, hy, hz]; rfl

end
end PyKrige
