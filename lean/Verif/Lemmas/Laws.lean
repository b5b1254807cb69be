import Verif.Lemmas.Krige
import Verif.Lemmas.SameZ
import Verif.Lemmas.Wf
import Verif.Lemmas.Metric

/-! Laws in the data values, for any of the classes. -/

set_option linter.unusedSectionVars false

namespace PyKrige
noncomputable section
open Matrix Spec

theorem estimate_const {n : ℕ} {w z : Fin n → ℝ} {c : ℝ} (hw : ∑ i, w i = 1) (hz : ∀ i, z i = c) :
    estimate w z = c := by
  unfold estimate
  simp [hz, ← Finset.sum_mul, hw]

theorem estimate_shift {n : ℕ} {w z : Fin n → ℝ} (c : ℝ) (hw : ∑ i, w i = 1) :
    (estimate w fun i => z i + c) = estimate w z + c := by
  unfold estimate
  simp [mul_add, Finset.sum_add_distrib, ← Finset.sum_mul, hw]

theorem estimate_linear {n : ℕ} (w z₁ z₂ : Fin n → ℝ) (a b : ℝ) :
    (estimate w fun i => a * z₁ i + b * z₂ i) = a * estimate w z₁ + b * estimate w z₂ := by
  unfold estimate
  simp only [Finset.mul_sum, ← Finset.sum_add_distrib]
  exact Finset.sum_congr rfl fun i _ => by ring

section weighs
variable {α : Type} {n : ℕ} {run : (Fin n → ℝ) → List (ℝ × ℝ) → Option Stats → ExecResult → Prop}
  {shape : List ℕ} {query : ℕ → Option α} {masked : ℕ → Bool} {Fact : ℕ → α → WRow n → Prop}

theorem Weighs.const (h : Weighs run shape query masked Fact)
    (h1 : ∀ j p row, Fact j p row → ∑ i, row.w i = 1) {z lags stats r} (hr : run z lags stats r) {c : ℝ}
    (hz : ∀ i, z i = c) {j : ℕ} {v : ℝ} (hv : r.z[j]? = some (some v)) : v = c := by
  obtain ⟨p, row, -, -, hF, rfl, -⟩ := h.entry hr hv
  exact estimate_const (h1 j p row hF) hz

theorem Weighs.shift (h : Weighs run shape query masked Fact)
    (h1 : ∀ j p row, Fact j p row → ∑ i, row.w i = 1) {z lags stats r} (hr : run z lags stats r) (c : ℝ)
    (lags' stats') : ∃ r', run (fun i => z i + c) lags' stats' r' ∧ r'.shape = r.shape ∧
      r'.z = r.z.map (Option.map (· + c)) ∧ r'.ss = r.ss := by
  obtain ⟨R, hR, rfl, hr'⟩ := h.run_other hr (fun i => z i + c) lags' stats'
  refine ⟨_, hr', rfl, ?_, rfl⟩
  unfold applyRows
  rw [List.map_map]
  refine List.map_congr_left fun o ho => ?_
  cases o with
  | none => rfl
  | some row =>
    obtain ⟨j, hj⟩ := List.getElem?_of_mem ho
    obtain ⟨-, p, -, hF⟩ := hR.visible j row hj
    simp [WRow.apply, estimate_shift c (h1 j p row hF)]

theorem Weighs.linear (h : Weighs run shape query masked Fact) {z₁ lags₁ stats₁ r₁}
    (hr : run z₁ lags₁ stats₁ r₁) (z₂ : Fin n → ℝ) (a b : ℝ) (lags₂ stats₂ lags₃ stats₃) :
    ∃ r₂ r₃, run z₂ lags₂ stats₂ r₂ ∧ run (fun i => a * z₁ i + b * z₂ i) lags₃ stats₃ r₃ ∧
      r₂.shape = r₁.shape ∧ r₃.shape = r₁.shape ∧
      r₃.z = List.zipWith (Option.map₂ fun u v => a * u + b * v) r₁.z r₂.z ∧
      r₂.ss = r₁.ss ∧ r₃.ss = r₁.ss := by
  obtain ⟨P, -, h2, h3⟩ := h
  obtain ⟨R, hR, rfl⟩ := (h2 _ _ _ _).1 hr
  refine ⟨_, _, (h2 _ _ _ _).2 ⟨R, hR, rfl⟩, (h2 _ _ _ _).2 ⟨R, hR, rfl⟩, rfl, rfl, ?_, rfl, rfl⟩
  unfold applyRows
  rw [List.zipWith_map, List.zipWith_self]
  refine List.map_congr_left fun o _ => ?_
  cases o with
  | none => rfl
  | some row => simp [WRow.apply, estimate_linear]

theorem Weighs.negate (h : Weighs run shape query masked Fact) {z lags stats r} (hr : run z lags stats r)
    (lags' stats') : ∃ r', run (fun i => -z i) lags' stats' r' ∧ r'.shape = r.shape ∧
      r'.z = r.z.map (Option.map fun e => -e) ∧ r'.ss = r.ss := by
  obtain ⟨P, -, h2, h3⟩ := h
  obtain ⟨R, hR, rfl⟩ := (h2 _ _ _ _).1 hr
  refine ⟨_, (h2 _ _ _ _).2 ⟨R, hR, rfl⟩, rfl, ?_, rfl⟩
  unfold applyRows
  rw [List.map_map]
  refine List.map_congr_left fun o _ => ?_
  cases o with
  | none => rfl
  | some row => simp [WRow.apply, estimate, Finset.sum_neg_distrib]

/-- `execute` is a function of the object: two results for the same values agree. -/
theorem Weighs.unique (h : Weighs run shape query masked Fact) {z lags stats r lags' stats' r'}
    (hr : run z lags stats r) (hr' : run z lags' stats' r') : r' = r := by
  obtain ⟨P, h1, h2, h3⟩ := h
  obtain ⟨R, hR, rfl⟩ := (h2 _ _ _ _).1 hr
  obtain ⟨R', hR', rfl⟩ := (h2 _ _ _ _).1 hr'
  rw [h1 _ _ hR hR']

end weighs

/-! ### What the constructor arguments tell about the object -/

theorem OK.create_fields {n : ℕ} {env : Env} {x y z : Fin n → ℝ} {args : OKArgs} {s : OK n}
    (h : OK.create env x y z args = .ok s) :
    args.pseudoInvType ∈ ["pinv", "pinvh"] ∧ args.exactValues = .bool s.exactValues ∧
    s.pseudoInv = args.pseudoInv ∧ s.pseudoInvType = args.pseudoInvType ∧
    s.coordinatesType = args.coordinatesType ∧ s.X_ORIG = x ∧ s.Y_ORIG = y ∧ s.Z = z := by
  obtain ⟨hp, exact, name, model, fArg, pArg, sc₀, an₀, f, fname, xc, yc, sc, an, adj, vp, lags, ps, stats,
    h1, h2, h3, h4, h5, h6, h7, rfl⟩ := OK.create_ok h
  exact ⟨hp, h1, rfl, rfl, rfl, rfl, rfl, rfl⟩

theorem OK3D.create_fields {n : ℕ} {env : Env} {x y z v : Fin n → ℝ} {args : OK3DArgs} {s : OK3D n}
    (h : OK3D.create env x y z v args = .ok s) :
    args.pseudoInvType ∈ ["pinv", "pinvh"] ∧ args.exactValues = .bool s.exactValues ∧
    s.pseudoInv = args.pseudoInv ∧ s.pseudoInvType = args.pseudoInvType ∧
    s.X_ORIG = x ∧ s.Y_ORIG = y ∧ s.Z_ORIG = z ∧ s.VALUES = v := by
  obtain ⟨hp, exact, name, model, fArg, pArg, an, f, fname, xc, yc, zc, vp, lags, ps, stats,
    h1, h2, h3, h4, h5, h6, h7, h8, h9, rfl⟩ := OK3D.create_ok h
  exact ⟨hp, h1, rfl, rfl, rfl, rfl, rfl, rfl⟩

theorem UK.create_fields {n : ℕ} {env : Env} {x y z : Fin n → ℝ} {args : UKArgs} {s : UK n}
    (h : UK.create env x y z args = .ok s) :
    args.pseudoInvType ∈ ["pinv", "pinvh"] ∧ args.exactValues = .bool s.exactValues ∧
    s.pseudoInv = args.pseudoInv ∧ s.pseudoInvType = args.pseudoInvType ∧
    s.X_ORIG = x ∧ s.Y_ORIG = y ∧ s.Z = z := by
  obtain ⟨hp, exact, name, model, fArg, pArg, sc, an, f, fname, xc, yc, vp, lags, ps, stats, ext, plog, spec,
    func, h1, h2, h3, h4, h5, h6, h7, h8, h9, h10, h11, h12, rfl⟩ := UK.create_ok h
  exact ⟨hp, h1, rfl, rfl, rfl, rfl, rfl⟩

theorem UK3D.create_fields {n : ℕ} {env : Env} {x y z v : Fin n → ℝ} {args : UK3DArgs} {s : UK3D n}
    (h : UK3D.create env x y z v args = .ok s) :
    args.pseudoInvType ∈ ["pinv", "pinvh"] ∧ args.exactValues = .bool s.exactValues ∧
    s.pseudoInv = args.pseudoInv ∧ s.pseudoInvType = args.pseudoInvType ∧
    s.X_ORIG = x ∧ s.Y_ORIG = y ∧ s.Z_ORIG = z ∧ s.VALUES = v := by
  obtain ⟨hp, exact, name, model, fArg, pArg, an, f, fname, xc, yc, zc, vp, lags, ps, stats, spec, func,
    h1, h2, h3, h4, h5, h6, h7, h8, h9, h10, h11, rfl⟩ := UK3D.create_ok h
  exact ⟨hp, h1, rfl, rfl, rfl, rfl, rfl, rfl⟩

/-! ### The weights of the four classes -/

theorem OK.create_weighs {n : ℕ} {env : Env} {x y z : Fin n → ℝ} {args : OKArgs} {s : OK n}
    (h : OK.create env x y z args = .ok s) {ea : ExecArgs} (ha : Admissible env args s ea.nClosest) :
    Weighs (fun z lags stats r => (s.withZ z lags stats).execute env ea = .ok r) (resultShape ea)
      (queryAt ea) (maskedAt ea) (s.Fact env ea.nClosest) :=
  OK.execute_weighs ha.knn (OK.create_wf h ha.noClash ha.range) ea ha.window

theorem OK3D.create_weighs {n : ℕ} {env : Env} {x y z v : Fin n → ℝ} {args : OK3DArgs} {s : OK3D n}
    (h : OK3D.create env x y z v args = .ok s) {ea : ExecArgs3} (hk : KnnSpec env)
    (hw : WindowFits n ea.nClosest) :
    Weighs (fun z lags stats r => (s.withZ z lags stats).execute env ea = .ok r) (resultShape3 ea)
      (queryAt3 ea) (maskedAt3 ea) (s.Fact env ea.nClosest) :=
  OK3D.execute_weighs hk (by have := OK3D.create_fields h; rw [this.2.2.2.1]; exact this.1) ea hw

theorem UK.create_weighs {n : ℕ} {env : Env} {x y z : Fin n → ℝ} {args : UKArgs} {s : UK n}
    (h : UK.create env x y z args = .ok s) (ea : UKExecArgs) :
    Weighs (fun z lags stats r => (s.withZ z lags stats).execute ea = .ok r) (resultShape ea.toExec)
      (queryAt ea.toExec) (maskedAt ea.toExec) (s.Fact ea) :=
  UK.execute_weighs (by have := UK.create_fields h; rw [this.2.2.2.1]; exact this.1) ea

theorem UK3D.create_weighs {n : ℕ} {env : Env} {x y z v : Fin n → ℝ} {args : UK3DArgs} {s : UK3D n}
    (h : UK3D.create env x y z v args = .ok s) (ea : UK3DExecArgs) :
    Weighs (fun z lags stats r => (s.withZ z lags stats).execute ea = .ok r) (resultShape3 ea.toExec)
      (queryAt3 ea.toExec) (maskedAt3 ea.toExec) (s.Fact ea) :=
  UK3D.execute_weighs (by have := UK3D.create_fields h; rw [this.2.2.2.1]; exact this.1) ea

theorem OK.Fact.sum_one {n : ℕ} {env : Env} {s : OK n} {nc : Option ℤ} {j : ℕ} {p : ℝ × ℝ} {row : WRow n}
    (h : s.Fact env nc j p row) (hp : s.pseudoInv = false ∨ nc ≠ none) : ∑ i, row.w i = 1 := by
  obtain ⟨γ, -, ⟨hn, hk⟩ | ⟨k, -, hk⟩⟩ := h
  · obtain ⟨w, ν, μ, e⟩ := hk.krigedEqs (Or.inl (hp.resolve_right (not_not.2 hn)))
    exact e.sum_one
  · obtain ⟨w, ν, μ, e⟩ := hk.krigedEqs (Or.inl rfl)
    exact e.sum_one

theorem OK3D.Fact.sum_one {n : ℕ} {env : Env} {s : OK3D n} {nc : Option ℤ} {j : ℕ} {p : ℝ × ℝ × ℝ}
    {row : WRow n} (h : s.Fact env nc j p row) (hp : s.pseudoInv = false ∨ nc ≠ none) :
    ∑ i, row.w i = 1 := by
  obtain ⟨γ, -, ⟨hn, hk⟩ | ⟨k, -, hk⟩⟩ := h
  · obtain ⟨w, ν, μ, e⟩ := hk.krigedEqs (Or.inl (hp.resolve_right (not_not.2 hn)))
    exact e.sum_one
  · obtain ⟨w, ν, μ, e⟩ := hk.krigedEqs (Or.inl rfl)
    exact e.sum_one

theorem UK.Fact.sum_one {n : ℕ} {s : UK n} {ea : UKExecArgs} {j : ℕ} {p : ℝ × ℝ} {row : WRow n}
    (h : s.Fact ea j p row) (hp : s.pseudoInv = false) : ∑ i, row.w i = 1 := by
  obtain ⟨γ, spec, -, -, -, z, sv, -, -, -, hk⟩ := h
  obtain ⟨w, ν, μ, e⟩ := hk.krigedEqs (Or.inl hp)
  exact e.sum_one

theorem UK3D.Fact.sum_one {n : ℕ} {s : UK3D n} {ea : UK3DExecArgs} {j : ℕ} {p : ℝ × ℝ × ℝ} {row : WRow n}
    (h : s.Fact ea j p row) (hp : s.pseudoInv = false) : ∑ i, row.w i = 1 := by
  obtain ⟨γ, spec, -, -, sv, -, -, hk⟩ := h
  obtain ⟨w, ν, μ, e⟩ := hk.krigedEqs (Or.inl hp)
  exact e.sum_one

end
end PyKrige
