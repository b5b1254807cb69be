import Verif.Lemmas.Pointwise
import Verif.Lemmas.Laws

/-! The pointwise view of objects made by the constructors. -/

namespace PyKrige
noncomputable section
open Spec

theorem OK.create_pw {n : ℕ} {env : Env} {x y z : Fin n → ℝ} {args : OKArgs} {s : OK n}
    (h : OK.create env x y z args = .ok s) {ea : ExecArgs} (ha : Admissible env args s ea.nClosest) :
    Pointwise (fun r => s.execute env ea = .ok r) (resultShape ea) (queryAt ea)
      (maskedAt ea) (s.Acc env ea) (fun j => maskedAt ea j = false) (fun _ p => s.Valid env ea.nClosest p)
      (fun _ p => s.ans env ea.nClosest p) :=
  OK.pointwise ha.knn (OK.create_wf h ha.noClash ha.range) ea ha.window

theorem OK3D.create_pw {n : ℕ} {env : Env} {x y z v : Fin n → ℝ} {args : OK3DArgs} {s : OK3D n}
    (h : OK3D.create env x y z v args = .ok s) {ea : ExecArgs3} (hk : KnnSpec env)
    (hw : WindowFits n ea.nClosest) :
    Pointwise (fun r => s.execute env ea = .ok r) (resultShape3 ea) (queryAt3 ea)
      (maskedAt3 ea) (s.Acc ea) (fun j => maskedAt3 ea j = false) (fun _ p => s.Valid env ea.nClosest p)
      (fun _ p => s.ans env ea.nClosest p) :=
  OK3D.pointwise hk (by have := OK3D.create_fields h; rw [this.2.2.2.1]; exact this.1) ea hw

theorem UK.create_pw {n : ℕ} {env : Env} {x y z : Fin n → ℝ} {args : UKArgs} {s : UK n}
    (h : UK.create env x y z args = .ok s) (ea : UKExecArgs) :
    Pointwise (fun r => s.execute ea = .ok r) (resultShape ea.toExec) (queryAt ea.toExec)
      (maskedAt ea.toExec) (s.Acc ea) (fun j => maskedAt ea.toExec j = false ∨ ea.toExec.backend = "vectorized")
      (fun _ p => s.Valid ea p) (fun j p => s.ans ea j p) :=
  UK.pointwise (by have := UK.create_fields h; rw [this.2.2.2.1]; exact this.1) ea

theorem UK3D.create_pw {n : ℕ} {env : Env} {x y z v : Fin n → ℝ} {args : UK3DArgs} {s : UK3D n}
    (h : UK3D.create env x y z v args = .ok s) (ea : UK3DExecArgs) :
    Pointwise (fun r => s.execute ea = .ok r) (resultShape3 ea.toExec) (queryAt3 ea.toExec)
      (maskedAt3 ea.toExec) (s.Acc ea) (fun j => maskedAt3 ea.toExec j = false ∨ ea.toExec.backend = "vectorized")
      (fun _ p => s.Valid ea p) (fun j p => s.ans ea j p) :=
  UK3D.pointwise (by have := UK3D.create_fields h; rw [this.2.2.2.1]; exact this.1) ea

/-! ### Changing `exact_values` -/

theorem OK.create_exact {n : ℕ} {env : Env} {x y z : Fin n → ℝ} {args : OKArgs} {s : OK n}
    (h : OK.create env x y z args = .ok s) (b : Bool) :
    OK.create env x y z { args with exactValues := .bool b } = .ok { s with exactValues := b } := by
  obtain ⟨hp, exact, name, model, fArg, pArg, sc₀, an₀, f, fname, xc, yc, sc, an, adj, vp, lags, ps, stats,
    h1, h2, h3, h4, h5, h6, h7, rfl⟩ := OK.create_ok h
  unfold OK.create
  rw [if_neg (not_not.2 hp)]
  simp only [py_pure, py_ok_bind, h2, h3, h4, h5, h6]
  split at h7
  · next he =>
    obtain ⟨st, h7', rfl⟩ := py_map_eq_ok.1 h7
    simp [he, h7']
  · next he =>
    cases h7
    simp [he]

theorem OK3D.create_exact {n : ℕ} {env : Env} {x y z v : Fin n → ℝ} {args : OK3DArgs} {s : OK3D n}
    (h : OK3D.create env x y z v args = .ok s) (b : Bool) :
    OK3D.create env x y z v { args with exactValues := .bool b } = .ok { s with exactValues := b } := by
  obtain ⟨hp, exact, name, model, fArg, pArg, an, f, fname, xc, yc, zc, vp, lags, ps, stats,
    h1, h2, h3, h4, h5, h6, h7, h8, h9, rfl⟩ := OK3D.create_ok h
  unfold OK3D.create
  rw [if_neg (not_not.2 hp)]
  simp only [py_pure, py_ok_bind, h2, h3, h4, h5, h6, h7, h8, h9]

theorem UK.create_exact {n : ℕ} {env : Env} {x y z : Fin n → ℝ} {args : UKArgs} {s : UK n}
    (h : UK.create env x y z args = .ok s) (b : Bool) :
    UK.create env x y z { args with exactValues := .bool b } = .ok { s with exactValues := b } := by
  obtain ⟨hp, exact, name, model, fArg, pArg, sc, an, f, fname, xc, yc, vp, lags, ps, stats, ext, plog, spec,
    func, h1, h2, h3, h4, h5, h6, h7, h8, h9, h10, h11, h12, rfl⟩ := UK.create_ok h
  have h9' : setupExternalZ x y { args with exactValues := .bool b } = .ok ext := h9
  have h10' : setupPointLog xc yc sc an { args with exactValues := .bool b } = .ok plog := h10
  unfold UK.create
  rw [if_neg (not_not.2 hp)]
  simp only [py_pure, py_ok_bind, h2, h3, h4, h5, h6, h7, h8, h9', h10', h11, h12]

theorem UK3D.create_exact {n : ℕ} {env : Env} {x y z v : Fin n → ℝ} {args : UK3DArgs} {s : UK3D n}
    (h : UK3D.create env x y z v args = .ok s) (b : Bool) :
    UK3D.create env x y z v { args with exactValues := .bool b } = .ok { s with exactValues := b } := by
  obtain ⟨hp, exact, name, model, fArg, pArg, an, f, fname, xc, yc, zc, vp, lags, ps, stats, spec, func,
    h1, h2, h3, h4, h5, h6, h7, h8, h9, h10, h11, rfl⟩ := UK3D.create_ok h
  unfold UK3D.create
  rw [if_neg (not_not.2 hp)]
  simp only [py_pure, py_ok_bind, h2, h3, h4, h5, h6, h7, h8, h9, h10, h11]

end
end PyKrige
