import Verif.Lemmas.Rows
import Verif.Lemmas.Create

/-! Replacing the inverse by the pseudo-inverse keeps every result. -/

set_option linter.unusedSectionVars false

namespace PyKrige
noncomputable section
open Matrix Spec

theorem invertPython_pseudo {N : ℕ} {t : String} (ht : t ∈ ["pinv", "pinvh"]) {a b : Matrix (Fin N) (Fin N) ℝ}
    (ha : aᵀ = a) (h : invertPython false t a = .ok b) : invertPython true t a = .ok b := by
  unfold invertPython at *
  rw [if_neg (by simp)] at h
  rw [if_pos rfl]
  unfold scipyInv at h
  split at h
  · cases h
  next hd =>
  have hb := Except.ok.inj h
  simp only [List.mem_cons, List.not_mem_nil, or_false] at ht
  rcases ht with rfl | rfl
  · simp [P_INV, scipyPinv_of_det hd, hb]
  · simp [P_INV, scipyPinvh_of_symm ha, scipyPinv_of_det hd, hb]

theorem invertC_pseudo {N : ℕ} {t : String} (ht : t ∈ ["pinv", "pinvh"]) {a b : Matrix (Fin N) (Fin N) ℝ}
    (ha : aᵀ = a) (h : invertC false t a = .ok b) : invertC true t a = .ok b := by
  unfold invertC at *
  rw [if_neg (by simp)] at h
  rw [if_pos rfl]
  unfold scipyInv at h
  split at h
  · cases h
  next hd =>
  have hb := Except.ok.inj h
  simp only [List.mem_cons, List.not_mem_nil, or_false] at ht
  rcases ht with rfl | rfl
  · simp [scipyPinv_of_det hd, hb]
  · simp [scipyPinvh_of_symm ha, scipyPinv_of_det hd, hb]

theorem krige_pseudo {n m : ℕ} {X : Fin n → Fin m → ℝ} {y : Fin n → ℝ} {q : Fin m → ℝ} {f : VFun} {ps : List ℝ}
    {ct : String} {r : ℝ × ℝ} (h : krige X y q f ps ct false = .ok r) : krige X y q f ps ct true = .ok r := by
  unfold krige at *
  obtain ⟨⟨d, bd⟩, h1, h2⟩ := py_bind_eq_ok.1 h
  obtain ⟨γ, h3, h4⟩ := py_bind_eq_ok.1 h2
  rw [h1, py_ok_bind]
  dsimp only
  rw [h3, py_ok_bind]
  rw [if_neg (by simp)] at h4
  rw [if_pos rfl]
  obtain ⟨res, h5, h6⟩ := py_bind_eq_ok.1 h4
  unfold scipySolve at h5
  split at h5
  · cases h5
  next hd =>
  rw [py_pure, py_ok_bind, scipyPinv_of_det hd, Except.ok.inj h5]
  exact h6

theorem statEntry_pseudo {n m : ℕ} {X : Fin n → Fin m → ℝ} {y : Fin n → ℝ} {f : VFun} {ps : List ℝ}
    {ct : String} {i : Fin n} {r} (h : statEntry X y f ps ct false i = .ok r) :
    statEntry X y f ps ct true i = .ok r := by
  unfold statEntry at *
  obtain ⟨⟨k, ss⟩, h1, h2⟩ := py_bind_eq_ok.1 h
  rw [krige_pseudo h1, py_ok_bind]
  exact h2

theorem findStatistics_pseudo {n m : ℕ} {X : Fin n → Fin m → ℝ} {y : Fin n → ℝ} {f : VFun} {ps : List ℝ}
    {ct : String} {r} (h : findStatistics X y f ps ct false = .ok r) :
    findStatistics X y f ps ct true = .ok r := by
  unfold findStatistics at *
  obtain ⟨l, h1, h2⟩ := py_bind_eq_ok.1 h
  have : ((List.finRange n).filter fun i => decide (i.val ≠ 0)).mapM (statEntry X y f ps ct true) = .ok l := by
    rw [py_mapM_eq_ok] at h1 ⊢
    exact h1.imp fun _ _ => statEntry_pseudo
  rw [this, py_ok_bind]
  exact h2

theorem coreKrigingMatrix_symm {n : ℕ} (γ : ℝ → ℝ) {d : Fin n → Fin n → ℝ} (hd : ∀ i j, d i j = d j i) :
    (coreKrigingMatrix n γ d)ᵀ = coreKrigingMatrix n γ d :=
  transpose_of_submatrix rfl (semivar_comm hd) (coreKrigingMatrix_submatrix n γ d)

/-! ### The constructors -/

theorem OK.create_pseudo {n : ℕ} {env : Env} {x y z : Fin n → ℝ} {args : OKArgs} {s : OK n}
    (h : OK.create env x y z args = .ok s) (hp : args.pseudoInv = false) :
    OK.create env x y z { args with pseudoInv := true } = .ok { s with pseudoInv := true } := by
  obtain ⟨h0, exact, name, model, fArg, pArg, sc₀, an₀, f, fname, xc, yc, sc, an, adj, vp, lags, ps, stats, h1, h2,
    h3, h4, h5, h6, h7, rfl⟩ := OK.create_ok h
  unfold OK.create
  rw [if_neg (not_not.2 h0)]
  dsimp only
  rw [h1]
  simp only [py_pure, py_ok_bind, h2, h3, h4, h5, h6]
  split at h7
  · next he =>
    rw [if_pos he]
    rw [hp] at h7
    obtain ⟨st, h8, rfl⟩ := py_map_eq_ok.1 h7
    rw [findStatistics_pseudo h8]
    rfl
  · next he =>
    rw [if_neg he]
    cases h7
    rfl

theorem OK3D.create_pseudo {n : ℕ} {env : Env} {x y z v : Fin n → ℝ} {args : OK3DArgs} {s : OK3D n}
    (h : OK3D.create env x y z v args = .ok s) (hp : args.pseudoInv = false) :
    OK3D.create env x y z v { args with pseudoInv := true } = .ok { s with pseudoInv := true } := by
  obtain ⟨h0, exact, name, model, fArg, pArg, an, f, fname, xc, yc, zc, vp, lags, ps, stats, h1, h2, h3, h4, h5, h6,
    h7, h8, h9, rfl⟩ := OK3D.create_ok h
  rw [hp] at h9
  unfold OK3D.create
  rw [if_neg (not_not.2 h0)]
  dsimp only
  rw [h1]
  simp only [py_pure, py_ok_bind, h2, h3, h4, h5, h6, h7, h8, findStatistics_pseudo h9]

theorem UK.create_pseudo {n : ℕ} {env : Env} {x y z : Fin n → ℝ} {args : UKArgs} {s : UK n}
    (h : UK.create env x y z args = .ok s) (hp : args.pseudoInv = false) :
    UK.create env x y z { args with pseudoInv := true } = .ok { s with pseudoInv := true } := by
  obtain ⟨h0, exact, name, model, fArg, pArg, sc, an, f, fname, xc, yc, vp, lags, ps, stats, ext, plog, spec, func,
    h1, h2, h3, h4, h5, h6, h7, h8, h9, h10, h11, h12, rfl⟩ := UK.create_ok h
  rw [hp] at h8
  unfold UK.create
  rw [if_neg (not_not.2 h0)]
  dsimp only
  rw [h1]
  have h9' : setupExternalZ x y { args with pseudoInv := true } = .ok ext := h9
  have h10' : setupPointLog xc yc sc an { args with pseudoInv := true } = .ok plog := h10
  rw [h1] at h9' h10'
  simp only [py_pure, py_ok_bind, h2, h3, h4, h5, h6, h7, findStatistics_pseudo h8, h9', h10', h11, h12]

theorem UK3D.create_pseudo {n : ℕ} {env : Env} {x y z v : Fin n → ℝ} {args : UK3DArgs} {s : UK3D n}
    (h : UK3D.create env x y z v args = .ok s) (hp : args.pseudoInv = false) :
    UK3D.create env x y z v { args with pseudoInv := true } = .ok { s with pseudoInv := true } := by
  obtain ⟨h0, exact, name, model, fArg, pArg, an, f, fname, xc, yc, zc, vp, lags, ps, stats, spec, func,
    h1, h2, h3, h4, h5, h6, h7, h8, h9, h10, h11, rfl⟩ := UK3D.create_ok h
  rw [hp] at h9
  unfold UK3D.create
  rw [if_neg (not_not.2 h0)]
  dsimp only
  rw [h1]
  simp only [py_pure, py_ok_bind, h2, h3, h4, h5, h6, h7, h8, findStatistics_pseudo h9, h10, h11]

/-! ### execute -/

theorem solvable_pseudo {ι κ : Type} [Fintype ι] [Fintype κ] [DecidableEq ι] [DecidableEq κ] {G : ι → ι → ℝ}
    {F : κ → ι → ℝ} {p : Bool} (hp : p = false) (h : Solvable p G F) : Regular G F ∧ Solvable true G F := by
  rcases h with h | h
  · rw [hp] at h; cases h
  · exact ⟨h, .inr h⟩

theorem OK.globalKrige_pseudo {n : ℕ} {s : OK n} (hs : s.pseudoInvType ∈ ["pinv", "pinvh"])
    (hp : s.pseudoInv = false) {a : Matrix (Fin (n + 1)) (Fin (n + 1)) ℝ} (ha : aᵀ = a) {qs mask b res}
    (h : s.globalKrige a qs mask b = .ok res) :
    ({ s with pseudoInv := true } : OK n).globalKrige a qs mask b = .ok res := by
  unfold OK.globalKrige at *
  by_cases hb : b = "vectorized"
  · rw [if_pos hb] at h ⊢
    unfold OK.execVector at *
    obtain ⟨inv, h1, h2⟩ := py_bind_eq_ok.1 h
    exact py_bind_eq_ok.2 ⟨inv, invertPython_pseudo hs ha (hp ▸ h1), h2⟩
  rw [if_neg hb] at h ⊢
  by_cases hb' : b = "loop"
  · rw [if_pos hb'] at h ⊢
    unfold OK.execLoop at *
    obtain ⟨inv, h1, h2⟩ := py_bind_eq_ok.1 h
    exact py_bind_eq_ok.2 ⟨inv, invertPython_pseudo hs ha (hp ▸ h1), h2⟩
  rw [if_neg hb'] at h ⊢
  by_cases hc : b = "C"
  · rw [if_pos hc] at h ⊢
    unfold OK.cExecLoop at *
    obtain ⟨γ, h0, h⟩ := py_bind_eq_ok.1 h
    obtain ⟨inv, h1, h2⟩ := py_bind_eq_ok.1 h
    exact py_bind_eq_ok.2 ⟨γ, h0, py_bind_eq_ok.2 ⟨inv, invertC_pseudo hs ha (hp ▸ h1), h2⟩⟩
  · rw [if_neg hc] at h; cases h

theorem OK.execute_pseudo {n : ℕ} {env : Env} {s : OK n} (hs : s.pseudoInvType ∈ ["pinv", "pinvh"])
    (hp : s.pseudoInv = false) {ea : ExecArgs} {r : ExecResult} (h : s.execute env ea = .ok r) :
    ({ s with pseudoInv := true } : OK n).execute env ea = .ok r := by
  cases hn : ea.nClosest with
  | some k =>
    rw [← h]
    unfold OK.execute
    rw [hn]
    rfl
  | none =>
    unfold OK.execute at *
    by_cases hst : ea.style ∉ ["grid", "masked", "points"]
    · rw [if_pos hst] at h; cases h
    rw [if_neg hst] at h ⊢
    rw [hn] at h ⊢
    dsimp only at h ⊢
    obtain ⟨a, h1, h⟩ := py_bind_eq_ok.1 h
    refine py_bind_eq_ok.2 ⟨a, h1, ?_⟩
    obtain ⟨⟨pts, mask⟩, h2, h⟩ := py_bind_eq_ok.1 h
    refine py_bind_eq_ok.2 ⟨_, h2, ?_⟩
    dsimp only at h ⊢
    obtain ⟨qs, h3, h⟩ := py_bind_eq_ok.1 h
    refine py_bind_eq_ok.2 ⟨qs, h3, ?_⟩
    obtain ⟨res, h4, h⟩ := py_bind_eq_ok.1 h
    refine py_bind_eq_ok.2 ⟨res, OK.globalKrige_pseudo hs hp ?_ h4, h⟩
    rw [OK.getKrigingMatrix_eq] at h1
    obtain ⟨γ, -, h1⟩ := py_bind_eq_ok.1 h1
    rw [← Except.ok.inj h1]
    exact coreKrigingMatrix_symm γ s.dataDist_comm

theorem OK3D.execute_pseudo {n : ℕ} {env : Env} {s : OK3D n} (hs : s.pseudoInvType ∈ ["pinv", "pinvh"])
    (hp : s.pseudoInv = false) {ea : ExecArgs3} {r : ExecResult} (h : s.execute env ea = .ok r) :
    ({ s with pseudoInv := true } : OK3D n).execute env ea = .ok r := by
  cases hn : ea.nClosest with
  | some k =>
    rw [← h]
    unfold OK3D.execute
    rw [hn]
    rfl
  | none =>
    rw [OK3D.execute_global_iff hs r hn] at h
    obtain ⟨h1, γ, pts, mask, h2, h3, h4, h5, h6, h7⟩ := h
    obtain ⟨h8, h9⟩ := solvable_pseudo hp h6
    refine (OK3D.execute_global_iff (s := { s with pseudoInv := true }) hs r hn).2
      ⟨h1, γ, pts, mask, h2, h3, h4, h5, h9, ?_⟩
    rw [h7]
    congr 1
    funext p
    exact (krigAnswer_of_regular h8 _ _ _ _).trans (krigAnswer_of_regular h8 _ _ _ _).symm

theorem UK.executeW_pseudo {n : ℕ} {s : UK n} (hs : s.pseudoInvType ∈ ["pinv", "pinvh"])
    (hp : s.pseudoInv = false) {ea : UKExecArgs} {r} (h : s.executeW ea = .ok r) :
    ({ s with pseudoInv := true } : UK n).executeW ea = .ok r := by
  unfold UK.executeW at *
  by_cases hst : ea.toExec.style ∉ ["grid", "masked", "points"]
  · rw [if_pos hst] at h; cases h
  rw [if_neg hst] at h ⊢
  obtain ⟨⟨a, wa⟩, h1, h⟩ := py_bind_eq_ok.1 h
  have h1' : ({ s with pseudoInv := true } : UK n).getKrigingMatrix = .ok (a, wa) := h1
  rw [h1', py_ok_bind]
  dsimp only at h ⊢
  obtain ⟨⟨pts, mask⟩, h2, h⟩ := py_bind_eq_ok.1 h
  rw [h2, py_ok_bind]
  dsimp only at h ⊢
  obtain ⟨spec, h3, h⟩ := py_bind_eq_ok.1 h
  have h3' : ({ s with pseudoInv := true } : UK n).specGrids ea = .ok spec := h3
  rw [h3', py_ok_bind]
  by_cases hc : (ea.toExec.xpoints.isInt && ea.toExec.ypoints.isInt) = true
  · rw [if_pos hc] at h; cases h
  rw [if_neg hc] at h ⊢
  have ha : aᵀ = a := by
    rw [UK.getKrigingMatrix_eq] at h1
    obtain ⟨γ, -, h1⟩ := py_bind_eq_ok.1 h1
    have := (Prod.mk.inj (Except.ok.inj h1)).1
    rw [← this]
    have hN : s.nWithDrifts + 1 = n + s.driftData.length + 1 := by rw [s.driftData_length]
    exact transpose_of_submatrix hN (semivar_comm s.dataDist_comm) (ukMatrix_submatrix _ γ s.dataDist s.driftData hN)
  have key : ∀ b, invertPython s.pseudoInv s.pseudoInvType a = .ok b →
      invertPython true s.pseudoInvType a = .ok b := fun b hb => invertPython_pseudo hs ha (hp ▸ hb)
  by_cases hb : ea.toExec.backend = "vectorized"
  · rw [if_pos hb] at h ⊢
    obtain ⟨res, h5, h6⟩ := py_bind_eq_ok.1 h
    have : ({ s with pseudoInv := true } : UK n).execVector a (({ s with pseudoInv := true } : UK n).queries pts) spec
        = .ok res := by
      unfold UK.execVector at h5 ⊢
      obtain ⟨inv, h7, h8⟩ := py_bind_eq_ok.1 h5
      exact py_bind_eq_ok.2 ⟨inv, key _ h7, h8⟩
    exact py_bind_eq_ok.2 ⟨res, this, h6⟩
  rw [if_neg hb] at h ⊢
  by_cases hb' : ea.toExec.backend = "loop"
  · rw [if_pos hb'] at h ⊢
    obtain ⟨res, h5, h6⟩ := py_bind_eq_ok.1 h
    have : ({ s with pseudoInv := true } : UK n).execLoop a (({ s with pseudoInv := true } : UK n).queries pts) mask spec
        = .ok res := by
      unfold UK.execLoop at h5 ⊢
      obtain ⟨inv, h7, h8⟩ := py_bind_eq_ok.1 h5
      exact py_bind_eq_ok.2 ⟨inv, key _ h7, h8⟩
    exact py_bind_eq_ok.2 ⟨res, this, h6⟩
  · rw [if_neg hb'] at h
    cases h

theorem UK.execute_pseudo {n : ℕ} {s : UK n} (hs : s.pseudoInvType ∈ ["pinv", "pinvh"])
    (hp : s.pseudoInv = false) {ea : UKExecArgs} {r} (h : s.execute ea = .ok r) :
    ({ s with pseudoInv := true } : UK n).execute ea = .ok r := by
  unfold UK.execute at *
  obtain ⟨ro, h', rfl⟩ := py_map_eq_ok.1 h
  rw [UK.executeW_pseudo hs hp h']
  rfl

theorem UK3D.executeW_pseudo {n : ℕ} {s : UK3D n} (hs : s.pseudoInvType ∈ ["pinv", "pinvh"])
    (hp : s.pseudoInv = false) {ea : UK3DExecArgs} {r} (h : s.executeW ea = .ok r) :
    ({ s with pseudoInv := true } : UK3D n).executeW ea = .ok r := by
  unfold UK3D.executeW at *
  by_cases hst : ea.toExec.style ∉ ["grid", "masked", "points"]
  · rw [if_pos hst] at h; cases h
  rw [if_neg hst] at h ⊢
  obtain ⟨⟨a, wa⟩, h1, h⟩ := py_bind_eq_ok.1 h
  have h1' : ({ s with pseudoInv := true } : UK3D n).getKrigingMatrix = .ok (a, wa) := h1
  rw [h1', py_ok_bind]
  dsimp only at h ⊢
  obtain ⟨⟨pts, mask⟩, h2, h⟩ := py_bind_eq_ok.1 h
  rw [h2, py_ok_bind]
  dsimp only at h ⊢
  obtain ⟨spec, h3, h⟩ := py_bind_eq_ok.1 h
  have h3' : ({ s with pseudoInv := true } : UK3D n).specGrids ea = .ok spec := h3
  rw [h3', py_ok_bind]
  by_cases hc : (ea.toExec.xpoints.isInt && ea.toExec.ypoints.isInt && ea.toExec.zpoints.isInt) = true
  · rw [if_pos hc] at h; cases h
  rw [if_neg hc] at h ⊢
  have ha : aᵀ = a := by
    rw [UK3D.getKrigingMatrix_eq] at h1
    obtain ⟨γ, -, h1⟩ := py_bind_eq_ok.1 h1
    have := (Prod.mk.inj (Except.ok.inj h1)).1
    rw [← this]
    have hN : s.nWithDrifts + 1 = n + s.driftData.length + 1 := by rw [s.driftData_length]
    exact transpose_of_submatrix hN (semivar_comm s.dataDist_comm) (ukMatrix_submatrix _ γ s.dataDist s.driftData hN)
  have key : ∀ b, invertPython s.pseudoInv s.pseudoInvType a = .ok b →
      invertPython true s.pseudoInvType a = .ok b := fun b hb => invertPython_pseudo hs ha (hp ▸ hb)
  by_cases hb : ea.toExec.backend = "vectorized"
  · rw [if_pos hb] at h ⊢
    obtain ⟨res, h5, h6⟩ := py_bind_eq_ok.1 h
    have : ({ s with pseudoInv := true } : UK3D n).execVector a (({ s with pseudoInv := true } : UK3D n).queries pts) spec
        = .ok res := by
      unfold UK3D.execVector at h5 ⊢
      obtain ⟨inv, h7, h8⟩ := py_bind_eq_ok.1 h5
      exact py_bind_eq_ok.2 ⟨inv, key _ h7, h8⟩
    exact py_bind_eq_ok.2 ⟨res, this, h6⟩
  rw [if_neg hb] at h ⊢
  by_cases hb' : ea.toExec.backend = "loop"
  · rw [if_pos hb'] at h ⊢
    obtain ⟨res, h5, h6⟩ := py_bind_eq_ok.1 h
    have : ({ s with pseudoInv := true } : UK3D n).execLoop a (({ s with pseudoInv := true } : UK3D n).queries pts) mask spec
        = .ok res := by
      unfold UK3D.execLoop at h5 ⊢
      obtain ⟨inv, h7, h8⟩ := py_bind_eq_ok.1 h5
      exact py_bind_eq_ok.2 ⟨inv, key _ h7, h8⟩
    exact py_bind_eq_ok.2 ⟨res, this, h6⟩
  · rw [if_neg hb'] at h
    cases h

theorem UK3D.execute_pseudo {n : ℕ} {s : UK3D n} (hs : s.pseudoInvType ∈ ["pinv", "pinvh"])
    (hp : s.pseudoInv = false) {ea : UK3DExecArgs} {r} (h : s.execute ea = .ok r) :
    ({ s with pseudoInv := true } : UK3D n).execute ea = .ok r := by
  unfold UK3D.execute at *
  obtain ⟨ro, h', rfl⟩ := py_map_eq_ok.1 h
  rw [UK3D.executeW_pseudo hs hp h']
  rfl

end
end PyKrige
