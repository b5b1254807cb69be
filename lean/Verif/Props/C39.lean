import Verif.Lemmas.Pseudo
import Verif.Lemmas.Redundant
import Verif.Lemmas.ArgDist
import Verif.Lemmas.UKDrift
import Verif.Lemmas.SameModel
import Verif.Lemmas.Accepted
import Verif.Examples.More

/-!
# C39: the pseudo-inverse

* `C39_same_*`: if a call succeeds with `pseudo_inv=False`, the same call with `pseudo_inv=True` (either type)
  gives the same arrays, and the object reports the same statistics.
* `C39_mean_*`: data at one location have equal weight: other values with the same mean at every location give the
  same arrays. (Variogram parameters given, so that the model does not depend on the values; global kriging,
  because moving windows ignore `pseudo_inv`.)
* `C39_merge_*`: kriging repeated data with the pseudo-inverse gives exactly what kriging each location once, with
  the mean of its values, gives with the ordinary inverse, for every variogram that vanishes at 0.
* `C39_pinv_not_unbiased`: without a valid variogram the pseudo-inverse can lose unbiasedness (a constant is not
  reproduced), so C04 really needs `pseudo_inv=False`.
-/

set_option linter.unusedSectionVars false

namespace PyKrige
noncomputable section
open Matrix Spec

/-! ### Where the inverse exists -/

/-- `OrdinaryKriging`. -/
theorem C39_same_2d {n : ℕ} {env : Env} {x y z : Fin n → ℝ} {args : OKArgs} {s : OK n}
    (h : OK.create env x y z args = .ok s) (hp : args.pseudoInv = false) :
    ∃ s', OK.create env x y z { args with pseudoInv := true } = .ok s' ∧ s'.stats = s.stats ∧
      ∀ (ea : ExecArgs) (r : ExecResult), s.execute env ea = .ok r → s'.execute env ea = .ok r := by
  obtain ⟨h1, -, h2, h3, -⟩ := OK.create_fields h
  exact ⟨_, OK.create_pseudo h hp, rfl, fun ea r hr =>
    OK.execute_pseudo (by rw [h3]; exact h1) (by rw [h2]; exact hp) hr⟩

/-- `OrdinaryKriging3D`. -/
theorem C39_same_3d {n : ℕ} {env : Env} {x y z v : Fin n → ℝ} {args : OK3DArgs} {s : OK3D n}
    (h : OK3D.create env x y z v args = .ok s) (hp : args.pseudoInv = false) :
    ∃ s', OK3D.create env x y z v { args with pseudoInv := true } = .ok s' ∧ s'.stats = s.stats ∧
      ∀ (ea : ExecArgs3) (r : ExecResult), s.execute env ea = .ok r → s'.execute env ea = .ok r := by
  obtain ⟨h1, -, h2, h3, -⟩ := OK3D.create_fields h
  exact ⟨_, OK3D.create_pseudo h hp, rfl, fun ea r hr =>
    OK3D.execute_pseudo (by rw [h3]; exact h1) (by rw [h2]; exact hp) hr⟩

/-- `UniversalKriging`. -/
theorem C39_same_uk {n : ℕ} {env : Env} {x y z : Fin n → ℝ} {args : UKArgs} {s : UK n}
    (h : UK.create env x y z args = .ok s) (hp : args.pseudoInv = false) :
    ∃ s', UK.create env x y z { args with pseudoInv := true } = .ok s' ∧ s'.stats = s.stats ∧
      ∀ (ea : UKExecArgs) (r : ExecResult), s.execute ea = .ok r → s'.execute ea = .ok r := by
  obtain ⟨h1, -, h2, h3, -⟩ := UK.create_fields h
  exact ⟨_, UK.create_pseudo h hp, rfl, fun ea r hr =>
    UK.execute_pseudo (by rw [h3]; exact h1) (by rw [h2]; exact hp) hr⟩

/-- `UniversalKriging3D`. -/
theorem C39_same_uk3d {n : ℕ} {env : Env} {x y z v : Fin n → ℝ} {args : UK3DArgs} {s : UK3D n}
    (h : UK3D.create env x y z v args = .ok s) (hp : args.pseudoInv = false) :
    ∃ s', UK3D.create env x y z v { args with pseudoInv := true } = .ok s' ∧ s'.stats = s.stats ∧
      ∀ (ea : UK3DExecArgs) (r : ExecResult), s.execute ea = .ok r → s'.execute ea = .ok r := by
  obtain ⟨h1, -, h2, h3, -⟩ := UK3D.create_fields h
  exact ⟨_, UK3D.create_pseudo h hp, rfl, fun ea r hr =>
    UK3D.execute_pseudo (by rw [h3]; exact h1) (by rw [h2]; exact hp) hr⟩

/-! ### Data at the same location -/

theorem UK.F_same {n : ℕ} {env : Env} {x y z : Fin n → ℝ} {args : UKArgs} {s : UK n}
    (h : UK.create env x y z args = .ok s) {i j : Fin n} (hl : (x i, y i) = (x j, y j))
    (hs : "specified" ∈ args.driftTerms → specAtDatum args.specifiedDrift i = specAtDatum args.specifiedDrift j) (l) :
    s.F l i = s.F l j := by
  have e : driftTerms2 args s.adjustPoint (specAtDatum args.specifiedDrift i) (x i, y i) =
      driftTerms2 args s.adjustPoint (specAtDatum args.specifiedDrift j) (x j, y j) := by
    rw [hl]
    unfold driftTerms2
    by_cases ht : "specified" ∈ args.driftTerms
    · rw [hs ht]
    · simp only [if_neg ht]
  rw [← (UK.driftData_eq h i).1, ← (UK.driftData_eq h j).1] at e
  have := List.map_inj_left.1 e
  exact this _ (List.getElem_mem _)

theorem UK3D.F_same {n : ℕ} {env : Env} {x y z v : Fin n → ℝ} {args : UK3DArgs} {s : UK3D n}
    (h : UK3D.create env x y z v args = .ok s) {i j : Fin n} (hl : (x i, y i, z i) = (x j, y j, z j))
    (hs : "specified" ∈ args.driftTerms → specAtDatum args.specifiedDrift i = specAtDatum args.specifiedDrift j) (l) :
    s.F l i = s.F l j := by
  have e : driftTerms3 args s.adjustPoint (specAtDatum args.specifiedDrift i) (x i, y i, z i) =
      driftTerms3 args s.adjustPoint (specAtDatum args.specifiedDrift j) (x j, y j, z j) := by
    rw [hl]
    unfold driftTerms3
    by_cases ht : "specified" ∈ args.driftTerms
    · rw [hs ht]
    · simp only [if_neg ht]
  rw [← UK3D.driftData_eq h i, ← UK3D.driftData_eq h j] at e
  have := List.map_inj_left.1 e
  exact this _ (List.getElem_mem _)

/-- `OrdinaryKriging`. -/
theorem C39_mean_2d {n : ℕ} {env : Env} {x y z : Fin n → ℝ} {args : OKArgs} {s : OK n}
    (h : OK.create env x y z args = .ok s) {ea : ExecArgs} (ha : Admissible env args s ea.nClosest)
    (hn : ea.nClosest = none)
    (hg : ParamsGiven args.variogramModel args.params) (z' : Fin n → ℝ)
    (hm : ∀ i, meanAt (fun i => (x i, y i)) z' (x i, y i) = meanAt (fun i => (x i, y i)) z (x i, y i)) :
    ∃ s', OK.create env x y z' args = .ok s' ∧
      ∀ r : ExecResult, s.execute env ea = .ok r → s'.execute env ea = .ok r := by
  obtain ⟨lags, stats, h'⟩ := OK.create_other h z' (Or.inl hg)
  obtain ⟨hD, hd⟩ := OK.create_dist h
  have hZ : s.Z = z := (OK.create_fields h).2.2.2.2.2.2.2
  refine ⟨_, h', fun r hr => ?_⟩
  refine (OK.create_weighs h ha).means (fun i => (x i, y i)) ?_ (z := s.Z) (lags := s.lags) (stats := s.stats) hr z'
    (by rw [hZ]; exact hm) lags stats
  rintro j p row ⟨γ, -, ⟨-, hk⟩ | ⟨k, hk, -⟩⟩ a b hab
  · rw [hk.w_eq, scatter_id]
    exact kWeights_same (fun i => (x i, y i)) _ _ _ (okDistance args) hD (okDistance args p) (hd p) (fun l => l.elim0) hab
  · rw [hn] at hk; cases hk

/-- `OrdinaryKriging3D`. -/
theorem C39_mean_3d {n : ℕ} {env : Env} {x y z v : Fin n → ℝ} {args : OK3DArgs} {s : OK3D n}
    (h : OK3D.create env x y z v args = .ok s) {ea : ExecArgs3} (hk : KnnSpec env)
    (hw : WindowFits n ea.nClosest)
    (hn : ea.nClosest = none)
    (hg : ParamsGiven args.variogramModel args.params) (v' : Fin n → ℝ)
    (hm : ∀ i, meanAt (fun i => (x i, y i, z i)) v' (x i, y i, z i) = meanAt (fun i => (x i, y i, z i)) v (x i, y i, z i)) :
    ∃ s', OK3D.create env x y z v' args = .ok s' ∧
      ∀ r : ExecResult, s.execute env ea = .ok r → s'.execute env ea = .ok r := by
  obtain ⟨lags, stats, h'⟩ := OK3D.create_other h v' (Or.inl hg)
  obtain ⟨hD, hd⟩ := OK3D.create_dist h
  have hZ : s.VALUES = v := (OK3D.create_fields h).2.2.2.2.2.2.2
  refine ⟨_, h', fun r hr => ?_⟩
  refine (OK3D.create_weighs h hk hw).means (fun i => (x i, y i, z i)) ?_ (z := s.VALUES) (lags := s.lags) (stats := s.stats) hr v'
    (by rw [hZ]; exact hm) lags stats
  rintro j p row ⟨γ, -, ⟨-, hk⟩ | ⟨k, hk, -⟩⟩ a b hab
  · rw [hk.w_eq, scatter_id]
    exact kWeights_same (fun i => (x i, y i, z i)) _ _ _ (ok3Distance args) hD (ok3Distance args p) (hd p) (fun l => l.elim0) hab
  · rw [hn] at hk; cases hk

/-- `UniversalKriging`: a specified drift must not tell the data at one location apart. -/
theorem C39_mean_uk {n : ℕ} {env : Env} {x y z : Fin n → ℝ} {args : UKArgs} {s : UK n}
    (h : UK.create env x y z args = .ok s) {ea : UKExecArgs}
    (hg : ParamsGiven args.variogramModel args.params)
    (hs : "specified" ∈ args.driftTerms → ∀ i j, (x i, y i) = (x j, y j) →
      specAtDatum args.specifiedDrift i = specAtDatum args.specifiedDrift j) (z' : Fin n → ℝ)
    (hm : ∀ i, meanAt (fun i => (x i, y i)) z' (x i, y i) = meanAt (fun i => (x i, y i)) z (x i, y i)) :
    ∃ s', UK.create env x y z' args = .ok s' ∧
      ∀ r : ExecResult, s.execute ea = .ok r → s'.execute ea = .ok r := by
  obtain ⟨lags, stats, h'⟩ := UK.create_other h z' (Or.inl hg)
  obtain ⟨hD, hd⟩ := UK.create_dist h
  have hZ : s.Z = z := (UK.create_fields h).2.2.2.2.2.2
  refine ⟨_, h', fun r hr => ?_⟩
  refine (UK.create_weighs h ea).means (fun i => (x i, y i)) ?_ (z := s.Z) (lags := s.lags) (stats := s.stats) hr z'
    (by rw [hZ]; exact hm) lags stats
  rintro j p row ⟨γ, spec, -, -, -, z0, sv, -, -, -, hk⟩ a b hab
  rw [hk.w_eq, scatter_id]
  exact kWeights_same (fun i => (x i, y i)) _ _ _ (ukDistance args) hD (ukDistance args p) (hd p)
    (fun l i j hij => UK.F_same h hij (fun ht => hs ht i j hij) l) hab

/-- `UniversalKriging3D`: a specified drift must not tell the data at one location apart. -/
theorem C39_mean_uk3d {n : ℕ} {env : Env} {x y z v : Fin n → ℝ} {args : UK3DArgs} {s : UK3D n}
    (h : UK3D.create env x y z v args = .ok s) {ea : UK3DExecArgs}
    (hg : ParamsGiven args.variogramModel args.params)
    (hs : "specified" ∈ args.driftTerms → ∀ i j, (x i, y i, z i) = (x j, y j, z j) →
      specAtDatum args.specifiedDrift i = specAtDatum args.specifiedDrift j) (v' : Fin n → ℝ)
    (hm : ∀ i, meanAt (fun i => (x i, y i, z i)) v' (x i, y i, z i) = meanAt (fun i => (x i, y i, z i)) v (x i, y i, z i)) :
    ∃ s', UK3D.create env x y z v' args = .ok s' ∧
      ∀ r : ExecResult, s.execute ea = .ok r → s'.execute ea = .ok r := by
  obtain ⟨lags, stats, h'⟩ := UK3D.create_other h v' (Or.inl hg)
  obtain ⟨hD, hd⟩ := UK3D.create_dist h
  have hZ : s.VALUES = v := (UK3D.create_fields h).2.2.2.2.2.2.2
  refine ⟨_, h', fun r hr => ?_⟩
  refine (UK3D.create_weighs h ea).means (fun i => (x i, y i, z i)) ?_ (z := s.VALUES) (lags := s.lags) (stats := s.stats) hr v'
    (by rw [hZ]; exact hm) lags stats
  rintro j p row ⟨γ, spec, -, -, sv, -, -, hk⟩ a b hab
  rw [hk.w_eq, scatter_id]
  exact kWeights_same (fun i => (x i, y i, z i)) _ _ _ (uk3Distance args) hD (uk3Distance args p) (hd p)
    (fun l i j hij => UK3D.F_same h hij (fun ht => hs ht i j hij) l) hab

/-! ### Each location once -/

theorem OK.answer_merge {n m : ℕ} {s : OK n} {s' : OK m} {γ : ℝ → ℝ} (c : Fin n → Fin m) (hc : Function.Surjective c)
    (hp : s.pseudoInv = true) (he : s'.exactValues = s.exactValues) (h0 : γ 0 = 0)
    (hD : ∀ i j, s.dataDist i j = s'.dataDist (c i) (c j)) (hs : ∀ i j, s'.dataDist i j = s'.dataDist j i)
    (hself : ∀ k, s'.dataDist k k = 0)
    (hd : ∀ p i, s.queryDist (s.queryPt p) i = s'.queryDist (s'.queryPt p) (c i))
    (hr : Regular (s'.G γ) noF) (hz : ∀ k, s'.Z k = (∑ i with c i = k, s.Z i) / (Finset.univ.filter fun i => c i = k).card)
    (p : ℝ × ℝ) : s.answer γ p = s'.answer γ p := by
  unfold OK.answer
  rw [hp, krigAnswer_merge c hc (G' := s'.G γ) (F' := noF) (g' := s'.g γ p) ?_ (fun l => l.elim0) ?_ hr s'.pseudoInv s.Z ?_ 0]
  · congr 1
    funext k
    exact (hz k).symm
  · intro i j
    unfold OK.G semivar
    by_cases h : i = j
    · rw [if_pos h, if_pos (by rw [h])]
    · rw [if_neg h, hD]
      split
      · next h1 => rw [h1, hself, h0]
      · rfl
  · exact semivar_comm hs
  · intro i
    unfold OK.g semivarTo
    rw [hd, he]

theorem OK3D.answer_merge {n m : ℕ} {s : OK3D n} {s' : OK3D m} {γ : ℝ → ℝ} (c : Fin n → Fin m) (hc : Function.Surjective c)
    (hp : s.pseudoInv = true) (he : s'.exactValues = s.exactValues) (h0 : γ 0 = 0)
    (hD : ∀ i j, s.dataDist i j = s'.dataDist (c i) (c j)) (hs : ∀ i j, s'.dataDist i j = s'.dataDist j i)
    (hself : ∀ k, s'.dataDist k k = 0)
    (hd : ∀ p i, s.queryDist (s.queryPt p) i = s'.queryDist (s'.queryPt p) (c i))
    (hr : Regular (s'.G γ) noF)
    (hz : ∀ k, s'.VALUES k = (∑ i with c i = k, s.VALUES i) / (Finset.univ.filter fun i => c i = k).card)
    (p : ℝ × ℝ × ℝ) : s.answer γ p = s'.answer γ p := by
  unfold OK3D.answer
  rw [hp, krigAnswer_merge c hc (G' := s'.G γ) (F' := noF) (g' := s'.g γ p) ?_ (fun l => l.elim0) ?_ hr s'.pseudoInv s.VALUES ?_ 0]
  · congr 1
    funext k
    exact (hz k).symm
  · intro i j
    unfold OK3D.G semivar
    by_cases h : i = j
    · rw [if_pos h, if_pos (by rw [h])]
    · rw [if_neg h, hD]
      split
      · next h1 => rw [h1, hself, h0]
      · rfl
  · exact semivar_comm hs
  · intro i
    unfold OK3D.g semivarTo
    rw [hd, he]

/-- `OrdinaryKriging`: the data `(x, y, z)` visit the places `(x', y')`, each at least once; `z'` holds the mean of the
values at each place. Kriging `(x, y, z)` with the pseudo-inverse returns what kriging `(x', y', z')` with the inverse
returns. -/
theorem C39_merge_2d {n m : ℕ} {env : Env} {x y z : Fin n → ℝ} {x' y' z' : Fin m → ℝ} {args : OKArgs} {s : OK n}
    {s' : OK m} (hp : args.pseudoInv = false) (h : OK.create env x y z { args with pseudoInv := true } = .ok s)
    (h' : OK.create env x' y' z' args = .ok s') (hg : ParamsGiven args.variogramModel args.params)
    (c : Fin n → Fin m) (hc : Function.Surjective c) (hx : ∀ i, (x i, y i) = (x' (c i), y' (c i)))
    (hz : ∀ k, z' k = (∑ i with c i = k, z i) / (Finset.univ.filter fun i => c i = k).card)
    {ea : ExecArgs} (ha : Admissible env args s' ea.nClosest) (hn : ea.nClosest = none)
    {γ : ℝ → ℝ} (hγ : s'.variogramFunction s'.params = .ok γ) (h0 : γ 0 = 0)
    {r : ExecResult} (hr : s'.execute env ea = .ok r) : s.execute env ea = .ok r := by
  have hq := OK.create_pseudo h' hp
  obtain ⟨e1, e2, e3, e4, e5, e6, e7, -, -⟩ := OK.create_model h hq hg
  dsimp only at e1 e2 e3 e4 e5 e6 e7
  have hw' := OK.create_wf h' ha.noClash ha.range
  have hw := OK.create_wf h ha.noClash (by rw [← e2, ← e3]; exact ha.range)
  obtain ⟨k1, γ', pts, mask, k2, k3, k4, k5, k6, k7⟩ := (OK.execute_global_iff hw' r hn).1 hr
  rw [hγ] at k2
  cases k2
  obtain ⟨hD, hd⟩ := OK.create_dist h
  obtain ⟨hD', hd'⟩ := OK.create_dist h'
  have hp' : s'.pseudoInv = false := by rw [(OK.create_fields h').2.2.1, hp]
  have hreg : Regular (s'.G γ) noF := (solvable_pseudo hp' k6).1
  have hZ : s.Z = z := (OK.create_fields h).2.2.2.2.2.2.2
  have hZ' : s'.Z = z' := (OK.create_fields h').2.2.2.2.2.2.2
  refine (OK.execute_global_iff hw r hn).2 ⟨k1, γ, pts, mask, by rw [← e1, ← e3]; exact hγ, k3, by rw [← e7]; exact k4,
    ?_, .inl (OK.create_fields h).2.2.1, ?_⟩
  · rw [← k5]
    have : s.cVariogram = s'.cVariogram := by
      unfold OK.cVariogram
      rw [← e2, ← e3, ← e4]
    unfold OK.backendCheck
    rw [this]
  · rw [k7]
    congr 1
    funext p
    refine (OK.answer_merge c hc (OK.create_fields h).2.2.1 e5 h0 ?_ ?_ ?_ ?_ hreg ?_ p).symm
    · intro i j; rw [hD, hD', hx, hx]; rfl
    · intro i j; rw [hD', hD']; exact distance2_comm _ _ _ _ _
    · intro k; rw [hD']; exact distance2_self _ _ _ _
    · intro p i; rw [hd, hd', hx]; rfl
    · rw [hZ, hZ']; exact hz

/-- `OrdinaryKriging3D`. -/
theorem C39_merge_3d {n m : ℕ} {env : Env} {x y z v : Fin n → ℝ} {x' y' z' v' : Fin m → ℝ} {args : OK3DArgs} {s : OK3D n}
    {s' : OK3D m} (hp : args.pseudoInv = false) (h : OK3D.create env x y z v { args with pseudoInv := true } = .ok s)
    (h' : OK3D.create env x' y' z' v' args = .ok s') (hg : ParamsGiven args.variogramModel args.params)
    (c : Fin n → Fin m) (hc : Function.Surjective c) (hx : ∀ i, (x i, y i, z i) = (x' (c i), y' (c i), z' (c i)))
    (hz : ∀ k, v' k = (∑ i with c i = k, v i) / (Finset.univ.filter fun i => c i = k).card)
    {ea : ExecArgs3} (hn : ea.nClosest = none)
    {γ : ℝ → ℝ} (hγ : s'.variogramFunction s'.params = .ok γ) (h0 : γ 0 = 0)
    {r : ExecResult} (hr : s'.execute env ea = .ok r) : s.execute env ea = .ok r := by
  have hq := OK3D.create_pseudo h' hp
  obtain ⟨e1, e2, e3, e5, e6, -⟩ := OK3D.create_model h hq hg
  dsimp only at e1 e2 e3 e5 e6
  have hw' : s'.pseudoInvType ∈ ["pinv", "pinvh"] := by
    obtain ⟨a, -, -, b, -⟩ := OK3D.create_fields h'; rw [b]; exact a
  have hw : s.pseudoInvType ∈ ["pinv", "pinvh"] := by
    obtain ⟨a, -, -, b, -⟩ := OK3D.create_fields h; rw [b]; exact a
  obtain ⟨k1, γ', pts, mask, k2, k3, k4, k5, k6, k7⟩ := (OK3D.execute_global_iff hw' r hn).1 hr
  rw [hγ] at k2
  cases k2
  obtain ⟨hD, hd⟩ := OK3D.create_dist h
  obtain ⟨hD', hd'⟩ := OK3D.create_dist h'
  have hp' : s'.pseudoInv = false := by rw [(OK3D.create_fields h').2.2.1, hp]
  have hreg : Regular (s'.G γ) noF := (solvable_pseudo hp' k6).1
  have hZ : s.VALUES = v := (OK3D.create_fields h).2.2.2.2.2.2.2
  have hZ' : s'.VALUES = v' := (OK3D.create_fields h').2.2.2.2.2.2.2
  refine (OK3D.execute_global_iff hw r hn).2 ⟨k1, γ, pts, mask, by rw [← e1, ← e3]; exact hγ, k3, k4, k5,
    .inl (OK3D.create_fields h).2.2.1, ?_⟩
  rw [k7]
  congr 1
  funext p
  refine (OK3D.answer_merge c hc (OK3D.create_fields h).2.2.1 e5 h0 ?_ ?_ ?_ ?_ hreg ?_ p).symm
  · intro i j; rw [hD, hD', hx, hx]; rfl
  · intro i j; rw [hD', hD']; exact distance3_comm _ _ _
  · intro k; rw [hD']; exact distance3_self _ _
  · intro p i; rw [hd, hd', hx]; rfl
  · rw [hZ, hZ']; exact hz

/-! ### Without a valid variogram -/

namespace Demo

/-- A capped parabola, not a valid variogram (Gaussian-like at the origin, but not conditionally negative definite). -/
def capped (d : ℝ) : ℝ := min (d ^ 2) 4

def cappedArgs : OKArgs :=
  { variogramModel := .name "custom", params := .list [], pseudoInv := true
    variogramFunction := .callable (fun _ => .ok capped) "capped" }

def X3 : Fin 3 → ℝ := ![0, 1, 2]

theorem pinv_sum {G : Fin 3 → Fin 3 → ℝ} {g : Fin 3 → ℝ} (hG : G = ![![0, 1, 4], ![1, 0, 1], ![4, 1, 0]])
    (hg : g = ![4, 4, 1]) : (krigAnswer true G (noF : Fin 0 → Fin 3 → ℝ) (fun _ => 1) g 0).1 = 0 := by
  set M := krigMat G (noF : Fin 0 → Fin 3 → ℝ) with hM
  have hMt : Mᵀ = M := transpose_krigMat fun i j => by subst hG; fin_cases i <;> fin_cases j <;> rfl
  have hp := scipyPinv_isPinv M
  set b := krigRhs g (0 : Fin 0 → ℝ) 1 with hb
  set X := scipyPinv M *ᵥ b with hX
  have hk : M *ᵥ packX ![1, -2, 1] (0 : Fin 0 → ℝ) 2 = 0 := by
    rw [← krigRhs_zero, krigMat_mulVec_iff]
    refine ⟨fun i => ?_, fun l => l.elim0, ?_⟩
    · subst hG
      fin_cases i <;> simp [Fin.sum_univ_three] <;> norm_num
    · simp [Fin.sum_univ_three]; norm_num
  -- `M X` is orthogonal to the kernel
  have h1 : packX ![1, -2, 1] (0 : Fin 0 → ℝ) 2 ⬝ᵥ (M *ᵥ X) = 0 := by
    rw [Matrix.dotProduct_mulVec, ← Matrix.mulVec_transpose, hMt, hk, zero_dotProduct]
  -- what is missing from `b` is in the kernel
  have h2 : M *ᵥ (b - M *ᵥ X) = 0 := by
    have : M * (M * scipyPinv M) = M := by
      have e := congrArg Matrix.transpose hp.apa
      rw [Matrix.transpose_mul, hp.ap_symm, hMt] at e
      exact e
    rw [Matrix.mulVec_sub, hX, Matrix.mulVec_mulVec, Matrix.mulVec_mulVec, Matrix.mul_assoc, this,
      sub_self]
  rw [← krigRhs_zero, krigMat_mulVec_iff] at h2
  obtain ⟨h3, -, h4⟩ := h2
  have a0 := h3 0
  have a1 := h3 1
  have a2 := h3 2
  subst hG
  have e : (krigAnswer true ![![0, 1, 4], ![1, 0, 1], ![4, 1, 0]] (noF : Fin 0 → Fin 3 → ℝ) (fun _ => 1) g 0).1 =
      (M *ᵥ X) (.inr (.inr ())) := by
    have : krigInv true M = scipyPinv M := if_pos rfl
    unfold krigAnswer answerOf
    rw [← hM, this]
    simp [estimate, Matrix.mulVec, dotProduct, Fintype.sum_sum_type, hM, krigMat, wOf, hX, hb]
  rw [e]
  simp only [dotProduct, Fintype.sum_sum_type, Fin.sum_univ_three, packX, wOf, muOf, hb, Pi.sub_apply, krigRhs, hg,
    Finset.univ_unique, Finset.sum_singleton, Finset.univ_eq_empty, Finset.sum_empty] at a0 a1 a2 h1 h4
  simp at a0 a1 a2 h1 h4
  linarith

end Demo

/-- Three data with the constant value 1, custom variogram, `pseudo_inv=True`: the estimate at `x = 3` is 0. The weights
do not sum to 1. -/
theorem C39_pinv_not_unbiased : ∃ s r, OK.create stdEnv Demo.X3 0 (fun _ => 1) Demo.cappedArgs = .ok s ∧
    s.execute stdEnv (Demo.pts [(3, 0)] "vectorized") = .ok r ∧ r.z = [some 0] := by
  obtain ⟨s, h, hf, hn, hps⟩ := OK.create_of (env := stdEnv) (x := Demo.X3) (y := 0) (z := fun _ => 1)
    (args := Demo.cappedArgs) (by norm_num) (by simp [Demo.cappedArgs]) (b := true) rfl
    (name := "custom") (model := none) (fArg := .callable (fun _ => .ok Demo.capped) "capped") (pArg := .list [])
    (sc := 1) (an := 0) rfl (f := fun _ => .ok Demo.capped) (nm := "capped") (by simp [chooseFunction])
    (.inl rfl) (vp := some []) (by simp [makeVariogramParameterList])
    (fun X _ => by
      obtain ⟨lags, hl⟩ := initialize_of_given (env := stdEnv) (n := 3) (m := 2) (ct := "euclidean") (by norm_num)
        (.inl rfl) X (fun _ => 1) (name := "custom") (p := .list []) (ps := []) (by simp [makeVariogramParameterList])
        (fun _ => .ok Demo.capped) 6 false
      exact ⟨lags, [], hl, fun h => by cases h⟩)
  have hnc : Demo.cappedArgs.variogramFunction.NoClash := by simp [Demo.cappedArgs, FunArg.NoClash, cNames]
  have hw := OK.create_wf h hnc (by simp [RangeOk, hn])
  have hfl := OK.create_fields h
  obtain ⟨hD, hd⟩ := OK.create_dist h
  have dist : ∀ a b : ℝ, okDistance Demo.cappedArgs (a, 0) (b, 0) = |a - b| := by
    intro a b
    simp [okDistance, distance2, Demo.cappedArgs, effScaling, effAngle, anisoDist2, rad, Real.sqrt_sq_eq_abs]
  have hγ : s.variogramFunction s.params = .ok Demo.capped := by rw [hf]
  have hex := (OK.execute_global_iff (env := stdEnv) hw (mkResult [1] [false] [(3, 0)] (s.answer Demo.capped))
    (args := Demo.pts [(3, 0)] "vectorized") rfl).2 ⟨by simp [Demo.pts], Demo.capped, [(3, 0)], [false], hγ,
      Demo.queryPoints_pts _ _, by simp [Demo.pts], by simp [Demo.pts, OK.backendCheck], .inl hfl.2.2.1,
      by simp [resultShape, Demo.pts]⟩
  refine ⟨s, _, h, hex, ?_⟩
  have : (s.answer Demo.capped (3, 0)).1 = 0 := by
    unfold OK.answer
    have e1 : s.pseudoInv = true := hfl.2.2.1
    have e2 : s.Z = fun _ => 1 := hfl.2.2.2.2.2.2.2
    rw [e1, e2]
    refine Demo.pinv_sum ?_ ?_
    · funext i j
      unfold OK.G semivar
      rw [hD]
      fin_cases i <;> fin_cases j <;> simp [dist, Demo.X3, Demo.capped] <;> norm_num
    · funext i
      unfold OK.g semivarTo
      rw [hd]
      fin_cases i <;> simp [dist, Demo.X3, Demo.capped] <;> norm_num
  simp [mkResult, hide, this]

/-! ### The hypotheses are met -/

/-- The inverse exists and both calls answer. -/
example (z : Fin 2 → ℝ) (l : List (ℝ × ℝ)) : ∃ s s' r, OK.create stdEnv Demo.X Demo.O z (Demo.args 1 true false) = .ok s ∧
    OK.create stdEnv Demo.X Demo.O z (Demo.args 1 true true) = .ok s' ∧
    s.execute stdEnv (Demo.pts l "C") = .ok r ∧ s'.execute stdEnv (Demo.pts l "C") = .ok r := by
  obtain ⟨s, h, -⟩ := Demo.ok z 1 true false
  obtain ⟨-, r, hr⟩ := Demo.ok_run (by norm_num) h l (b := "C") (by simp)
  obtain ⟨s', h', -, k⟩ := C39_same_2d h rfl
  exact ⟨s, s', r, h, h', hr, k _ _ hr⟩

/-- Data at 0, 0 and 1 with values 2, 4 and 7 give the same as 3 at 0 and 7 at 1, and the same as 1, 5 and 7. -/
example (l : List (ℝ × ℝ)) : ∃ s s' s'' r, OK.create stdEnv ![0, 0, 1] ![0, 0, 0] ![2, 4, 7] (Demo.args 0 true true) = .ok s ∧
    OK.create stdEnv Demo.X Demo.O ![3, 7] (Demo.args 0 true false) = .ok s' ∧
    OK.create stdEnv ![0, 0, 1] ![0, 0, 0] ![1, 5, 7] (Demo.args 0 true true) = .ok s'' ∧
    s'.execute stdEnv (Demo.pts l "loop") = .ok r ∧ s.execute stdEnv (Demo.pts l "loop") = .ok r ∧
    s''.execute stdEnv (Demo.pts l "loop") = .ok r := by
  obtain ⟨s', h', hps, hv, hnm, -⟩ := Demo.ok ![3, 7] 0 true false
  obtain ⟨ha', r, hr⟩ := Demo.ok_run le_rfl h' l (b := "loop") (by simp)
  have hg : ParamsGiven (Demo.args 0 true true).variogramModel (Demo.args 0 true true).params := by
    simp [ParamsGiven, Demo.args]
  obtain ⟨s, h⟩ := OK.create_exists (OK.create_pseudo h' rfl) hg rfl (n' := 3) (by norm_num) ![0, 0, 1] ![0, 0, 0] ![2, 4, 7]
  obtain ⟨-, e2, e3, -⟩ := OK.create_model h (OK.create_pseudo h' rfl) hg
  have hγ : s'.variogramFunction s'.params = .ok fun d => d + 0 := by rw [hv, hps]; exact Demo.vario 0
  have hrun := C39_merge_2d (args := Demo.args 0 true false) rfl h h' hg ![0, 0, 1] (fun k => by
      fin_cases k
      · exact ⟨0, rfl⟩
      · exact ⟨2, rfl⟩) (fun i => by fin_cases i <;> simp [Demo.X, Demo.O])
    (fun k => by
      fin_cases k
      · have : (Finset.univ.filter fun i : Fin 3 => (![0, 0, 1] : Fin 3 → Fin 2) i = 0) = {0, 1} := by decide
        simp only [Fin.zero_eta, this]
        norm_num [Finset.sum_pair]
      · have : (Finset.univ.filter fun i : Fin 3 => (![0, 0, 1] : Fin 3 → Fin 2) i = 1) = {2} := by decide
        simp only [Fin.mk_one, this]
        norm_num
        rfl)
    ha' rfl hγ (by norm_num) hr
  have ha : Admissible stdEnv (Demo.args 0 true true) s (Demo.pts l "loop").nClosest :=
    ⟨ha'.knn, ha'.noClash, by rw [← e2, ← e3]; exact ha'.range, by simp [WindowFits, Demo.pts]⟩
  have hmean : ∀ i : Fin 3, meanAt (fun i : Fin 3 => ((![0, 0, 1] : Fin 3 → ℝ) i, (![0, 0, 0] : Fin 3 → ℝ) i)) ![1, 5, 7]
      ((![0, 0, 1] : Fin 3 → ℝ) i, (![0, 0, 0] : Fin 3 → ℝ) i) =
      meanAt (fun i : Fin 3 => ((![0, 0, 1] : Fin 3 → ℝ) i, (![0, 0, 0] : Fin 3 → ℝ) i)) ![2, 4, 7]
        ((![0, 0, 1] : Fin 3 → ℝ) i, (![0, 0, 0] : Fin 3 → ℝ) i) := by
    intro i
    unfold meanAt
    fin_cases i <;> simp [Finset.sum_filter, Fin.sum_univ_three] <;> norm_num
  obtain ⟨s'', h'', hk⟩ := C39_mean_2d h ha rfl hg ![1, 5, 7] hmean
  exact ⟨s, s', s'', r, h, h', h'', hr, hrun, hk r hrun⟩

end
end PyKrige
