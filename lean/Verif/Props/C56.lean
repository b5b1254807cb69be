import Verif.Props.C29
import Verif.Lemmas.Nearest
import Verif.Examples.More
import Mathlib.LinearAlgebra.Matrix.ToLinearEquiv

/-!
# C56: problems without a unique solution are refused, not answered

Without the pseudo-inverse, `execute` returns only when the kriging equations determine the weights: never with two data at
the same place under a variogram without nugget, never with drift terms that the data cannot tell apart (fewer data than
terms, regional linear drift and data on one line or in one plane).
-/

namespace PyKrige
noncomputable section
open Matrix Spec

/-! ### Repeated data -/

/-- Two data at the same place under a variogram without nugget: the system is singular. -/
theorem not_regular_dup {n : ℕ} {κ : Type} [Fintype κ] {γ : ℝ → ℝ} {d : Fin n → Fin n → ℝ} {F : κ → Fin n → ℝ} (h0 : γ 0 = 0)
    {i j : Fin n} (hij : i ≠ j) (hd : ∀ k, d k i = d k j) (hdi : d i i = 0) (hdj : d j j = 0)
    (hF : ∀ l, F l i = F l j) : ¬ Regular (semivar γ d) F := by
  classical
  intro h
  have hs : ∀ k, semivar γ d k i = semivar γ d k j := by
    intro k
    unfold semivar
    by_cases h1 : k = i
    · subst h1
      rw [if_pos rfl, if_neg hij, ← hd, hdi, h0]
    · by_cases h2 : k = j
      · subst h2
        rw [if_pos rfl, if_neg h1, hd, hdj, h0]
      · rw [if_neg h1, if_neg h2, hd]
  have hw : ∀ f : Fin n → ℝ, ∑ k, f k * (Pi.single i (1 : ℝ) - Pi.single j (1 : ℝ) : Fin n → ℝ) k = f i - f j := by
    intro f
    simp only [Pi.sub_apply, mul_sub, Finset.sum_sub_distrib]
    congr 1 <;> simp [Pi.single_apply]
  have := h (Pi.single i 1 - Pi.single j 1) 0 0 ⟨fun k => by rw [hw]; simp [hs k], fun l => by rw [hw]; simp [hF l], by
    simp⟩
  have h1 := congrFun this.1 i
  simp [hij] at h1

theorem C56_repeated_2d {n : ℕ} {env : Env} {x y z : Fin n → ℝ} {args : OKArgs} {s : OK n}
    (h : OK.create env x y z args = .ok s) (hp : args.pseudoInv = false) {γ : ℝ → ℝ}
    (hγ : s.variogramFunction s.params = .ok γ) (h0 : γ 0 = 0) {i j : Fin n} (hij : i ≠ j)
    (hx : x i = x j) (hy : y i = y j) {ea : ExecArgs} (ha : Admissible env args s ea.nClosest) (hn : ea.nClosest = none)
    (r : ExecResult) : s.execute env ea ≠ .ok r := by
  intro hr
  have a := ((OK.create_pw h ha).ok_iff.1 ⟨r, hr⟩).1.solvable hn
  rw [OK.gam_eq hγ, (OK.create_fields h).2.2.1, hp] at a
  refine not_regular_dup h0 hij (fun k => ?_) ?_ ?_ (fun l => l.elim0) (a.resolve_left (by simp))
  · rw [(OK.create_dist h).1, (OK.create_dist h).1, hx, hy]
  · rw [(OK.create_dist h).1]; exact distance2_self _ _ _ _
  · rw [(OK.create_dist h).1]; exact distance2_self _ _ _ _

/-- A moving window that holds both data. -/
theorem C56_repeated_window_2d {n : ℕ} {env : Env} {x y z : Fin n → ℝ} {args : OKArgs} {s : OK n}
    (h : OK.create env x y z args = .ok s) {γ : ℝ → ℝ}
    (hγ : s.variogramFunction s.params = .ok γ) (h0 : γ 0 = 0) {i j : Fin n} (hij : i ≠ j)
    (hx : x i = x j) (hy : y i = y j) {ea : ExecArgs} (ha : Admissible env args s ea.nClosest) {k : ℤ}
    (hn : ea.nClosest = some k) {e : ℕ} {p : ℝ × ℝ} (hq : queryAt ea e = some p) (hm : maskedAt ea e = false)
    (hk : ((Finset.univ.filter fun l => okDistance args p (x l, y l) ≤ okDistance args p (x i, y i)).card : ℤ) ≤ k)
    (r : ExecResult) : s.execute env ea ≠ .ok r := by
  intro hr
  have a := ((OK.create_pw h ha).ok_iff.1 ⟨r, hr⟩).2 e p hq hm k hn
  rw [OK.gam_eq hγ] at a
  have hkn : k.toNat ≤ n := by have := ha.window k hn; omega
  obtain ⟨b1, b2⟩ := OK.sel_spec ha.knn s hkn p
  have hin : ∀ t, okDistance args p (x t, y t) = okDistance args p (x i, y i) → t ∈ s.sel env k.toNat p := by
    intro t ht
    by_contra hc
    have hsub : insert t (s.sel env k.toNat p).toFinset ⊆
        Finset.univ.filter fun l => okDistance args p (x l, y l) ≤ okDistance args p (x i, y i) := by
      intro l hl
      rw [Finset.mem_insert, List.mem_toFinset] at hl
      refine Finset.mem_filter.2 ⟨Finset.mem_univ _, ?_⟩
      rcases hl with rfl | hl
      · exact ht.le
      · have := OK.sel_nearest ha.knn s hkn p hl hc
        rw [(OK.create_dist h).2, (OK.create_dist h).2] at this
        rw [← ht]; exact this
    have := Finset.card_le_card hsub
    rw [Finset.card_insert_of_notMem (by rwa [List.mem_toFinset]), List.toFinset_card_of_nodup b2, b1] at this
    omega
  obtain ⟨i', hi'⟩ := List.mem_iff_get.1 (hin i rfl)
  obtain ⟨j', hj'⟩ := List.mem_iff_get.1 (hin j (by rw [hx, hy]))
  refine not_regular_dup h0 (i := i') (j := j') (fun hc => hij (by rw [← hi', ← hj', hc])) (fun k => ?_) ?_ ?_
    (fun l => l.elim0) a
  · rw [hi', hj', (OK.create_dist h).1, (OK.create_dist h).1, hx, hy]
  · rw [(OK.create_dist h).1]; exact distance2_self _ _ _ _
  · rw [(OK.create_dist h).1]; exact distance2_self _ _ _ _

theorem C56_repeated_3d {n : ℕ} {env : Env} {x y z v : Fin n → ℝ} {args : OK3DArgs} {s : OK3D n}
    (h : OK3D.create env x y z v args = .ok s) (hp : args.pseudoInv = false) {γ : ℝ → ℝ}
    (hγ : s.variogramFunction s.params = .ok γ) (h0 : γ 0 = 0) {i j : Fin n} (hij : i ≠ j)
    (hx : x i = x j) (hy : y i = y j) (hz : z i = z j) {ea : ExecArgs3} (hk : KnnSpec env) (hn : ea.nClosest = none)
    (r : ExecResult) : s.execute env ea ≠ .ok r := by
  intro hr
  have a := ((OK3D.create_pw h hk (ea := ea) (by simp [hn, WindowFits])).ok_iff.1 ⟨r, hr⟩).1.solvable hn
  rw [OK3D.gam_eq hγ, (OK3D.create_fields h).2.2.1, hp] at a
  refine not_regular_dup h0 hij (fun k => ?_) ?_ ?_ (fun l => l.elim0) (a.resolve_left (by simp))
  · rw [(OK3D.create_dist h).1, (OK3D.create_dist h).1, hx, hy, hz]
  · rw [(OK3D.create_dist h).1]; exact distance3_self _ _
  · rw [(OK3D.create_dist h).1]; exact distance3_self _ _

/-! ### Drift terms the data cannot tell apart -/

theorem independent_of_regular {n : ℕ} {G : Fin n → Fin n → ℝ} {M : List (Fin n → ℝ)} {D : Fin n → List ℝ}
    (hD : ∀ i, M.map (· i) = D i) (h : Regular G fun l : Fin M.length => M.get l) : Independent D := by
  intro a b hi
  have hl : ∀ i, (D i).length = M.length := fun i => by rw [← hD]; simp
  have key := h 0 (fun l => a l) b ⟨fun i => by
    have := hi i
    rw [hl, Finset.sum_range] at this
    have e : ∀ l : Fin M.length, a l * (D i).getD l 0 = M.get l i * a l := by
      intro l
      rw [← hD]
      simp [mul_comm]
    simp only [e] at this
    simp only [Pi.zero_apply, mul_zero, Finset.sum_const_zero, zero_sub]
    linarith, fun l => by simp, by simp⟩
  refine ⟨fun i l hll => ?_, key.2.2⟩
  rw [hl] at hll
  exact congrFun key.2.1 ⟨l, hll⟩

/-- `UniversalKriging` answers only if the drift terms and the constant are linearly independent on the data. -/
theorem C56_independent_uk {n : ℕ} {env : Env} {x y z : Fin n → ℝ} {args : UKArgs} {s : UK n}
    (h : UK.create env x y z args = .ok s) (hp : args.pseudoInv = false) {ea : UKExecArgs} {r : ExecResult}
    (hr : s.execute ea = .ok r) :
    Independent fun i => driftTerms2 args s.adjustPoint (specAtDatum args.specifiedDrift i) (x i, y i) := by
  have a := ((UK.create_pw h ea).ok_iff.1 ⟨r, hr⟩).1.solvable
  rw [(UK.create_fields h).2.2.1, hp] at a
  exact independent_of_regular (fun i => (UK.driftData_eq h i).1) (a.resolve_left (by simp))

theorem C56_independent_uk3d {n : ℕ} {env : Env} {x y z v : Fin n → ℝ} {args : UK3DArgs} {s : UK3D n}
    (h : UK3D.create env x y z v args = .ok s) (hp : args.pseudoInv = false) {ea : UK3DExecArgs} {r : ExecResult}
    (hr : s.execute ea = .ok r) :
    Independent fun i => driftTerms3 args s.adjustPoint (specAtDatum args.specifiedDrift i) (x i, y i, z i) := by
  have a := ((UK3D.create_pw h ea).ok_iff.1 ⟨r, hr⟩).1.solvable
  rw [(UK3D.create_fields h).2.2.1, hp] at a
  exact independent_of_regular (fun i => UK3D.driftData_eq h i) (a.resolve_left (by simp))

/-- With a valid variogram this is the only obstacle: a well-posed request is answered exactly when the drift terms are
independent on the data. -/
theorem C56_iff_uk {n : ℕ} {env : Env} {x y z : Fin n → ℝ} {args : UKArgs} {s : UK n}
    (h : UK.create env x y z args = .ok s) (hp : args.pseudoInv = false)
    {m : String} (hm : args.variogramModel = .name m) (hv : ValidModel m s.params)
    (hs : Separates s.params fun i j => ukDistance args (x i, y i) (x j, y j)) {ea : UKExecArgs}
    (hq : WellPosed ea.toExec) (hi : HasFloats ea.toExec) (hsp : SpecFits args ea)
    (hb : ea.toExec.backend = "vectorized" ∨ ea.toExec.backend = "loop" ∧ "specified" ∉ args.driftTerms ∧
      ∀ j p, queryAt ea.toExec j = some p → maskedAt ea.toExec j = false →
        ¬ AtWell args s.anisotropyScaling s.anisotropyAngle p)
    (he : ∀ j p, queryAt ea.toExec j = some p → (maskedAt ea.toExec j = false ∨ ea.toExec.backend = "vectorized") →
      ExternalCovers args p) :
    (∃ r, s.execute ea = .ok r) ↔
      Independent fun i => driftTerms2 args s.adjustPoint (specAtDatum args.specifiedDrift i) (x i, y i) :=
  ⟨fun ⟨_, hr⟩ => C56_independent_uk h hp hr, fun hI => C29_execute_uk h hm hv hs (.inr hI) hq hi hsp hb he⟩

theorem C56_iff_uk3d {n : ℕ} {env : Env} {x y z v : Fin n → ℝ} {args : UK3DArgs} {s : UK3D n}
    (h : UK3D.create env x y z v args = .ok s) (hp : args.pseudoInv = false)
    {m : String} (hm : args.variogramModel = .name m) (hv : ValidModel m s.params)
    (hs : Separates s.params fun i j => uk3Distance args (x i, y i, z i) (x j, y j, z j)) {ea : UK3DExecArgs}
    (hq : WellPosed3 ea.toExec) (hi : HasFloats3 ea.toExec) (hsp : SpecFits3 args ea)
    (hb : ea.toExec.backend = "vectorized" ∨ ea.toExec.backend = "loop" ∧ "specified" ∉ args.driftTerms) :
    (∃ r, s.execute ea = .ok r) ↔
      Independent fun i => driftTerms3 args s.adjustPoint (specAtDatum args.specifiedDrift i) (x i, y i, z i) :=
  ⟨fun ⟨_, hr⟩ => C56_independent_uk3d h hp hr, fun hI => C29_execute_uk3d h hm hv hs (.inr hI) hq hi hsp hb⟩

/-! ### Too few data, data on a line, data in a plane -/

/-- More unknowns than equations. -/
theorem independent_card {n : ℕ} {D : Fin n → List ℝ} {L : ℕ} (hn : 0 < n) (hl : ∀ i, (D i).length = L) (h : Independent D) :
    L + 1 ≤ n := by
  by_contra hc
  let A : (Fin (L + 1) → ℝ) →ₗ[ℝ] (Fin n → ℝ) :=
    { toFun := fun a i => (∑ l : Fin L, a l.castSucc * (D i).getD l 0) + a (Fin.last L)
      map_add' := fun a b => by
        funext i
        simp only [Pi.add_apply, add_mul, Finset.sum_add_distrib]
        ring
      map_smul' := fun c a => by
        funext i
        simp only [Pi.smul_apply, smul_eq_mul, RingHom.id_apply, mul_add, Finset.mul_sum, mul_assoc] }
  have hinj : Function.Injective A := by
    rw [← LinearMap.ker_eq_bot, LinearMap.ker_eq_bot']
    intro a ha
    obtain ⟨h1, h2⟩ := h (fun l => if hl : l < L then a (Fin.castSucc ⟨l, hl⟩) else 0) (a (Fin.last L)) fun i => by
      have := congrFun ha i
      rw [hl, Finset.sum_range]
      simpa [A] using this
    funext l
    refine Fin.lastCases h2 (fun l => ?_) l
    have := h1 ⟨0, hn⟩ l (by rw [hl]; exact l.isLt)
    simpa using this
  have := LinearMap.finrank_le_finrank_of_injective hinj
  simp at this
  omega

/-- The number of drift terms the arguments ask for. -/
def Spec.termCount2 (args : UKArgs) : ℕ :=
  (if "regional_linear" ∈ args.driftTerms then 2 else 0) +
  (if "point_log" ∈ args.driftTerms then (args.pointDrift.getD []).length else 0) +
  (if "external_Z" ∈ args.driftTerms then 1 else 0) +
  (if "specified" ∈ args.driftTerms then (match args.specifiedDrift with | .list l => l.length | .notList => 0) else 0) +
  (if "functional" ∈ args.driftTerms then (match args.functionalDrift with | .list l => l.length | .notList => 0) else 0)

def Spec.termCount3 (args : UK3DArgs) : ℕ :=
  (if "regional_linear" ∈ args.driftTerms then 3 else 0) +
  (if "specified" ∈ args.driftTerms then (match args.specifiedDrift with | .list l => l.length | .notList => 0) else 0) +
  (if "functional" ∈ args.driftTerms then (match args.functionalDrift with | .list l => l.length | .notList => 0) else 0)

theorem termCount2_eq (args : UKArgs) (adj : ℝ × ℝ → Fin 2 → ℝ) (i : ℕ) (p : ℝ × ℝ) :
    (driftTerms2 args adj (specAtDatum args.specifiedDrift i) p).length = termCount2 args := by
  unfold driftTerms2 termCount2 specAtDatum
  simp only [List.length_append]
  congr 1
  · congr 1
    · congr 1
      · congr 1 <;> split <;> simp
      · split <;> simp
    · split
      · cases args.specifiedDrift <;> simp
      · rfl
  · split
    · cases args.functionalDrift <;> simp
    · rfl

theorem termCount3_eq (args : UK3DArgs) (adj : ℝ × ℝ × ℝ → Fin 3 → ℝ) (i : ℕ) (p : ℝ × ℝ × ℝ) :
    (driftTerms3 args adj (specAtDatum args.specifiedDrift i) p).length = termCount3 args := by
  unfold driftTerms3 termCount3 specAtDatum
  simp only [List.length_append]
  congr 1
  · congr 1
    · split <;> simp
    · split
      · cases args.specifiedDrift <;> simp
      · rfl
  · split
    · cases args.functionalDrift <;> simp
    · rfl

/-- Fewer data than drift terms plus one: refused. -/
theorem C56_few_uk {n : ℕ} {env : Env} {x y z : Fin n → ℝ} {args : UKArgs} {s : UK n}
    (h : UK.create env x y z args = .ok s) (hp : args.pseudoInv = false) (hc : n ≤ termCount2 args) (ea : UKExecArgs)
    (r : ExecResult) : s.execute ea ≠ .ok r := fun hr => by
  have := independent_card (by have := UK.create_two_le h; omega) (fun i => termCount2_eq args _ i _) (C56_independent_uk h hp hr)
  omega

theorem C56_few_uk3d {n : ℕ} {env : Env} {x y z v : Fin n → ℝ} {args : UK3DArgs} {s : UK3D n}
    (h : UK3D.create env x y z v args = .ok s) (hp : args.pseudoInv = false) (hc : n ≤ termCount3 args) (ea : UK3DExecArgs)
    (r : ExecResult) : s.execute ea ≠ .ok r := fun hr => by
  have := independent_card (by have := UK3D.create_two_le h; omega) (fun i => termCount3_eq args _ i _) (C56_independent_uk3d h hp hr)
  omega

/-- Points on a hyperplane stay on a hyperplane under a linear map, regular or not. -/
theorem hyperplane_map {m : ℕ} {α : Type} (A : Matrix (Fin m) (Fin m) ℝ) (t : Fin m → ℝ) {p : α → Fin m → ℝ} {u : Fin m → ℝ}
    {c : ℝ} (hu : u ≠ 0) (h : ∀ i, u ⬝ᵥ p i + c = 0) : ∃ r ≠ 0, ∃ c', ∀ i, r ⬝ᵥ (A *ᵥ p i + t) + c' = 0 := by
  by_cases hA : A.det = 0
  · obtain ⟨r, hr, e⟩ := Matrix.exists_vecMul_eq_zero_iff.2 hA
    refine ⟨r, hr, -(r ⬝ᵥ t), fun i => ?_⟩
    rw [dotProduct_add, Matrix.dotProduct_mulVec, e]
    simp
  · refine ⟨u ᵥ* A⁻¹, fun h0 => hu ?_, c - (u ᵥ* A⁻¹) ⬝ᵥ t, fun i => ?_⟩
    · have := congrArg (· ᵥ* A) h0
      simpa [Matrix.vecMul_vecMul, Matrix.nonsing_inv_mul A (isUnit_iff_ne_zero.2 hA)] using this
    · rw [dotProduct_add, Matrix.dotProduct_mulVec, Matrix.vecMul_vecMul,
        Matrix.nonsing_inv_mul A (isUnit_iff_ne_zero.2 hA), Matrix.vecMul_one]
      linarith [h i]

theorem adjust2_affine (c : Fin 2 → ℝ) (sc an : ℝ) : ∃ A t, ∀ p, adjust2 c sc an p = A *ᵥ p + t := by
  have key : ∀ S R : Matrix (Fin 2) (Fin 2) ℝ, ∀ p, S *ᵥ (R *ᵥ (p - c)) + c = (S * R) *ᵥ p + (-(S *ᵥ (R *ᵥ c)) + c) := by
    intro S R p
    rw [Matrix.mulVec_sub, Matrix.mulVec_sub, Matrix.mulVec_mulVec, sub_eq_add_neg, add_assoc]
  exact ⟨_, _, fun p => key _ _ p⟩

theorem adjust3_affine (c : Fin 3 → ℝ) (sc : Fin 2 → ℝ) (an : Fin 3 → ℝ) : ∃ A t, ∀ p, adjust3 c sc an p = A *ᵥ p + t := by
  have key : ∀ S R : Matrix (Fin 3) (Fin 3) ℝ, ∀ p, S *ᵥ (R *ᵥ (p - c)) + c = (S * R) *ᵥ p + (-(S *ᵥ (R *ᵥ c)) + c) := by
    intro S R p
    rw [Matrix.mulVec_sub, Matrix.mulVec_sub, Matrix.mulVec_mulVec, sub_eq_add_neg, add_assoc]
  exact ⟨_, _, fun p => key _ _ p⟩

/-- Regional linear drift and all data on one line: refused, whatever the other drift terms and the anisotropy. -/
theorem C56_collinear_uk {n : ℕ} {env : Env} {x y z : Fin n → ℝ} {args : UKArgs} {s : UK n}
    (h : UK.create env x y z args = .ok s) (hp : args.pseudoInv = false) (hd : "regional_linear" ∈ args.driftTerms)
    {a b c : ℝ} (hab : ¬ (a = 0 ∧ b = 0)) (hl : ∀ i, a * x i + b * y i + c = 0) (ea : UKExecArgs) (r : ExecResult) :
    s.execute ea ≠ .ok r := fun hr => by
  have hI := C56_independent_uk h hp hr
  have h2 := UK.create_two_le h
  obtain ⟨A, t, hA⟩ := adjust2_affine ![s.XCENTER, s.YCENTER] s.anisotropyScaling s.anisotropyAngle
  obtain ⟨q, hq0, c', hq⟩ := hyperplane_map A t (p := fun i => ![x i, y i]) (u := ![a, b]) (c := c)
    (fun h0 => hab ⟨by simpa using congrFun h0 0, by simpa using congrFun h0 1⟩)
    (fun i => by simp [dotProduct, Fin.sum_univ_two, hl i])
  have hadj : ∀ p, s.adjustPoint p = A *ᵥ ![p.1, p.2] + t := fun p => hA _
  obtain ⟨h1, -⟩ := hI (fun l => if h : l < 2 then q ⟨l, h⟩ else 0) c' fun i => by
    have := hq i
    rw [← hadj (x i, y i)] at this
    dsimp only
    unfold driftTerms2
    rw [if_pos hd]
    simp only [List.append_assoc, List.cons_append, List.nil_append, List.length_cons]
    rw [Finset.sum_range_succ', Finset.sum_range_succ']
    simp only [dotProduct, Fin.sum_univ_two] at this
    simp
    linarith
  apply hq0
  have hlen : 2 ≤ (driftTerms2 args s.adjustPoint (specAtDatum args.specifiedDrift (⟨0, by omega⟩ : Fin n))
      (x ⟨0, by omega⟩, y ⟨0, by omega⟩)).length := by
    unfold driftTerms2
    rw [if_pos hd]
    simp only [List.length_append, List.length_cons, List.length_nil]
    omega
  funext l
  have := h1 ⟨0, by omega⟩ l (by have := l.isLt; dsimp only at hlen ⊢; omega)
  rwa [dif_pos l.isLt] at this

/-- Regional linear drift in space and all data in one plane: refused. -/
theorem C56_coplanar_uk3d {n : ℕ} {env : Env} {x y z v : Fin n → ℝ} {args : UK3DArgs} {s : UK3D n}
    (h : UK3D.create env x y z v args = .ok s) (hp : args.pseudoInv = false) (hd : "regional_linear" ∈ args.driftTerms)
    {a b c d : ℝ} (hab : ¬ (a = 0 ∧ b = 0 ∧ c = 0)) (hl : ∀ i, a * x i + b * y i + c * z i + d = 0) (ea : UK3DExecArgs)
    (r : ExecResult) : s.execute ea ≠ .ok r := fun hr => by
  have hI := C56_independent_uk3d h hp hr
  have h2 := UK3D.create_two_le h
  obtain ⟨A, t, hA⟩ := adjust3_affine ![s.XCENTER, s.YCENTER, s.ZCENTER] ![s.aniso.scalingY, s.aniso.scalingZ]
    ![s.aniso.angleX, s.aniso.angleY, s.aniso.angleZ]
  obtain ⟨q, hq0, c', hq⟩ := hyperplane_map A t (p := fun i => ![x i, y i, z i]) (u := ![a, b, c]) (c := d)
    (fun h0 => hab ⟨by simpa using congrFun h0 0, by simpa using congrFun h0 1, by simpa using congrFun h0 2⟩)
    (fun i => by simp [dotProduct, Fin.sum_univ_three, hl i])
  have hadj : ∀ p, s.adjustPoint p = A *ᵥ ![p.1, p.2.1, p.2.2] + t := fun p => hA _
  obtain ⟨h1, -⟩ := hI (fun l => if h : l < 3 then q ⟨l, h⟩ else 0) c' fun i => by
    have := hq i
    rw [← hadj (x i, y i, z i)] at this
    dsimp only
    unfold driftTerms3
    rw [if_pos hd]
    simp only [List.cons_append, List.nil_append, List.length_cons]
    rw [Finset.sum_range_succ', Finset.sum_range_succ', Finset.sum_range_succ']
    simp only [dotProduct, Fin.sum_univ_three] at this
    rw [Finset.sum_eq_zero fun l _ => by rw [dif_neg (by omega), zero_mul]]
    simp
    linarith
  apply hq0
  have hlen : 3 ≤ (driftTerms3 args s.adjustPoint (specAtDatum args.specifiedDrift (⟨0, by omega⟩ : Fin n))
      (x ⟨0, by omega⟩, y ⟨0, by omega⟩, z ⟨0, by omega⟩)).length := by
    unfold driftTerms3
    rw [if_pos hd]
    simp only [List.length_append, List.length_cons, List.length_nil]
    omega
  funext l
  have := h1 ⟨0, by omega⟩ l (by have := l.isLt; dsimp only at hlen ⊢; omega)
  rwa [dif_pos l.isLt] at this

/-! ### Concrete cases -/

/-- Two of the three data are at the same place; the spherical variogram has no nugget. -/
example (v : Fin 3 → ℝ) (l : List (ℝ × ℝ)) : ∃ s, OK.create stdEnv ![0, 1, 1] ![0, 2, 2] v (Demo.any "spherical" [3, 2, 0]) = .ok s ∧
    ∀ r, s.execute stdEnv (Demo.pts l "vectorized") ≠ .ok r := by
  have hv : ValidModel "spherical" (listMeaning "spherical" [3, 2, 0]) :=
    .inr (.inr ⟨3, 2, 0, by simp, by simp [listMeaning], by norm_num, by norm_num, by norm_num⟩)
  have hl : listMeaning "spherical" [3, 2, 0] = [3, 2, 0] := by simp [listMeaning]
  have hb : Builtin "spherical" (listMeaning "spherical" [3, 2, 0]) (sphericalFormula 3 2 0) := by
    rw [hl]; exact builtin_spherical.2 rfl
  obtain ⟨hmb, -⟩ := hv.builtin
  obtain ⟨f, hf, hfe⟩ := chooseFunction_builtin hb hmb .none
  obtain ⟨s, h, h1, h2, hp⟩ := OK.create_of (env := stdEnv) (x := ![0, 1, 1]) (y := ![0, 2, 2]) (z := v)
    (args := Demo.any "spherical" [3, 2, 0]) (by norm_num) (by simp [Demo.any]) rfl rfl hf (.inl rfl) (makeParams_list hv)
    (fun X hX => by
      obtain ⟨lags, hl⟩ := initialize_of_given (env := stdEnv) (n := 3) (by norm_num) (.inl rfl) X v (makeParams_list hv) f 6 false
      exact ⟨lags, _, hl, fun hc => by simp [Demo.any] at hc⟩)
  have hev : s.variogramFunction s.params = .ok (sphericalFormula 3 2 0) := by rw [h1, hp _ rfl]; exact hfe
  refine ⟨s, h, fun r => C56_repeated_2d h rfl hev (by simp [sphericalFormula]) (i := 1) (j := 2) (by decide) (by simp) (by simp)
    ⟨stdEnv_knn, trivial, ?_, by simp [WindowFits, Demo.pts]⟩ rfl r⟩
  rw [hp _ rfl, h2]
  exact hv.rangeOk

/-- Four data on the diagonal, or three data in general position for a trend with three terms: no answer with a regional
linear drift. -/
example (v : Fin 4 → ℝ) (ea : UKExecArgs) : ∃ s, UK.create stdEnv ![0, 1, 2, 3] ![0, 1, 2, 3] v (Demo.uany "spherical" [3, 2, 1]) = .ok s ∧
    ∀ r, s.execute ea ≠ .ok r := by
  have hs : Separates (listMeaning "spherical" [3, 2, 1]) fun i j : Fin 4 =>
      ukDistance (Demo.uany "spherical" [3, 2, 1]) ((![0, 1, 2, 3] : Fin 4 → ℝ) i, (![0, 1, 2, 3] : Fin 4 → ℝ) i)
        ((![0, 1, 2, 3] : Fin 4 → ℝ) j, (![0, 1, 2, 3] : Fin 4 → ℝ) j) :=
    .inl ⟨Demo.sph_grows, fun i j hij h0 => hij (by
      have := anisoDist2_eq_zero (sc := 1) one_ne_zero 0 h0
      have := congrArg Prod.fst this
      fin_cases i <;> fin_cases j <;> first | rfl | (exfalso; norm_num at this))⟩
  obtain ⟨s, h, -⟩ := C29_create_uk stdEnv (by norm_num) ![0, 1, 2, 3] ![0, 1, 2, 3] v (Demo.uany "spherical" [3, 2, 1])
    (by simp [Demo.uany]) rfl rfl rfl Demo.sph_valid hs (fun i hc => by simp [Demo.uany] at hc)
    (fun hc => by simp [Demo.uany] at hc) (fun hc => by simp [Demo.uany] at hc) (fun hc => by simp [Demo.uany] at hc)
  exact ⟨s, h, fun r => C56_collinear_uk h rfl (by simp [Demo.uany]) (a := 1) (b := -1) (c := 0) (by simp)
    (fun i => by simp) ea r⟩

/-- Four data on one level of space, kriged with a regional linear drift. -/
example (v : Fin 4 → ℝ) (z₀ : ℝ) (ea : UK3DExecArgs) : ∃ s,
    UK3D.create stdEnv Demo.x4 Demo.y4 (fun _ => z₀) v (Demo.uany3 "spherical" [3, 2, 1]) = .ok s ∧
    ∀ r, s.execute ea ≠ .ok r := by
  have hs : Separates (listMeaning "spherical" [3, 2, 1]) fun i j : Fin 4 =>
      uk3Distance (Demo.uany3 "spherical" [3, 2, 1]) (Demo.x4 i, Demo.y4 i, z₀) (Demo.x4 j, Demo.y4 j, z₀) :=
    .inl ⟨Demo.sph_grows, fun i j hij h0 => hij (by
      have := distance3_eq_zero h0
      exact Demo.inj4 (Prod.ext (congrArg (fun p : ℝ × ℝ × ℝ => p.1) this) (congrArg (fun p : ℝ × ℝ × ℝ => p.2.1) this)))⟩
  obtain ⟨s, h, -⟩ := C29_create_uk3d stdEnv (by norm_num) Demo.x4 Demo.y4 (fun _ => z₀) v (Demo.uany3 "spherical" [3, 2, 1])
    (by simp [Demo.uany3]) rfl rfl rfl Demo.sph_valid hs (fun hc => by simp [Demo.uany3] at hc)
    (fun hc => by simp [Demo.uany3] at hc)
  exact ⟨s, h, fun r => C56_coplanar_uk3d h rfl (by simp [Demo.uany3]) (a := 0) (b := 0) (c := 1) (d := -z₀) (by simp)
    (fun i => by simp) ea r⟩

end
end PyKrige
