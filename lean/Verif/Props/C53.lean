import Verif.Props.C08
import Verif.Props.C52
import Verif.Lemmas.OnlyDist
import Verif.Lemmas.Amax
import Verif.Lemmas.Shift
import Verif.Lemmas.Affine

/-!
# C53: the unit of length does not matter

All coordinates (data, query points, wells, axes of the external drift grid) given in another unit, and the variogram
parameters converted: the same estimates and the same variances.  Two absolute constants in the code bound this: data
within `1e-10` of a query point count as coinciding with it (`exact_values`), and the logarithmic drift of a well is
-100 at the well itself.
-/

set_option linter.unusedSectionVars false

namespace PyKrige
noncomputable section
open Matrix Spec

/-- `(fA', ps')` is the variogram `(fA, ps)` in a unit in which all lengths are `c` times larger: a slope is divided
by `c`, the scale of the power model by `c ^ exponent`, a range is multiplied by `c`; sills and nuggets are
unchanged.  For model 'custom' a callable with `γ' (c d) = γ d`. -/
inductive Spec.OtherUnit (c : ℝ) : String → FunArg × List ℝ → FunArg × List ℝ → Prop
  | linear (fA : FunArg) (slope nugget : ℝ) :
      OtherUnit c "linear" (fA, [slope, nugget]) (fA, [slope / c, nugget])
  | power (fA : FunArg) (scale exponent nugget : ℝ) :
      OtherUnit c "power" (fA, [scale, exponent, nugget]) (fA, [scale / c ^ exponent, exponent, nugget])
  | range (m : String) (hm : m ∈ ["gaussian", "exponential", "spherical", "hole-effect"]) (fA : FunArg)
      (sill range nugget : ℝ) :
      OtherUnit c m (fA, [sill, range, nugget]) (fA, [sill, c * range, nugget])
  | custom (f f' : VFun) (nm nm' : String) (ps ps' : List ℝ)
      (hf : ∀ γ, f ps = .ok γ → ∃ γ', f' ps' = .ok γ' ∧ ∀ d, γ' (c * d) = γ d) :
      OtherUnit c "custom" (.callable f nm, ps) (.callable f' nm', ps')

section
variable {c : ℝ} (hc : 0 < c)
include hc

theorem gaussian_unit (a r b d : ℝ) : gaussianFormula a (c * r) b (c * d) = gaussianFormula a r b d := by
  unfold gaussianFormula
  rw [neg_div, neg_div, ← div_pow, ← div_pow, mul_assoc, mul_div_assoc c (r * 4), mul_div_mul_left _ _ hc.ne']

theorem exponential_unit (a r b d : ℝ) : exponentialFormula a (c * r) b (c * d) = exponentialFormula a r b d := by
  unfold exponentialFormula
  rw [neg_div, neg_div, mul_div_assoc c r, mul_div_mul_left _ _ hc.ne']

theorem holeEffect_unit (a r b d : ℝ) : holeEffectFormula a (c * r) b (c * d) = holeEffectFormula a r b d := by
  unfold holeEffectFormula
  rw [neg_div, neg_div, mul_div_assoc c r, mul_div_mul_left _ _ hc.ne']

theorem spherical_unit (a r b d : ℝ) : sphericalFormula a (c * r) b (c * d) = sphericalFormula a r b d := by
  unfold sphericalFormula
  have e1 : 3 * (c * d) / (2 * (c * r)) = 3 * d / (2 * r) := by
    rw [mul_left_comm, mul_left_comm 2, mul_div_mul_left _ _ hc.ne']
  have e2 : (c * d) ^ 3 / (2 * (c * r) ^ 3) = d ^ 3 / (2 * r ^ 3) := by
    rw [mul_pow, mul_pow, mul_left_comm 2, mul_div_mul_left _ _ (pow_pos hc 3).ne']
  rw [e1, e2]
  by_cases h : d ≤ r
  · rw [if_pos h, if_pos (mul_le_mul_of_nonneg_left h hc.le)]
  · rw [if_neg h, if_neg (fun h' => h (le_of_mul_le_mul_left h' hc))]

end

theorem Spec.OtherUnit.variogram {c : ℝ} (hc : 0 < c) {m : String} {fA fA' : FunArg} {ps ps' : List ℝ}
    (h : Spec.OtherUnit c m (fA, ps) (fA', ps')) {f f' : VFun} {nm nm' : String} {q q' : List ℝ}
    (hv : VariogramOf m fA (.list ps) f nm q) (hv' : VariogramOf m fA' (.list ps') f' nm' q') {γ : ℝ → ℝ}
    (hγ : f q = .ok γ) : ∃ γ', f' q' = .ok γ' ∧ ∀ d, 0 ≤ d → γ' (c * d) = γ d := by
  have h1 := hv.choose
  have h2 := hv'.choose
  cases h with
  | linear fA slope nugget =>
    have e := hv.list (l := [slope, nugget]) (by simp [makeVariogramParameterList])
    have e' := hv'.list (l := [slope / c, nugget]) (by simp [makeVariogramParameterList])
    subst e e'
    simp [chooseFunction, variogramDict] at h1 h2
    rw [← h1.1] at hγ
    rw [← h2.1]
    simp only [linearVariogramModel, pyGet, List.getElem?_cons_zero, List.getElem?_cons_succ, py_pure, py_ok_bind, Except.ok.injEq] at hγ ⊢
    subst hγ
    refine ⟨_, rfl, fun d _ => ?_⟩
    simp only [linearFormula]
    field_simp
  | power fA scale exponent nugget =>
    have e := hv.list (l := [scale, exponent, nugget]) (by simp [makeVariogramParameterList])
    have e' := hv'.list (l := [scale / c ^ exponent, exponent, nugget]) (by simp [makeVariogramParameterList])
    subst e e'
    simp [chooseFunction, variogramDict] at h1 h2
    rw [← h1.1] at hγ
    rw [← h2.1]
    simp only [powerVariogramModel, pyGet, List.getElem?_cons_zero, List.getElem?_cons_succ, py_pure, py_ok_bind, Except.ok.injEq] at hγ ⊢
    subst hγ
    refine ⟨_, rfl, fun d hd => ?_⟩
    simp only [powerFormula]
    have := (Real.rpow_pos_of_pos hc exponent).ne'
    rw [Real.mul_rpow hc.le hd]
    field_simp
  | range m hm fA sill range nugget =>
    simp only [List.mem_cons, List.not_mem_nil, or_false] at hm
    have hm' : m ∈ ["gaussian", "spherical", "exponential", "hole-effect"] := by
      rcases hm with rfl | rfl | rfl | rfl <;> simp
    have hl : ¬ m = "linear" ∧ ¬ m = "power" := by
      rcases hm with rfl | rfl | rfl | rfl <;> simp
    have e := hv.list (l := [sill - nugget, range, nugget]) (by simp [makeVariogramParameterList, hl, hm', pyGet])
    have e' := hv'.list (l := [sill - nugget, c * range, nugget])
      (by simp [makeVariogramParameterList, hl, hm', pyGet])
    subst e e'
    rcases hm with rfl | rfl | rfl | rfl <;> simp [chooseFunction, variogramDict] at h1 h2 <;>
    · rw [← h1.1] at hγ
      rw [← h2.1]
      simp only [gaussianVariogramModel, exponentialVariogramModel, sphericalVariogramModel,
        holeEffectVariogramModel, pyGet, List.getElem?_cons_zero, List.getElem?_cons_succ, py_pure, py_ok_bind, Except.ok.injEq] at hγ ⊢
      subst hγ
      refine ⟨_, rfl, fun d hd => ?_⟩
      first
      | exact gaussian_unit hc _ _ _ _
      | exact exponential_unit hc _ _ _ _
      | exact spherical_unit hc _ _ _ _
      | exact holeEffect_unit hc _ _ _ _
  | custom f₀ f₀' nm₀ nm₀' ps ps' hf =>
    have e := hv.list (l := ps) (by simp [makeVariogramParameterList])
    have e' := hv'.list (l := ps') (by simp [makeVariogramParameterList])
    subst e e'
    simp [chooseFunction] at h1 h2
    rw [← h1.1] at hγ
    rw [← h2.1]
    obtain ⟨γ', a, b⟩ := hf γ hγ
    exact ⟨γ', a, fun d _ => b d⟩

/-- A point in the other unit. -/
def Spec.scale2 (c : ℝ) (p : ℝ × ℝ) : ℝ × ℝ := (c * p.1, c * p.2)

def Spec.scale3 (c : ℝ) (p : ℝ × ℝ × ℝ) : ℝ × ℝ × ℝ := (c * p.1, c * p.2.1, c * p.2.2)

/-- The call `ea` with all coordinates multiplied by `c`; any style. -/
def Spec.times (c : ℝ) (ea : ExecArgs) : ExecArgs :=
  { ea with
    xpoints := ⟨ea.xpoints.vals.map (c * ·), false⟩
    ypoints := ⟨ea.ypoints.vals.map (c * ·), false⟩ }

/-- The same in three dimensions. -/
def Spec.times3 (c : ℝ) (ea : ExecArgs3) : ExecArgs3 :=
  { ea with
    xpoints := ⟨ea.xpoints.vals.map (c * ·), false⟩
    ypoints := ⟨ea.ypoints.vals.map (c * ·), false⟩
    zpoints := ⟨ea.zpoints.vals.map (c * ·), false⟩ }

theorem moved_times (c : ℝ) (ea : ExecArgs) : Moved (scale2 c) ea (times c ea) := by
  refine ⟨rfl, rfl, rfl, rfl, by simp [times], by simp [times], .inl rfl, fun j => ?_⟩
  unfold queryAt times
  dsimp only
  simp only [List.length_map, List.getElem?_map]
  split
  · cases ea.xpoints.vals[j]? <;> simp
    cases ea.ypoints.vals[j]? <;> simp [scale2]
  · cases ea.xpoints.vals[j % ea.xpoints.vals.length]? <;> simp
    cases ea.ypoints.vals[j / ea.xpoints.vals.length]? <;> simp [scale2]

theorem moved_times3 (c : ℝ) (ea : ExecArgs3) :
    Moved3 (scale3 c) ea (times3 c ea) := by
  refine ⟨rfl, rfl, rfl, rfl, by simp [times3], by simp [times3], by simp [times3], .inl rfl, fun j => ?_⟩
  unfold queryAt3 times3
  dsimp only
  simp only [List.length_map, List.getElem?_map]
  split
  · cases ea.xpoints.vals[j]? <;> simp
    cases ea.ypoints.vals[j]? <;> simp
    cases ea.zpoints.vals[j]? <;> simp [scale3]
  · cases ea.xpoints.vals[j % ea.xpoints.vals.length]? <;> simp
    cases ea.ypoints.vals[j / ea.xpoints.vals.length % ea.ypoints.vals.length]? <;> simp
    cases ea.zpoints.vals[j / ea.xpoints.vals.length / ea.ypoints.vals.length]? <;> simp [scale3]

theorem anisoDist2_times {c : ℝ} (hc : 0 < c) (sc an : ℝ) (p q : ℝ × ℝ) :
    anisoDist2 sc an (scale2 c p) (scale2 c q) = c * anisoDist2 sc an p q := by
  unfold anisoDist2 scale2
  dsimp only
  rw [← Real.sqrt_sq hc.le, ← Real.sqrt_mul (sq_nonneg _), Real.sqrt_sq hc.le]
  congr 1
  ring

theorem distance3_times {c : ℝ} (hc : 0 < c) (an : Aniso3) (p q : ℝ × ℝ × ℝ) :
    distance3 an (scale3 c p) (scale3 c q) = c * distance3 an p q := by
  unfold distance3 scale3
  simp only [rotX, rotY, rotZ, Prod.fst_sub, Prod.snd_sub]
  rw [← Real.sqrt_sq hc.le, ← Real.sqrt_mul (sq_nonneg _), Real.sqrt_sq hc.le]
  congr 1
  ring

/-- Whether a datum at distance `d` counts as coinciding with the query point does not depend on the unit. -/
def Spec.SameClose (c : ℝ) (exactValues : BoolArg) (d : ℝ) : Prop :=
  exactValues = .bool true → (d ≤ 1 / 10 ^ 10 ↔ c * d ≤ 1 / 10 ^ 10)

section
variable {ι : Type} [DecidableEq ι] {c : ℝ} {γ γ' : ℝ → ℝ} (hγ : ∀ d, 0 ≤ d → γ' (c * d) = γ d)
include hγ

theorem semivar_unit {D D' : ι → ι → ℝ} (hD : ∀ i j, D' i j = c * D i j) (h0 : ∀ i j, 0 ≤ D i j) :
    semivar γ' D' = semivar γ D := by
  funext i j
  unfold semivar
  rw [hD, hγ _ (h0 i j)]

theorem semivarTo_unit {e : Bool} {D D' : ι → ℝ} (hD : ∀ i, D' i = c * D i) (h0 : ∀ i, 0 ≤ D i)
    (he : ∀ i, e = true → (D i ≤ 1 / 10 ^ 10 ↔ c * D i ≤ 1 / 10 ^ 10)) :
    semivarTo e γ' D' = semivarTo e γ D := by
  funext i
  unfold semivarTo
  rw [hD, hγ _ (h0 i)]
  by_cases h : e = true
  · simp only [h, true_and, he i h]
  · simp [h]

end

/-! ### Ordinary kriging -/

/-- `OrdinaryKriging`: the coordinates of the data and of the query points multiplied by `c`, the variogram parameters
converted: the same result, whatever the style, backend and moving window (if no two data are equally far from a
query point).  `hclose`: whether a datum counts as coinciding with a query point is not affected (it is not, in
particular, with `exact_values=False`, or if no datum is within `1e-10` and `1e-10 / c` of a query point). -/
theorem C53_unit_2d {n : ℕ} {env : Env} {x y z : Fin n → ℝ} {args args' : OKArgs} {s s' : OK n} {c : ℝ}
    (hc : 0 < c) (heuc : args.coordinatesType = "euclidean") {m : String} {fA' : FunArg} {ps ps' : List ℝ} (hm : args.variogramModel = .name m)
    (hps : args.params = .list ps) (hun : OtherUnit c m (args.variogramFunction, ps) (fA', ps'))
    (hargs : args' = { args with variogramFunction := fA', params := .list ps' })
    (h : OK.create env x y z args = .ok s) (h' : OK.create env (fun i => c * x i) (fun i => c * y i) z args' = .ok s')
    {ea : ExecArgs} (ha : Admissible env args s ea.nClosest)
    (ha' : Admissible env args' s' ea.nClosest)
    (hclose : ∀ j p, queryAt ea j = some p → ∀ i, SameClose c args.exactValues (okDistance args p (x i, y i)))
    (ht : NoTies ea.nClosest (queryAt ea) fun p i => okDistance args p (x i, y i))
    {r : ExecResult} (hr : s.execute env ea = .ok r) : s'.execute env (times c ea) = .ok r := by
  have v1 := OK.create_variogramOf h hm
  have v2 := OK.create_variogramOf h' (m := m) (by rw [hargs]; exact hm)
  rw [hps] at v1
  have v2 : VariogramOf m fA' (.list ps') s'.variogramFunction s'.functionName s'.params := by rw [hargs] at v2; exact v2
  have h1 := OK.create_pw h ha
  have h2 := OK.create_pw (ea := times c ea) h' ha'
  have f1 := OK.create_fields h
  have f1' := OK.create_fields h'
  obtain ⟨acc, hval⟩ := h1.ok_iff.1 ⟨r, hr⟩
  obtain ⟨γ, hγ⟩ := acc.vario
  obtain ⟨γ', hγ', hγγ⟩ := hun.variogram hc v1 v2 hγ
  have g1 := OK.gam_eq hγ
  have g2 := OK.gam_eq hγ'
  have hm' := moved_times c ea
  obtain ⟨hD, hQ⟩ := OK.create_dist h
  obtain ⟨hD', hQ'⟩ := OK.create_dist h'
  have hdt : ∀ p q, okDistance args' (scale2 c p) (scale2 c q) = c * okDistance args p q := by
    intro p q
    rw [hargs]
    unfold okDistance distance2
    dsimp only
    rw [if_pos heuc, if_pos heuc, anisoDist2_times hc]
  have hd0 : ∀ p q, 0 ≤ okDistance args p q := by
    intro p q
    unfold okDistance distance2
    rw [if_pos heuc]
    exact Real.sqrt_nonneg _
  have hQ0 : ∀ p i, 0 ≤ s.queryDist (s.queryPt p) i := fun p i => (hQ p i).symm ▸ hd0 _ _
  have hD0 : ∀ i j, 0 ≤ s.dataDist i j := fun i j => (hD i j).symm ▸ hd0 _ _
  have eD : ∀ i j, s'.dataDist i j = c * s.dataDist i j := fun i j => by
    rw [hD', hD]; exact hdt (x i, y i) (x j, y j)
  have eQ : ∀ p i, s'.queryDist (s'.queryPt (scale2 c p)) i = c * s.queryDist (s.queryPt p) i := fun p i => by
    rw [hQ', hQ]; exact hdt p (x i, y i)
  have hZ : s'.Z = s.Z := by
    have a := OK.create_fields h
    have b := OK.create_fields h'
    rw [b.2.2.2.2.2.2.2, a.2.2.2.2.2.2.2]
  have hE : s'.exactValues = s.exactValues := by
    have a := f1.2.1
    have b := f1'.2.1
    rw [hargs] at b
    rw [a] at b
    simpa using b.symm
  have hP : s'.pseudoInv = s.pseudoInv := by rw [f1'.2.2.1, f1.2.2.1, hargs]
  have hI : s'.coordinatesType = s.coordinatesType := by rw [f1'.2.2.2.2.1, f1.2.2.2.2.1, hargs]
  have hchk : s.Acc env ea → s'.check env (times c ea) = .ok () := by
    intro acc
    have hcheck := acc.backend
    rw [OK.check_iff h ha.noClash ⟨γ, hγ⟩] at hcheck
    rw [OK.check_iff h' ha'.noClash ⟨_, hγ'⟩]
    refine hcheck.imp id (Or.imp id ?_)
    rintro ⟨e, h3⟩
    refine ⟨e, h3.imp id ?_⟩
    rintro ⟨⟨m₀, h4, h5⟩, h6⟩
    refine ⟨⟨m₀, h4, by rw [hargs]; exact h5⟩, .inr ?_⟩
    rw [hargs]
    exact h6.resolve_left (by simp [hps])
  have hsel : ∀ k : ℤ, ea.nClosest = some k → ∀ j p, queryAt ea j = some p →
      (s.sel env k.toNat p).Perm (s'.sel env k.toNat (scale2 c p)) ∧ (s.sel env k.toNat p).Nodup := by
    intro k hk' j p hp
    have hkn : k.toNat ≤ n := by have := ha.window k hk'; omega
    obtain ⟨a1, a2⟩ := OK.sel_spec ha.knn s hkn p
    obtain ⟨b1, b2⟩ := OK.sel_spec ha.knn s' hkn (scale2 c p)
    refine ⟨nearest_unique (a1.trans b1.symm) a2 b2 (d := fun i => s.queryDist (s.queryPt p) i)
      (fun i hi j hj => OK.sel_nearest ha.knn s hkn p hi hj) (fun i hi j hj => ?_) ?_, a2⟩
    · have := OK.sel_nearest ha.knn s' hkn (scale2 c p) hi hj
      rw [eQ, eQ] at this
      exact le_of_mul_le_mul_left this hc
    · intro i i' hii
      beta_reduce at hii
      rw [hQ, hQ] at hii
      exact ht (by simp [hk']) j p hp hii
  have hto : ∀ j p, queryAt ea j = some p → ∀ (k : ℕ) (e : Fin k → Fin n),
      semivarTo s'.exactValues γ' (fun i => s'.queryDist (s'.queryPt (scale2 c p)) (e i)) =
        semivarTo s.exactValues γ fun i => s.queryDist (s.queryPt p) (e i) := by
    intro j p hp k e
    rw [hE]
    have hcl : ∀ i, s.exactValues = true → (s.queryDist (s.queryPt p) i ≤ 1 / 10 ^ 10 ↔
        c * s.queryDist (s.queryPt p) i ≤ 1 / 10 ^ 10) := fun i he => by
      have := hclose j p hp i (by rw [f1.2.1, he])
      rwa [← hQ] at this
    exact semivarTo_unit hγγ (D := fun i => s.queryDist (s.queryPt p) (e i)) (fun i => eQ p (e i)) (fun i => hQ0 p (e i)) fun i => hcl (e i)
  have hG : ∀ (k : ℕ) (e : Fin k → Fin n), semivar γ' (fun i j => s'.dataDist (e i) (e j)) =
      semivar γ fun i j => s.dataDist (e i) (e j) :=
    fun k e => semivar_unit hγγ (D := fun i j => s.dataDist (e i) (e j)) (fun i j => eD (e i) (e j)) fun i j => hD0 (e i) (e j)
  obtain ⟨r', h3, h4, h5, h6⟩ := h1.transfer h2 hr
    (fun a => ⟨a.style, a.win, ⟨_, hγ'⟩, hm'.queryPoints a.query, by rw [hI]; exact hm'.noInt a.noInt, hchk a, fun hn => by
      have := a.solvable hn
      rw [g1] at this
      rw [g2, hP, show s'.dataDist = fun i j => s'.dataDist (id i) (id j) from rfl, hG n id]
      exact this⟩)
    (fun _ => scale2 c) hm'.query (fun j _ _ => hm'.maskedAt j) (fun _ e => e)
    (fun _ j p hj hn hv k hk' => by
      have := hv (by rw [← hm'.maskedAt j]; exact hn) k hk'
      obtain ⟨q1, q2⟩ := hsel k hk' j p hj
      rw [selRegular_perm q1 q2, g1] at this
      rw [g2]
      unfold SelRegular at this ⊢
      rw [hG]
      exact this) id id
    (fun a _ j p hj _ hv => by
      unfold OK.ans
      cases hn : ea.nClosest with
      | none =>
        simp only [show (times c ea).nClosest = none from hn]
        change krigAnswer s'.pseudoInv (semivar s'.gam s'.dataDist) noF s'.Z
          (semivarTo s'.exactValues s'.gam (s'.queryDist (s'.queryPt (scale2 c p)))) 0 = krigAnswer s.pseudoInv (semivar s.gam s.dataDist) noF s.Z
          (semivarTo s.exactValues s.gam (s.queryDist (s.queryPt p))) 0
        rw [hP, hZ, g1, g2]
        rw [show semivar γ' s'.dataDist = semivar γ s.dataDist from hG n id]
        rw [show semivarTo s'.exactValues γ' (s'.queryDist (s'.queryPt (scale2 c p))) =
          semivarTo s.exactValues γ (s.queryDist (s.queryPt p)) from hto j p hj n id]
      | some k =>
        simp only [show (times c ea).nClosest = some k from hn]
        obtain ⟨q1, q2⟩ := hsel k hn j p hj
        change selAnswer (s'.sel env k.toNat (scale2 c p)) s'.exactValues s'.gam s'.dataDist s'.Z (s'.queryDist (s'.queryPt (scale2 c p))) =
          selAnswer (s.sel env k.toNat p) s.exactValues s.gam s.dataDist s.Z (s.queryDist (s.queryPt p))
        rw [selAnswer_perm q1 q2, g1, g2, hZ]
        unfold selAnswer
        rw [hG, hto j p hj])
  have : r' = r := by
    have t := (h1.table r hr).shape_eq
    obtain ⟨a, b, c⟩ := r
    obtain ⟨a', b', c'⟩ := r'
    simp only [Option.map_id, List.map_id] at h5 h6
    dsimp only at t h4 h5 h6
    rw [h4, h5, h6, t, hm'.resultShape]
  rw [h3, this]

/-- `OrdinaryKriging3D`: the coordinates of the data and of the query points multiplied by `c`, the variogram parameters
converted: the same result, whatever the style, backend and moving window (if no two data are equally far from a
query point).  `hclose`: whether a datum counts as coinciding with a query point is not affected (it is not, in
particular, with `exact_values=False`, or if no datum is within `1e-10` and `1e-10 / c` of a query point). -/
theorem C53_unit_3d {n : ℕ} {env : Env} {x y z v : Fin n → ℝ} {args args' : OK3DArgs} {s s' : OK3D n} {c : ℝ}
    (hc : 0 < c) {m : String} {fA' : FunArg} {ps ps' : List ℝ} (hm : args.variogramModel = .name m)
    (hps : args.params = .list ps) (hun : OtherUnit c m (args.variogramFunction, ps) (fA', ps'))
    (hargs : args' = { args with variogramFunction := fA', params := .list ps' })
    (h : OK3D.create env x y z v args = .ok s) (h' : OK3D.create env (fun i => c * x i) (fun i => c * y i) (fun i => c * z i) v args' = .ok s')
    {ea : ExecArgs3} (hk : KnnSpec env) (hw : WindowFits n ea.nClosest)
    (hclose : ∀ j p, queryAt3 ea j = some p → ∀ i, SameClose c args.exactValues (ok3Distance args p (x i, y i, z i)))
    (ht : NoTies ea.nClosest (queryAt3 ea) fun p i => ok3Distance args p (x i, y i, z i))
    {r : ExecResult} (hr : s.execute env ea = .ok r) : s'.execute env (times3 c ea) = .ok r := by
  have v1 := OK3D.create_variogramOf h hm
  have v2 := OK3D.create_variogramOf h' (m := m) (by rw [hargs]; exact hm)
  rw [hps] at v1
  have v2 : VariogramOf m fA' (.list ps') s'.variogramFunction s'.functionName s'.params := by rw [hargs] at v2; exact v2
  have h1 := OK3D.create_pw h hk hw
  have h2 := OK3D.create_pw (ea := times3 c ea) h' hk hw
  have f1 := OK3D.create_fields h
  have f1' := OK3D.create_fields h'
  obtain ⟨acc, hval⟩ := h1.ok_iff.1 ⟨r, hr⟩
  obtain ⟨γ, hγ⟩ := acc.vario
  obtain ⟨γ', hγ', hγγ⟩ := hun.variogram hc v1 v2 hγ
  have g1 := OK3D.gam_eq hγ
  have g2 := OK3D.gam_eq hγ'
  have hm' := moved_times3 c ea
  obtain ⟨hD, hQ⟩ := OK3D.create_dist h
  obtain ⟨hD', hQ'⟩ := OK3D.create_dist h'
  have hdt : ∀ p q, ok3Distance args' (scale3 c p) (scale3 c q) = c * ok3Distance args p q := by
    intro p q
    rw [hargs]
    exact distance3_times hc _ p q
  have hd0 : ∀ p q, 0 ≤ ok3Distance args p q := fun p q => Real.sqrt_nonneg _
  have hQ0 : ∀ p i, 0 ≤ s.queryDist (s.queryPt p) i := fun p i => (hQ p i).symm ▸ hd0 _ _
  have hD0 : ∀ i j, 0 ≤ s.dataDist i j := fun i j => (hD i j).symm ▸ hd0 _ _
  have eD : ∀ i j, s'.dataDist i j = c * s.dataDist i j := fun i j => by
    rw [hD', hD]; exact hdt (x i, y i, z i) (x j, y j, z j)
  have eQ : ∀ p i, s'.queryDist (s'.queryPt (scale3 c p)) i = c * s.queryDist (s.queryPt p) i := fun p i => by
    rw [hQ', hQ]; exact hdt p (x i, y i, z i)
  have hZ : s'.VALUES = s.VALUES := by
    have a := OK3D.create_fields h
    have b := OK3D.create_fields h'
    rw [b.2.2.2.2.2.2.2, a.2.2.2.2.2.2.2]
  have hE : s'.exactValues = s.exactValues := by
    have a := f1.2.1
    have b := f1'.2.1
    rw [hargs] at b
    rw [a] at b
    simpa using b.symm
  have hP : s'.pseudoInv = s.pseudoInv := by rw [f1'.2.2.1, f1.2.2.1, hargs]
  have hsel : ∀ k : ℤ, ea.nClosest = some k → ∀ j p, queryAt3 ea j = some p →
      (s.sel env k.toNat p).Perm (s'.sel env k.toNat (scale3 c p)) ∧ (s.sel env k.toNat p).Nodup := by
    intro k hk' j p hp
    have hkn : k.toNat ≤ n := by have := hw k hk'; omega
    obtain ⟨a1, a2⟩ := OK3D.sel_spec hk s hkn p
    obtain ⟨b1, b2⟩ := OK3D.sel_spec hk s' hkn (scale3 c p)
    refine ⟨nearest_unique (a1.trans b1.symm) a2 b2 (d := fun i => s.queryDist (s.queryPt p) i)
      (fun i hi j hj => OK3D.sel_nearest hk s hkn p hi hj) (fun i hi j hj => ?_) ?_, a2⟩
    · have := OK3D.sel_nearest hk s' hkn (scale3 c p) hi hj
      rw [eQ, eQ] at this
      exact le_of_mul_le_mul_left this hc
    · intro i i' hii
      beta_reduce at hii
      rw [hQ, hQ] at hii
      exact ht (by simp [hk']) j p hp hii
  have hto : ∀ j p, queryAt3 ea j = some p → ∀ (k : ℕ) (e : Fin k → Fin n),
      semivarTo s'.exactValues γ' (fun i => s'.queryDist (s'.queryPt (scale3 c p)) (e i)) =
        semivarTo s.exactValues γ fun i => s.queryDist (s.queryPt p) (e i) := by
    intro j p hp k e
    rw [hE]
    have hcl : ∀ i, s.exactValues = true → (s.queryDist (s.queryPt p) i ≤ 1 / 10 ^ 10 ↔
        c * s.queryDist (s.queryPt p) i ≤ 1 / 10 ^ 10) := fun i he => by
      have := hclose j p hp i (by rw [f1.2.1, he])
      rwa [← hQ] at this
    exact semivarTo_unit hγγ (D := fun i => s.queryDist (s.queryPt p) (e i)) (fun i => eQ p (e i)) (fun i => hQ0 p (e i)) fun i => hcl (e i)
  have hG : ∀ (k : ℕ) (e : Fin k → Fin n), semivar γ' (fun i j => s'.dataDist (e i) (e j)) =
      semivar γ fun i j => s.dataDist (e i) (e j) :=
    fun k e => semivar_unit hγγ (D := fun i j => s.dataDist (e i) (e j)) (fun i j => eD (e i) (e j)) fun i j => hD0 (e i) (e j)
  obtain ⟨r', h3, h4, h5, h6⟩ := h1.transfer h2 hr
    (fun a => ⟨a.style, a.win, ⟨_, hγ'⟩, hm'.queryPoints a.query, hm'.noInt a.noInt, a.backend, fun hn => by
      have := a.solvable hn
      rw [g1] at this
      rw [g2, hP, show s'.dataDist = fun i j => s'.dataDist (id i) (id j) from rfl, hG n id]
      exact this⟩)
    (fun _ => scale3 c) hm'.query (fun j _ _ => hm'.maskedAt j) (fun _ e => e)
    (fun _ j p hj hn hv k hk' => by
      have := hv (by rw [← hm'.maskedAt j]; exact hn) k hk'
      obtain ⟨q1, q2⟩ := hsel k hk' j p hj
      rw [selRegular_perm q1 q2, g1] at this
      rw [g2]
      unfold SelRegular at this ⊢
      rw [hG]
      exact this) id id
    (fun a _ j p hj _ hv => by
      unfold OK3D.ans
      cases hn : ea.nClosest with
      | none =>
        simp only [show (times3 c ea).nClosest = none from hn]
        change krigAnswer s'.pseudoInv (semivar s'.gam s'.dataDist) noF s'.VALUES
          (semivarTo s'.exactValues s'.gam (s'.queryDist (s'.queryPt (scale3 c p)))) 0 = krigAnswer s.pseudoInv (semivar s.gam s.dataDist) noF s.VALUES
          (semivarTo s.exactValues s.gam (s.queryDist (s.queryPt p))) 0
        rw [hP, hZ, g1, g2]
        rw [show semivar γ' s'.dataDist = semivar γ s.dataDist from hG n id]
        rw [show semivarTo s'.exactValues γ' (s'.queryDist (s'.queryPt (scale3 c p))) =
          semivarTo s.exactValues γ (s.queryDist (s.queryPt p)) from hto j p hj n id]
      | some k =>
        simp only [show (times3 c ea).nClosest = some k from hn]
        obtain ⟨q1, q2⟩ := hsel k hn j p hj
        change selAnswer (s'.sel env k.toNat (scale3 c p)) s'.exactValues s'.gam s'.dataDist s'.VALUES (s'.queryDist (s'.queryPt (scale3 c p))) =
          selAnswer (s.sel env k.toNat p) s.exactValues s.gam s.dataDist s.VALUES (s.queryDist (s.queryPt p))
        rw [selAnswer_perm q1 q2, g1, g2, hZ]
        unfold selAnswer
        rw [hG, hto j p hj])
  have : r' = r := by
    have t := (h1.table r hr).shape_eq
    obtain ⟨a, b, c⟩ := r
    obtain ⟨a', b', c'⟩ := r'
    simp only [Option.map_id, List.map_id] at h5 h6
    dsimp only at t h4 h5 h6
    rw [h4, h5, h6, t, hm'.resultShape]
  rw [h3, this]

/-! ### Universal kriging -/

/-- The drift arguments of `UniversalKriging` in the other unit: wells and the axes of the external drift grid
multiplied by `c`, the functional drifts as functions of the new coordinates. -/
def Spec.timesUK (c : ℝ) (args : UKArgs) : UKArgs :=
  { args with
    pointDrift := args.pointDrift.map fun wells => wells.map fun w => (c * w.1, c * w.2.1, w.2.2)
    externalDriftX := args.externalDriftX.map fun l => l.map (c * ·)
    externalDriftY := args.externalDriftY.map fun l => l.map (c * ·)
    functionalDrift := match args.functionalDrift with
      | .list fs => .list (fs.map fun f => fun x y => f (x / c) (y / c))
      | .notList => .notList }

/-- The same in three dimensions. -/
def Spec.timesUK3 (c : ℝ) (args : UK3DArgs) : UK3DArgs :=
  { args with
    functionalDrift := match args.functionalDrift with
      | .list fs => .list (fs.map fun f => fun x y z => f (x / c) (y / c) (z / c))
      | .notList => .notList }

section
variable {c : ℝ} (hc : 0 < c)
include hc

theorem amax_times (l : List ℝ) : amax (l.map (c * ·)) = (c * ·) <$> amax l := by
  cases l with
  | nil => rfl
  | cons a l =>
    have : ∀ (l : List ℝ) (a : ℝ), (l.map (c * ·)).foldl max (c * a) = c * l.foldl max a := by
      intro l
      induction l with
      | nil => intro a; rfl
      | cons b l ih =>
        intro a
        simp only [List.map_cons, List.foldl_cons]
        rw [← mul_max_of_nonneg _ _ hc.le, ih]
    simp only [List.map_cons, amax, this]
    rfl

theorem amin_times (l : List ℝ) : amin (l.map (c * ·)) = (c * ·) <$> amin l := by
  cases l with
  | nil => rfl
  | cons a l =>
    have : ∀ (l : List ℝ) (a : ℝ), (l.map (c * ·)).foldl min (c * a) = c * l.foldl min a := by
      intro l
      induction l with
      | nil => intro a; rfl
      | cons b l ih =>
        intro a
        simp only [List.map_cons, List.foldl_cons]
        rw [← mul_min_of_nonneg _ _ hc.le, ih]
    simp only [List.map_cons, amin, this]
    rfl

omit hc in
theorem ofFn_times {n : ℕ} (v : Fin n → ℝ) : List.ofFn (fun i => c * v i) = (List.ofFn v).map (c * ·) := by
  rw [List.map_ofFn]; rfl

theorem midrange_times {n : ℕ} {v : Fin n → ℝ} {m : ℝ} (h : midrange v = .ok m) :
    midrange (fun i => c * v i) = .ok (c * m) := by
  unfold midrange at h ⊢
  obtain ⟨a, ha, h⟩ := py_bind_eq_ok.1 h
  obtain ⟨b, hb, h⟩ := py_bind_eq_ok.1 h
  rw [ofFn_times, amax_times hc, amin_times hc, ha, hb]
  simp only [py_pure, Except.ok.injEq] at h
  subst h
  change Except.ok _ = _
  congr 1
  ring

omit hc in
theorem adjust2_times (ce p : Fin 2 → ℝ) (sc an : ℝ) : adjust2 (c • ce) sc an (c • p) = c • adjust2 ce sc an p := by
  rw [adjust2_mat, adjust2_mat, ← smul_sub, mulVec_smul, smul_add]

omit hc in
theorem adjust3_times (ce p : Fin 3 → ℝ) (sc : Fin 2 → ℝ) (an : Fin 3 → ℝ) :
    adjust3 (c • ce) sc an (c • p) = c • adjust3 ce sc an p := by
  unfold adjust3
  dsimp only
  rw [← smul_sub, mulVec_smul, mulVec_smul, smul_add]

/-- The grid with the axes multiplied by `c`. -/
def ExtDrift.times (c : ℝ) (e : ExtDrift) : ExtDrift :=
  { e with xs := fun i => c * e.xs i, ys := fun i => c * e.ys i }

theorem ExtDrift.zScalar_times (e : ExtDrift) (x y : ℝ) : (e.times c).zScalar (c * x) (c * y) = e.zScalar x y := by
  have g1 : ∀ {k : ℕ} (arr : Fin k → ℝ) (v : ℝ), firstGe (fun i => c * arr i) (c * v) = firstGe arr v := by
    intro k arr v
    unfold firstGe
    simp only [ge_iff_le, mul_le_mul_iff_right₀ hc]
  have g2 : ∀ {k : ℕ} (arr : Fin k → ℝ) (v : ℝ), lastLe (fun i => c * arr i) (c * v) = lastLe arr v := by
    intro k arr v
    unfold lastLe
    simp only [mul_le_mul_iff_right₀ hc]
  unfold ExtDrift.zScalar ExtDrift.times
  dsimp only
  rw [ofFn_times, ofFn_times, amax_times hc, amin_times hc, amax_times hc, amin_times hc, g1, g1, g2, g2]
  cases amax (List.ofFn e.xs) with
  | error => rfl
  | ok a =>
    cases amin (List.ofFn e.xs) with
    | error => rfl
    | ok b =>
      cases amax (List.ofFn e.ys) with
      | error => rfl
      | ok a' =>
        cases amin (List.ofFn e.ys) with
        | error => rfl
        | ok b' =>
          have m : ∀ u : ℝ, ((fun x => c * x) <$> (Except.ok u : Py ℝ)) = Except.ok (c * u) := fun _ => rfl
          have d1 : ∀ u v w : ℝ, (u * (c * v) + w) / (c * v) = (u * (c * v) + w) / (c * v) := fun _ _ _ => rfl
          have q1 : ∀ z z' u u' v : ℝ, (z * (c * u) + z' * (c * u')) / (c * v) = (z * u + z' * u') / v := by
            intro z z' u u' v
            rw [show z * (c * u) + z' * (c * u') = c * (z * u + z' * u') by ring, mul_div_mul_left _ _ hc.ne']
          have q2 : ∀ z₁ z₂ z₃ z₄ a b d e v w : ℝ, (z₁ * (c * a) * (c * d) + z₂ * (c * b) * (c * d) + z₃ * (c * a) * (c * e) +
              z₄ * (c * b) * (c * e)) / ((c * v) * (c * w)) =
              (z₁ * a * d + z₂ * b * d + z₃ * a * e + z₄ * b * e) / (v * w) := by
            intro z₁ z₂ z₃ z₄ a b d e v w
            rw [show z₁ * (c * a) * (c * d) + z₂ * (c * b) * (c * d) + z₃ * (c * a) * (c * e) + z₄ * (c * b) * (c * e) =
              (c * c) * (z₁ * a * d + z₂ * b * d + z₃ * a * e + z₄ * b * e) by ring,
              show (c * v) * (c * w) = (c * c) * (v * w) by ring, mul_div_mul_left _ _ (mul_pos hc hc).ne']
          simp only [m, py_ok_bind, gt_iff_lt, mul_lt_mul_iff_right₀ hc, ← mul_sub, q1, q2]

omit hc in
theorem setupExternal_times {args args' : UKArgs} {e : ExtDrift} (h : setupExternal args = .ok e)
    (h0 : args'.externalDrift = args.externalDrift) (hX : args'.externalDriftX = (timesUK c args).externalDriftX)
    (hY : args'.externalDriftY = (timesUK c args).externalDriftY) : setupExternal args' = .ok (e.times c) := by
  unfold setupExternal at *
  rw [h0, hX, hY]
  unfold timesUK
  dsimp only at *
  cases he : args.externalDrift with
  | none => simp [he] at h
  | some g =>
    cases hx : args.externalDriftX with
    | none => simp [he, hx] at h
    | some xs =>
      cases hy : args.externalDriftY with
      | none => simp [he, hx, hy] at h
      | some ys =>
        simp only [he, hx, hy, Option.map_some, List.length_map] at h ⊢
        split at h
        · next c1 =>
          rw [if_pos c1]
          split at h
          · next c2 =>
            rw [if_pos c2]
            cases h
            congr 1
            refine extDrift_congr (List.length_map _) (List.length_map _) ?_ ?_ ?_ <;> intros <;> simp
          · simp at h
        · next c1 =>
          rw [if_neg c1]
          cases h
          congr 1
          refine extDrift_congr (List.length_map _) (List.length_map _) ?_ ?_ ?_ <;> intros <;> simp

theorem externalAt_times {args args' : UKArgs} (h0 : args'.externalDrift = args.externalDrift)
    (hX : args'.externalDriftX = (timesUK c args).externalDriftX)
    (hY : args'.externalDriftY = (timesUK c args).externalDriftY) {p : ℝ × ℝ} {v : ℝ} (h : externalAt args p = .ok v) :
    externalAt args' (scale2 c p) = .ok v := by
  unfold externalAt at *
  obtain ⟨e, he, h⟩ := py_bind_eq_ok.1 h
  rw [setupExternal_times he h0 hX hY, py_ok_bind]
  exact (ExtDrift.zScalar_times hc e p.1 p.2).trans h

theorem euclid_times {k : ℕ} (p q : Fin k → ℝ) : euclid (c • p) (c • q) = c * euclid p q := by
  unfold euclid
  rw [← Real.sqrt_sq hc.le, ← Real.sqrt_mul (sq_nonneg _), Real.sqrt_sq hc.le, Finset.mul_sum]
  congr 1
  refine Finset.sum_congr rfl fun i _ => ?_
  simp only [Pi.smul_apply, smul_eq_mul]
  ring

theorem logDistance_times {r : ℝ} (hr : 0 < r) : logDistance (c * r) = logDistance r + Real.log c := by
  unfold logDistance
  rw [if_neg (mul_pos hc hr).ne', if_neg hr.ne', Real.log_mul hc.ne' hr.ne', add_comm]

end

/-- The first terms are rescaled, the others unchanged. -/
theorem comb_prefix {ι : Type} {u u' a t : ι → List ℝ} {cs : List (ℝ × ℝ)} (hl : ∀ i, (a i).length = cs.length)
    (hu : ∀ i, u i = a i ++ t i) (hu' : ∀ i, u' i = rescale cs (a i) ++ t i) (h0 : ∀ c ∈ cs, c.1 ≠ 0) :
    CombinationOf u u' ∧ CombinationOf u' u := by
  have hl' : ∀ i, (rescale cs (a i)).length = cs.length := fun i => by simp [rescale, hl]
  have key : ∀ {v v' b b' : ι → List ℝ}, (∀ i, (b i).length = cs.length) → (∀ i, (b' i).length = cs.length) →
      (∀ i, v i = b i ++ t i) → (∀ i, v' i = b' i ++ t i) → CombinationOf b b' → CombinationOf v v' := by
    intro v v' b b' l1 l2 e1 e2 hcomb l
    by_cases hlt : l < cs.length
    · have := hcomb l
      have e : (fun i => (v' i).getD l 0) = fun i => (b' i).getD l 0 := by
        funext i
        rw [e2, List.getD_append _ _ _ _ (by rw [l2]; exact hlt)]
      rw [e]
      refine Submodule.span_le.2 ?_ this
      rintro φ (rfl | ⟨m, rfl⟩)
      · exact Submodule.subset_span (Set.mem_insert _ _)
      · by_cases hm : m < cs.length
        · refine Submodule.subset_span (Set.mem_insert_of_mem _ ⟨m, ?_⟩)
          funext i
          beta_reduce
          rw [e1, List.getD_append _ _ _ _ (by rw [l1]; exact hm)]
        · have : (fun i => (b i).getD m 0) = 0 := by
            funext i
            rw [List.getD_eq_default _ _ (by rw [l1]; omega)]
            rfl
          simp only [SetLike.mem_coe]
          rw [this]
          exact Submodule.zero_mem _
    · have e : (fun i => (v' i).getD l 0) = fun i => (v i).getD l 0 := by
        funext i
        rw [e1, e2, List.getD_append_right _ _ _ _ (by rw [l2]; omega), List.getD_append_right _ _ _ _ (by rw [l1]; omega), l1, l2]
      rw [e]
      exact Submodule.subset_span (Set.mem_insert_of_mem _ ⟨l, rfl⟩)
  exact ⟨key hl hl' hu hu' (comb_affine hl fun i => rfl), key hl' hl hu' hu (comb_affine_inv hl (fun i => rfl) h0)⟩

theorem UK.times_adjust {n : ℕ} {env : Env} {x y z : Fin n → ℝ} {args args' : UKArgs} {s s' : UK n} {c : ℝ} (hc : 0 < c)
    (h : UK.create env x y z args = .ok s)
    (h' : UK.create env (fun i => c * x i) (fun i => c * y i) z args' = .ok s')
    (hm : args'.variogramModel = args.variogramModel) (h1 : args'.anisotropyScaling = args.anisotropyScaling)
    (h2 : args'.anisotropyAngle = args.anisotropyAngle) (p : ℝ × ℝ) :
    s'.adjustPoint (scale2 c p) = c • s.adjustPoint p := by
  obtain ⟨a1, a2⟩ := UK.create_aniso h
  obtain ⟨b1, b2⟩ := UK.create_aniso h'
  obtain ⟨d1, d2⟩ := UK.create_center h
  obtain ⟨e1, e2⟩ := UK.create_center h'
  rw [midrange_times hc d1] at e1
  rw [midrange_times hc d2] at e2
  unfold UK.adjustPoint
  rw [b1, b2, a1, a2, hm, h1, h2, ← Except.ok.inj e1, ← Except.ok.inj e2, ← adjust2_times]
  congr 1 <;> (funext k; fin_cases k <;> simp [scale2])

theorem UK3D.times_adjust {n : ℕ} {env : Env} {x y z v : Fin n → ℝ} {args args' : UK3DArgs} {s s' : UK3D n} {c : ℝ} (hc : 0 < c)
    (h : UK3D.create env x y z v args = .ok s)
    (h' : UK3D.create env (fun i => c * x i) (fun i => c * y i) (fun i => c * z i) v args' = .ok s')
    (hm : args'.variogramModel = args.variogramModel) (h1 : args'.aniso = args.aniso) (p : ℝ × ℝ × ℝ) :
    s'.adjustPoint (scale3 c p) = c • s.adjustPoint p := by
  have a1 := UK3D.create_aniso h
  have b1 := UK3D.create_aniso h'
  obtain ⟨d1, d2, d3⟩ := UK3D.create_center h
  obtain ⟨e1, e2, e3⟩ := UK3D.create_center h'
  rw [midrange_times hc d1] at e1
  rw [midrange_times hc d2] at e2
  rw [midrange_times hc d3] at e3
  unfold UK3D.adjustPoint adjustPoint3
  rw [b1, a1, hm, h1, ← Except.ok.inj e1, ← Except.ok.inj e2, ← Except.ok.inj e3, ← adjust3_times]
  congr 1 <;> (funext k; fin_cases k <;> simp [scale3])

/-- `UniversalKriging`: coordinates, wells, the axes of the external drift grid, the functional drifts and the
variogram parameters in the other unit: the same estimate and variance.  `hwell`: no datum and not the query point
lies on a well. -/
theorem C53_unit_uk {n : ℕ} {env : Env} {x y z : Fin n → ℝ} {args args' : UKArgs} {s s' : UK n} {c : ℝ}
    (hc : 0 < c) {m : String} {fA' : FunArg} {ps ps' : List ℝ} (hv : args.variogramModel = .name m)
    (hps : args.params = .list ps) (hun : OtherUnit c m (args.variogramFunction, ps) (fA', ps'))
    (hargs : args' = { timesUK c args with variogramFunction := fA', params := .list ps' })
    (h : UK.create env x y z args = .ok s) (h' : UK.create env (fun i => c * x i) (fun i => c * y i) z args' = .ok s')
    (hp : args.pseudoInv = false) {ea : UKExecArgs}
    (hs : "specified" ∈ args.driftTerms → ea.toExec.backend = "vectorized")
    {r r' : ExecResult} (hr : s.execute ea = .ok r) (hr' : s'.execute { ea with toExec := times c ea.toExec } = .ok r')
    {j : ℕ} {p : ℝ × ℝ} (hq : queryAt ea.toExec j = some p) (hm : maskedAt ea.toExec j = false)
    (hclose : ∀ i, SameClose c args.exactValues (ukDistance args p (x i, y i)))
    (hwell : "point_log" ∈ args.driftTerms → ∀ w ∈ args.pointDrift.getD [],
      ukDistance args p (w.1, w.2.1) ≠ 0 ∧ ∀ i, ukDistance args (x i, y i) (w.1, w.2.1) ≠ 0) :
    ∃ est var, r.z[j]? = some (some est) ∧ r'.z[j]? = some (some est) ∧
      r.ss[j]? = some (some var) ∧ r'.ss[j]? = some (some var) := by
  have v1 := UK.create_variogramOf h hv
  have v2 := UK.create_variogramOf h' (m := m) (by rw [hargs]; exact hv)
  rw [hps] at v1
  have v2 : VariogramOf m fA' (.list ps') s'.variogramFunction s'.functionName s'.params := by rw [hargs] at v2; exact v2
  have f1 := UK.create_fields h
  obtain ⟨exact, hex⟩ : ∃ e, args.exactValues = .bool e := ⟨_, f1.2.1⟩
  obtain ⟨row, hF, -, -⟩ := (UK.create_weighs h ea).at_point (z := s.Z) (lags := s.lags) (stats := s.stats) hr hq hm
  obtain ⟨γ, L₀, F₀, f₀, hγ, -⟩ := hF.args h hq hs
  obtain ⟨γ', hγ', hγγ⟩ := hun.variogram hc v1 v2 hγ
  have hm' := moved_times c ea.toExec
  have hT : args'.driftTerms = args.driftTerms := by rw [hargs]; rfl
  obtain ⟨L, F, f, w, ν, μ, a1, a2, a3, a4, a5, a6⟩ := UK.entry_system h hp hs hr hq hm hγ hex
  obtain ⟨L', F', f', w', ν', μ', b1, b2, b3, b4, b5, b6⟩ := UK.entry_system h' (ea := { ea with toExec := times c ea.toExec })
    (by rw [hargs]; exact hp)
    (fun t => hs (hT ▸ t)) hr' (j := j) (p := scale2 c p) (by rw [hm'.query, hq]; rfl) (by rw [hm'.maskedAt]; exact hm) hγ'
    (exact := exact) (by rw [hargs]; exact hex)
  have hdt : ∀ p q, ukDistance args' (scale2 c p) (scale2 c q) = c * ukDistance args p q := by
    intro p q
    rw [hargs]
    exact anisoDist2_times hc _ _ p q
  have hd0 : ∀ p q, 0 ≤ ukDistance args p q := fun p q => Real.sqrt_nonneg _
  have eG : semivar γ' (fun i k => ukDistance args' (c * x i, c * y i) (c * x k, c * y k)) =
      semivar γ fun i k => ukDistance args (x i, y i) (x k, y k) :=
    semivar_unit hγγ (fun i k => hdt (x i, y i) (x k, y k)) fun i k => hd0 _ _
  have eg : semivarTo exact γ' (fun i => ukDistance args' (scale2 c p) (c * x i, c * y i)) =
      semivarTo exact γ fun i => ukDistance args p (x i, y i) :=
    semivarTo_unit hγγ (fun i => hdt p (x i, y i)) (fun i => hd0 _ _) fun i he => hclose i (by rw [hex, he])
  rw [eG] at b3 b4
  rw [eg] at b4 b6
  have hadj : ∀ q, s'.adjustPoint (scale2 c q) = c • s.adjustPoint q :=
    UK.times_adjust hc h h' (by rw [hargs]; rfl) (by rw [hargs]; rfl) (by rw [hargs]; rfl)
  have heu : ∀ q q', euclid (s.adjustPoint q) (s.adjustPoint q') = ukDistance args q q' := by
    intro q q'
    obtain ⟨e1, e2⟩ := UK.create_aniso h
    unfold UK.adjustPoint
    rw [adjust2_euclid, e1, e2]
    rfl
  let cs : List (ℝ × ℝ) := (if "regional_linear" ∈ args.driftTerms then [(c, 0), (c, 0)] else []) ++
    (if "point_log" ∈ args.driftTerms then (args.pointDrift.getD []).map fun w => (1, -w.2.2 * Real.log c) else [])
  let A : ℝ × ℝ → List ℝ := fun q => (if "regional_linear" ∈ args.driftTerms then [s.adjustPoint q 0, s.adjustPoint q 1] else []) ++
    (if "point_log" ∈ args.driftTerms then (args.pointDrift.getD []).map fun w =>
      -w.2.2 * logDistance (euclid (s.adjustPoint q) (s.adjustPoint (w.1, w.2.1))) else [])
  let B : List ℝ → ℝ × ℝ → List ℝ := fun sv q => (if "external_Z" ∈ args.driftTerms then [externalValue args q] else []) ++
    ((if "specified" ∈ args.driftTerms then sv else []) ++
    (if "functional" ∈ args.driftTerms then
      match args.functionalDrift with
      | .list fs => fs.map fun g => g (s.adjustPoint q 0) (s.adjustPoint q 1)
      | .notList => []
     else []))
  have l1 : ∀ q, (if "regional_linear" ∈ args.driftTerms then [(c, (0 : ℝ)), (c, 0)] else []).length =
      (if "regional_linear" ∈ args.driftTerms then [s.adjustPoint q 0, s.adjustPoint q 1] else []).length :=
    fun q => length_block fun _ => rfl
  have hl : ∀ q, (A q).length = cs.length := by
    intro q
    simp only [A, cs, List.length_append, l1 q]
    congr 1
    exact length_block fun _ => by simp
  have hAB : ∀ sv q, driftTerms2 args s.adjustPoint sv q = A q ++ B sv q := by
    intro sv q
    simp only [A, B, driftTerms2, List.append_assoc]
    rfl
  have hAB' : ∀ sv q, ("external_Z" ∈ args.driftTerms → ∃ v, externalAt args q = .ok v) →
      ("point_log" ∈ args.driftTerms → ∀ w ∈ args.pointDrift.getD [], ukDistance args q (w.1, w.2.1) ≠ 0) →
      driftTerms2 args' s'.adjustPoint sv (scale2 c q) = rescale cs (A q) ++ B sv q := by
    intro sv q hext hw
    unfold driftTerms2
    rw [hT, rescale_append (l1 q)]
    simp only [B, List.append_assoc]
    congr 1
    · exact rescale_block fun _ => by simp [rescale, hadj]
    congr 1
    · refine rescale_block fun ht => ?_
      have hpd : args'.pointDrift = args.pointDrift.map fun wells => wells.map fun w => (c * w.1, c * w.2.1, w.2.2) := by
        rw [hargs]; rfl
      have hw := hw ht
      rw [hpd]
      cases hpw : args.pointDrift with
      | none => simp [rescale]
      | some wells =>
        rw [hpw] at hw
        simp only [Option.map_some, Option.getD_some] at hw ⊢
        unfold rescale
        rw [List.zipWith_map, List.zipWith_self, List.map_map]
        refine List.map_congr_left fun w hwm => ?_
        simp only [Function.comp]
        have e1 : s'.adjustPoint (c * w.1, c * w.2.1) = c • s.adjustPoint (w.1, w.2.1) := hadj (w.1, w.2.1)
        have e2 : euclid (c • s.adjustPoint q) (c • s.adjustPoint (w.1, w.2.1)) =
            c * euclid (s.adjustPoint q) (s.adjustPoint (w.1, w.2.1)) := euclid_times hc _ _
        rw [hadj, e1, e2, logDistance_times hc (by rw [heu]; exact lt_of_le_of_ne (hd0 _ _) (hw w hwm).symm)]
        ring
    congr 1
    · split
      · next ht =>
        obtain ⟨v, hv⟩ := hext ht
        have := externalAt_times hc (args' := args') (by rw [hargs]; rfl) (by rw [hargs]) (by rw [hargs]) hv
        unfold externalValue
        rw [hv, this]
      · rfl
    congr 1
    split
    · have hfd : args'.functionalDrift = match args.functionalDrift with
        | .list fs => .list (fs.map fun f => fun x y => f (x / c) (y / c))
        | .notList => .notList := by rw [hargs]; rfl
      rw [hfd]
      cases args.functionalDrift with
      | notList => rfl
      | list fs =>
        simp only [List.map_map]
        refine List.map_congr_left fun g _ => ?_
        simp only [Function.comp, hadj, Pi.smul_apply, smul_eq_mul]
        rw [mul_div_cancel_left₀ _ hc.ne', mul_div_cancel_left₀ _ hc.ne']
    · rfl
  have okd : ∀ i, "external_Z" ∈ args.driftTerms → ∃ v, externalAt args (x i, y i) = .ok v := fun i ht => by
    cases hv : externalAt args (x i, y i) with
    | ok v => exact ⟨v, rfl⟩
    | error e => exact absurd h (C23_create_refused ht hv s)
  have okq : "external_Z" ∈ args.driftTerms → ∃ v, externalAt args p = .ok v := fun ht => by
    cases hv : externalAt args p with
    | ok v => exact ⟨v, rfl⟩
    | error e => exact absurd hr (C23_execute_refused h ht hq (.inl hm) hv r)
  have hsq : specAtQuery { ea with toExec := times c ea.toExec } j = specAtQuery ea j := by
    unfold specAtQuery
    have : specEntry (times c ea.toExec) j = specEntry ea.toExec j := by
      funext a
      cases a <;> simp [specEntry, times]
    simp only [this]
  have hcs : ∀ d ∈ cs, d.1 ≠ 0 := by
    intro d hd
    simp only [cs, List.mem_append] at hd
    rcases hd with hd | hd <;> split at hd
    · simp only [List.mem_cons, List.not_mem_nil, or_false, or_self] at hd; rw [hd]; exact hc.ne'
    · simp at hd
    · obtain ⟨k, hk, rfl⟩ := List.mem_map.1 hd; exact one_ne_zero
    · simp at hd
  obtain ⟨c1, c2⟩ := comb_prefix
    (u := driftAt2 args s.adjustPoint x y ea j p)
    (u' := driftAt2 args' s'.adjustPoint (fun i => c * x i) (fun i => c * y i) { ea with toExec := times c ea.toExec } j (scale2 c p))
    (a := fun o => A (o.elim p fun i => (x i, y i)))
    (t := fun o => B (o.elim (specAtQuery ea j) fun i => specAtDatum args.specifiedDrift i) (o.elim p fun i => (x i, y i)))
    (fun o => hl _)
    (fun o => by cases o <;> exact hAB _ _)
    (fun o => by
      cases o with
      | none =>
        have := hAB' (specAtQuery ea j) p okq fun ht w hw => (hwell ht w hw).1
        rw [← hsq] at this
        unfold driftAt2
        rw [this, hsq]
        rfl
      | some i =>
        have := hAB' (specAtDatum args.specifiedDrift i) (x i, y i) (okd i) fun ht w hw => (hwell ht w hw).2 i
        have e : args'.specifiedDrift = args.specifiedDrift := by rw [hargs]; rfl
        unfold driftAt2
        rw [e]
        exact this) hcs
  obtain ⟨rfl, e⟩ := KrigingEqs.comb c1 c2 a1 a2 b1 b2 b3 a4 b4
  rw [e] at b6
  exact ⟨_, _, a5, b5, a6, b6⟩

/-- `UniversalKriging3D`. -/
theorem C53_unit_uk3d {n : ℕ} {env : Env} {x y z v : Fin n → ℝ} {args args' : UK3DArgs} {s s' : UK3D n} {c : ℝ}
    (hc : 0 < c) {m : String} {fA' : FunArg} {ps ps' : List ℝ} (hv : args.variogramModel = .name m)
    (hps : args.params = .list ps) (hun : OtherUnit c m (args.variogramFunction, ps) (fA', ps'))
    (hargs : args' = { timesUK3 c args with variogramFunction := fA', params := .list ps' })
    (h : UK3D.create env x y z v args = .ok s)
    (h' : UK3D.create env (fun i => c * x i) (fun i => c * y i) (fun i => c * z i) v args' = .ok s')
    (hp : args.pseudoInv = false) {ea : UK3DExecArgs}
    (hs : "specified" ∈ args.driftTerms → ea.toExec.backend = "vectorized")
    {r r' : ExecResult} (hr : s.execute ea = .ok r) (hr' : s'.execute { ea with toExec := times3 c ea.toExec } = .ok r')
    {j : ℕ} {p : ℝ × ℝ × ℝ} (hq : queryAt3 ea.toExec j = some p) (hm : maskedAt3 ea.toExec j = false)
    (hclose : ∀ i, SameClose c args.exactValues (uk3Distance args p (x i, y i, z i))) :
    ∃ est var, r.z[j]? = some (some est) ∧ r'.z[j]? = some (some est) ∧
      r.ss[j]? = some (some var) ∧ r'.ss[j]? = some (some var) := by
  have v1 := UK3D.create_variogramOf h hv
  have v2 := UK3D.create_variogramOf h' (m := m) (by rw [hargs]; exact hv)
  rw [hps] at v1
  have v2 : VariogramOf m fA' (.list ps') s'.variogramFunction s'.functionName s'.params := by rw [hargs] at v2; exact v2
  have f1 := UK3D.create_fields h
  obtain ⟨exact, hex⟩ : ∃ e, args.exactValues = .bool e := ⟨_, f1.2.1⟩
  obtain ⟨row, hF, -, -⟩ := (UK3D.create_weighs h ea).at_point (z := s.VALUES) (lags := s.lags) (stats := s.stats) hr hq hm
  obtain ⟨γ, L₀, F₀, f₀, hγ, -⟩ := hF.args h hq hs
  obtain ⟨γ', hγ', hγγ⟩ := hun.variogram hc v1 v2 hγ
  have hm' := moved_times3 c ea.toExec
  have hT : args'.driftTerms = args.driftTerms := by rw [hargs]; rfl
  obtain ⟨L, F, f, w, ν, μ, a1, a2, a3, a4, a5, a6⟩ := UK3D.entry_system h hp hs hr hq hm hγ hex
  obtain ⟨L', F', f', w', ν', μ', b1, b2, b3, b4, b5, b6⟩ := UK3D.entry_system h' (ea := { ea with toExec := times3 c ea.toExec })
    (by rw [hargs]; exact hp)
    (fun t => hs (hT ▸ t)) hr' (j := j) (p := scale3 c p) (by rw [hm'.query, hq]; rfl) (by rw [hm'.maskedAt]; exact hm) hγ'
    (exact := exact) (by rw [hargs]; exact hex)
  have hdt : ∀ p q, uk3Distance args' (scale3 c p) (scale3 c q) = c * uk3Distance args p q := by
    intro p q
    rw [hargs]
    exact distance3_times hc _ p q
  have hd0 : ∀ p q, 0 ≤ uk3Distance args p q := fun p q => Real.sqrt_nonneg _
  have eG : semivar γ' (fun i k => uk3Distance args' (c * x i, c * y i, c * z i) (c * x k, c * y k, c * z k)) =
      semivar γ fun i k => uk3Distance args (x i, y i, z i) (x k, y k, z k) :=
    semivar_unit hγγ (fun i k => hdt (x i, y i, z i) (x k, y k, z k)) fun i k => hd0 _ _
  have eg : semivarTo exact γ' (fun i => uk3Distance args' (scale3 c p) (c * x i, c * y i, c * z i)) =
      semivarTo exact γ fun i => uk3Distance args p (x i, y i, z i) :=
    semivarTo_unit hγγ (fun i => hdt p (x i, y i, z i)) (fun i => hd0 _ _) fun i he => hclose i (by rw [hex, he])
  rw [eG] at b3 b4
  rw [eg] at b4 b6
  have hadj : ∀ q, s'.adjustPoint (scale3 c q) = c • s.adjustPoint q :=
    UK3D.times_adjust hc h h' (by rw [hargs]; rfl) (by rw [hargs]; rfl)
  let cs : List (ℝ × ℝ) := if "regional_linear" ∈ args.driftTerms then [(c, 0), (c, 0), (c, 0)] else []
  let A : ℝ × ℝ × ℝ → List ℝ := fun q => if "regional_linear" ∈ args.driftTerms then
    [s.adjustPoint q 0, s.adjustPoint q 1, s.adjustPoint q 2] else []
  let B : List ℝ → ℝ × ℝ × ℝ → List ℝ := fun sv q => (if "specified" ∈ args.driftTerms then sv else []) ++
    (if "functional" ∈ args.driftTerms then
      match args.functionalDrift with
      | .list fs => fs.map fun g => g (s.adjustPoint q 0) (s.adjustPoint q 1) (s.adjustPoint q 2)
      | .notList => []
     else [])
  have hl : ∀ q, (A q).length = cs.length := fun q => length_block fun _ => rfl
  have hAB : ∀ sv q, driftTerms3 args s.adjustPoint sv q = A q ++ B sv q := by
    intro sv q
    simp only [A, B, driftTerms3, List.append_assoc]
    rfl
  have hAB' : ∀ sv q, driftTerms3 args' s'.adjustPoint sv (scale3 c q) = rescale cs (A q) ++ B sv q := by
    intro sv q
    unfold driftTerms3
    rw [hT]
    simp only [B, List.append_assoc]
    congr 1
    · exact rescale_block fun _ => by simp [rescale, hadj]
    congr 1
    split
    · have hfd : args'.functionalDrift = match args.functionalDrift with
        | .list fs => .list (fs.map fun f => fun x y z => f (x / c) (y / c) (z / c))
        | .notList => .notList := by rw [hargs]; rfl
      rw [hfd]
      cases args.functionalDrift with
      | notList => rfl
      | list fs =>
        simp only [List.map_map]
        refine List.map_congr_left fun g _ => ?_
        simp only [Function.comp, hadj, Pi.smul_apply, smul_eq_mul]
        rw [mul_div_cancel_left₀ _ hc.ne', mul_div_cancel_left₀ _ hc.ne', mul_div_cancel_left₀ _ hc.ne']
    · rfl
  have hsq : specAtQuery3 { ea with toExec := times3 c ea.toExec } j = specAtQuery3 ea j := by
    unfold specAtQuery3
    have : specEntry3 (times3 c ea.toExec) j = specEntry3 ea.toExec j := by
      funext a
      cases a <;> simp [specEntry3, times3]
    simp only [this]
  have hcs : ∀ d ∈ cs, d.1 ≠ 0 := by
    intro d hd
    simp only [cs] at hd
    split at hd
    · simp only [List.mem_cons, List.not_mem_nil, or_false, or_self] at hd; rw [hd]; exact hc.ne'
    · simp at hd
  obtain ⟨c1, c2⟩ := comb_prefix
    (u := driftAt3 args s.adjustPoint x y z ea j p)
    (u' := driftAt3 args' s'.adjustPoint (fun i => c * x i) (fun i => c * y i) (fun i => c * z i)
      { ea with toExec := times3 c ea.toExec } j (scale3 c p))
    (a := fun o => A (o.elim p fun i => (x i, y i, z i)))
    (t := fun o => B (o.elim (specAtQuery3 ea j) fun i => specAtDatum args.specifiedDrift i) (o.elim p fun i => (x i, y i, z i)))
    (fun o => hl _)
    (fun o => by cases o <;> exact hAB _ _)
    (fun o => by
      cases o with
      | none =>
        have := hAB' (specAtQuery3 ea j) p
        rw [← hsq] at this
        unfold driftAt3
        rw [this, hsq]
        rfl
      | some i =>
        have := hAB' (specAtDatum args.specifiedDrift i) (x i, y i, z i)
        have e : args'.specifiedDrift = args.specifiedDrift := by rw [hargs]; rfl
        unfold driftAt3
        rw [e]
        exact this) hcs
  obtain ⟨rfl, e⟩ := KrigingEqs.comb c1 c2 a1 a2 b1 b2 b3 a4 b4
  rw [e] at b6
  exact ⟨_, _, a5, b5, a6, b6⟩

/-! ### Examples: metres and kilometres -/

namespace Demo

theorem sph_valid_km : ValidModel "spherical" (listMeaning "spherical" [3, 1000 * 2, 1]) :=
  .inr (.inr ⟨2, 1000 * 2, 1, by simp, by simp [listMeaning]; norm_num, by norm_num, by norm_num, by norm_num⟩)

theorem sph_grows_km : Growing (listMeaning "spherical" [3, 1000 * 2, 1]) :=
  ⟨2, [1000 * 2, 1], by simp [listMeaning]; norm_num, by norm_num⟩

/-- Points far apart in the first coordinate are far apart. -/
theorem far {p q : ℝ × ℝ} (h : 1 / 2 ≤ |p.1 - q.1|) : 1 / 2 ≤ anisoDist2 1 0 p q := by
  unfold anisoDist2
  simp only [rad, zero_mul, zero_div, Real.cos_zero, Real.sin_zero, one_mul, add_zero, neg_zero, zero_add]
  refine h.trans (Real.le_sqrt_of_sq_le ?_)
  rw [sq_abs]
  nlinarith [sq_nonneg (p.2 - q.2)]

theorem x4_far (i : Fin 4) : 1 / 2 ≤ |(1 / 2 : ℝ) - x4 i| := by
  fin_cases i <;> simp [x4] <;> norm_num [abs_of_neg, abs_of_pos, le_abs]

theorem sameClose {d : ℝ} (h : 1 / 2 ≤ d) (b : BoolArg) : SameClose 1000 b d := fun _ => by
  constructor <;> intro h' <;> norm_num at h' <;> linarith

end Demo

/-- Four data, coordinates in kilometres or in metres. -/
example (z : Fin 4 → ℝ) (t : ℝ) : ∃ s s' r,
    OK.create stdEnv Demo.x4 Demo.y4 z (Demo.any "spherical" [3, 2, 1]) = .ok s ∧
    OK.create stdEnv (fun i => 1000 * Demo.x4 i) (fun i => 1000 * Demo.y4 i) z (Demo.any "spherical" [3, 1000 * 2, 1]) = .ok s' ∧
    s.execute stdEnv (Demo.pts [(1 / 2, t)] "loop") = .ok r ∧
    s'.execute stdEnv (times 1000 (Demo.pts [(1 / 2, t)] "loop")) = .ok r := by
  have inj' : Function.Injective fun i => ((1000 : ℝ) * Demo.x4 i, (1000 : ℝ) * Demo.y4 i) := fun i j hij => by
    simp only [Prod.mk.injEq, mul_eq_mul_left_iff, OfNat.ofNat_ne_zero, or_false] at hij
    exact Demo.inj4 (Prod.ext hij.1 hij.2)
  obtain ⟨s, h, -, ha, hr⟩ := Demo.any_ok (n := 4) (by norm_num) z Demo.sph_valid Demo.sph_grows Demo.inj4
  obtain ⟨s', h', -, ha', -⟩ := Demo.any_ok (n := 4) (by norm_num) z Demo.sph_valid_km Demo.sph_grows_km inj'
  have hw := Demo.pts_wellPosed [(1 / 2, t)] "loop"
  obtain ⟨r, hr⟩ := hr (Demo.pts [(1 / 2, t)] "loop") hw.1 (by simp [WindowOk, Demo.pts]) (by simp [WindowFits, Demo.pts]) hw.2
    (by simp [Supports, Demo.pts])
  refine ⟨s, s', r, h, h', hr, C53_unit_2d (by norm_num) rfl rfl rfl (.range "spherical" (by simp) .none 3 2 1) rfl h h'
    (ha _ (by simp [WindowFits, Demo.pts])) (ha' _ (by simp [WindowFits, Demo.pts])) (fun j p hp i => ?_) (by simp [NoTies, Demo.pts]) hr⟩
  cases j with
  | zero =>
    simp [queryAt, Demo.pts] at hp
    subst hp
    refine Demo.sameClose ?_ _
    have := Demo.far (p := (1 / 2, t)) (q := (Demo.x4 i, Demo.y4 i)) (Demo.x4_far i)
    simpa [okDistance, distance2, Demo.any, effScaling, effAngle] using this
  | succ j => simp [queryAt, Demo.pts] at hp

/-- The same with a regional linear drift. -/
example (z : Fin 4 → ℝ) (t : ℝ) : ∃ s s' r r' est var,
    UK.create stdEnv Demo.x4 Demo.y4 z (Demo.uany "spherical" [3, 2, 1]) = .ok s ∧
    UK.create stdEnv (fun i => 1000 * Demo.x4 i) (fun i => 1000 * Demo.y4 i) z (Demo.uany "spherical" [3, 1000 * 2, 1]) = .ok s' ∧
    s.execute { toExec := Demo.pts [(1 / 2, t)] "loop" } = .ok r ∧
    s'.execute { toExec := times 1000 (Demo.pts [(1 / 2, t)] "loop") } = .ok r' ∧
    r.z[0]? = some (some est) ∧ r'.z[0]? = some (some est) ∧ r.ss[0]? = some (some var) ∧ r'.ss[0]? = some (some var) := by
  have inj' : Function.Injective fun i => ((1000 : ℝ) * Demo.x4 i, (1000 : ℝ) * Demo.y4 i) := fun i j hij => by
    simp only [Prod.mk.injEq, mul_eq_mul_left_iff, OfNat.ofNat_ne_zero, or_false] at hij
    exact Demo.inj4 (Prod.ext hij.1 hij.2)
  have plane' : Demo.Plane (fun i => (1000 : ℝ) * Demo.x4 i) (fun i => (1000 : ℝ) * Demo.y4 i) := fun a b c hi => by
    obtain ⟨h1, h2, h3⟩ := Demo.plane4 (a * 1000) (b * 1000) c fun i => by rw [← hi i]; ring
    exact ⟨by linarith, by linarith, h3⟩
  obtain ⟨s, h, hp, -, hr⟩ := Demo.uany_ok (n := 4) (by norm_num) z Demo.sph_valid Demo.sph_grows Demo.inj4 Demo.plane4
  obtain ⟨s', h', hp', -, hr'⟩ := Demo.uany_ok (n := 4) (by norm_num) z Demo.sph_valid_km Demo.sph_grows_km inj' plane'
  have hw := Demo.pts_wellPosed [(1 / 2, t)] "loop"
  obtain ⟨r, hr⟩ := hr { toExec := Demo.pts [(1 / 2, t)] "loop" } hw.1 hw.2 (.inr rfl)
  obtain ⟨r', hr'⟩ := hr' { toExec := times 1000 (Demo.pts [(1 / 2, t)] "loop") } (.inr (.inr ⟨rfl, rfl⟩))
    (by simp [HasFloats, times]) (.inr rfl)
  obtain ⟨est, var, h1, h2, h3, h4⟩ := C53_unit_uk (c := 1000) (by norm_num) rfl rfl (.range "spherical" (by simp) .none 3 2 1)
    rfl h h' rfl (fun t => by simp [Demo.uany] at t) hr hr' (j := 0) (p := (1 / 2, t)) (by simp [queryAt, Demo.pts]) rfl
    (fun i => Demo.sameClose (Demo.far (Demo.x4_far i)) _) (fun t => by simp [Demo.uany] at t)
  exact ⟨s, s', r, r', est, var, h, h', hr, hr', h1, h2, h3, h4⟩


end
end PyKrige
