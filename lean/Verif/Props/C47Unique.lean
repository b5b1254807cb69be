import Verif.Props.C47

/-!
# C47, uniqueness: whoever solves the kriging equations finds the numbers `execute` returns

Without `pseudo_inv` (a moving window never uses it) `execute` only returns numbers if the kriging equations have just one
solution, and these are the estimate and the variance belonging to it.
-/

set_option linter.unusedSectionVars false

namespace PyKrige
noncomputable section
open Matrix Spec

/-- Ordinary kriging equations that have at most one solution. -/
def Spec.OKRegular {ι : Type} [Fintype ι] (G : ι → ι → ℝ) : Prop := Regular G fun l : Fin 0 => l.elim0

theorem KrigedBy.unique {n L m : ℕ} {sel : Fin m → Fin n} {exact : Bool} {γ : ℝ → ℝ}
    {D : Fin n → Fin n → ℝ} {F : Fin L → Fin n → ℝ} {d : Fin n → ℝ} {f : Fin L → ℝ} {row : WRow n}
    (h : KrigedBy sel false exact γ D F d f row) :
    Regular (semivar γ fun i j => D (sel i) (sel j)) (fun l i => F l (sel i)) ∧
      (∃ w ν μ, KrigingEqs (semivar γ fun i j => D (sel i) (sel j)) (fun l i => F l (sel i))
        (semivarTo exact γ fun i => d (sel i)) f 1 w ν μ) ∧
      ∀ w ν μ, KrigingEqs (semivar γ fun i j => D (sel i) (sel j)) (fun l i => F l (sel i))
        (semivarTo exact γ fun i => d (sel i)) f 1 w ν μ →
      row.w = scatter sel w ∧ row.var = krigingVariance (semivarTo exact γ fun i => d (sel i)) f w ν μ := by
  have hr := h.solvable.resolve_left (by simp)
  obtain ⟨w', ν', μ', e⟩ := h.krigedEqs (.inl rfl)
  refine ⟨hr, ⟨w', ν', μ', e.eqs⟩, fun w ν μ hw => ?_⟩
  obtain ⟨rfl, rfl, rfl⟩ := KrigingEqs.unique hr hw e.eqs
  exact ⟨e.w_eq, e.var_eq⟩

theorem okEqs_iff {ι : Type} [Fintype ι] {G : ι → ι → ℝ} {F : Fin 0 → ι → ℝ} {g : ι → ℝ} {f : Fin 0 → ℝ} {w : ι → ℝ} {ν : Fin 0 → ℝ}
    {μ : ℝ} : KrigingEqs G F g f 1 w ν μ ↔ OKEqs G g w μ := by
  unfold OKEqs
  rw [show F = fun l => l.elim0 from funext fun l => l.elim0, show f = fun l => l.elim0 from funext fun l => l.elim0,
    show ν = fun l => l.elim0 from funext fun l => l.elim0]

theorem okRegular_iff {ι : Type} [Fintype ι] {G : ι → ι → ℝ} {F : Fin 0 → ι → ℝ} : Regular G F ↔ OKRegular G := by
  unfold OKRegular
  rw [show F = fun l => l.elim0 from funext fun l => l.elim0]

theorem okVariance_eq {ι : Type} [Fintype ι] {g : ι → ℝ} {f : Fin 0 → ℝ} {w : ι → ℝ} {ν : Fin 0 → ℝ} {μ : ℝ} :
    krigingVariance g f w ν μ = okVariance g w μ := by
  unfold okVariance
  rw [show f = fun l => l.elim0 from funext fun l => l.elim0, show ν = fun l => l.elim0 from funext fun l => l.elim0]

/-- `OrdinaryKriging` without moving window. -/
theorem C47_unique_2d {n : ℕ} {env : Env} {x y z : Fin n → ℝ} {args : OKArgs} {s : OK n}
    (h : OK.create env x y z args = .ok s) {ea : ExecArgs} (ha : Admissible env args s ea.nClosest)
    (hw : ea.nClosest = none) (hp : args.pseudoInv = false) {γ : ℝ → ℝ} (hγ : s.variogramFunction s.params = .ok γ)
    {exact : Bool} (hex : args.exactValues = .bool exact) {r : ExecResult} (hr : s.execute env ea = .ok r)
    {j : ℕ} {p : ℝ × ℝ} (hq : queryAt ea j = some p) (hm : maskedAt ea j = false) :
    OKRegular (semivar γ fun i k => okDistance args (x i, y i) (x k, y k)) ∧
    (∃ w μ, OKEqs (semivar γ fun i k => okDistance args (x i, y i) (x k, y k))
        (semivarTo exact γ fun i => okDistance args p (x i, y i)) w μ) ∧
    ∀ w μ, OKEqs (semivar γ fun i k => okDistance args (x i, y i) (x k, y k))
        (semivarTo exact γ fun i => okDistance args p (x i, y i)) w μ →
      r.z[j]? = some (some (estimate w z)) ∧
      r.ss[j]? = some (some (okVariance (semivarTo exact γ fun i => okDistance args p (x i, y i)) w μ)) := by
  obtain ⟨-, he, hpi, -, -, -, -, hZ⟩ := OK.create_fields h
  obtain ⟨hD, hQ⟩ := OK.create_dist h
  rw [he] at hex
  cases hex
  obtain ⟨row, ⟨γ', hγ', hk⟩, hz, hss⟩ :=
    (OK.create_weighs h ha).at_point (z := s.Z) (lags := s.lags) (stats := s.stats) hr hq hm
  rw [hγ] at hγ'
  cases hγ'
  obtain ⟨-, hk⟩ | ⟨k, hk, -⟩ := hk
  · rw [hpi.trans hp] at hk
    obtain ⟨h1, ⟨w', ν', μ', h3⟩, h2⟩ := hk.unique
    simp only [id, hD, hQ] at h1 h2 h3
    refine ⟨okRegular_iff.1 h1, ⟨w', μ', okEqs_iff.1 h3⟩, fun w μ hw => ?_⟩
    obtain ⟨e1, e2⟩ := h2 w (fun l => l.elim0) μ (okEqs_iff.2 hw)
    rw [hz, hss, hZ, e1, scatter_id, e2]
    exact ⟨rfl, by rw [okVariance_eq]⟩
  · rw [hw] at hk; cases hk

/-- `OrdinaryKriging` with a moving window: the equations of the data in the window. -/
theorem C47_unique_window_2d {n : ℕ} {env : Env} {x y z : Fin n → ℝ} {args : OKArgs} {s : OK n}
    (h : OK.create env x y z args = .ok s) {ea : ExecArgs} (ha : Admissible env args s ea.nClosest)
    {k : ℕ} (hw : ea.nClosest = some (k : ℤ)) {γ : ℝ → ℝ} (hγ : s.variogramFunction s.params = .ok γ)
    {exact : Bool} (hex : args.exactValues = .bool exact) {r : ExecResult} (hr : s.execute env ea = .ok r)
    {j : ℕ} {p : ℝ × ℝ} (hq : queryAt ea j = some p) (hm : maskedAt ea j = false) :
    ∃ sel : Fin k → Fin n, Function.Injective sel ∧
      (∀ i l, l ∉ Set.range sel → okDistance args p (x (sel i), y (sel i)) ≤ okDistance args p (x l, y l)) ∧
      OKRegular (semivar γ fun i k => okDistance args (x (sel i), y (sel i)) (x (sel k), y (sel k))) ∧
      (∃ w μ, OKEqs (semivar γ fun i k => okDistance args (x (sel i), y (sel i)) (x (sel k), y (sel k)))
          (semivarTo exact γ fun i => okDistance args p (x (sel i), y (sel i))) w μ) ∧
      ∀ w μ, OKEqs (semivar γ fun i k => okDistance args (x (sel i), y (sel i)) (x (sel k), y (sel k)))
          (semivarTo exact γ fun i => okDistance args p (x (sel i), y (sel i))) w μ →
        r.z[j]? = some (some (estimate w fun i => z (sel i))) ∧
        r.ss[j]? = some (some (okVariance (semivarTo exact γ fun i => okDistance args p (x (sel i), y (sel i))) w μ)) := by
  obtain ⟨-, he, hpi, -, -, -, -, hZ⟩ := OK.create_fields h
  obtain ⟨hD, hQ⟩ := OK.create_dist h
  rw [he] at hex
  cases hex
  obtain ⟨row, ⟨γ', hγ', hk⟩, hz, hss⟩ :=
    (OK.create_weighs h ha).at_point (z := s.Z) (lags := s.lags) (stats := s.stats) hr hq hm
  rw [hγ] at hγ'
  cases hγ'
  obtain ⟨hk, -⟩ | ⟨k', hk, hk'⟩ := hk
  · rw [hw] at hk; cases hk
  · rw [hw] at hk
    cases hk
    have hkn : k ≤ n := by exact_mod_cast ha.window _ hw
    obtain ⟨hl, hnd⟩ := OK.sel_spec ha.knn s hkn p
    have hnear := fun {i : Fin n} hi {l : Fin n} hl => OK.sel_nearest ha.knn s hkn p (i := i) hi (j := l) hl
    simp only [Int.toNat_natCast] at hk'
    generalize s.sel env k p = sl at hl hnd hk' hnear
    subst hl
    obtain ⟨h1, ⟨w', ν', μ', h3⟩, h2⟩ := hk'.unique
    have hinj := hk'.inj
    simp only [hD, hQ] at h1 h2 h3 hnear
    refine ⟨sl.get, hinj, fun i l hl => ?_, okRegular_iff.1 h1, ⟨w', μ', okEqs_iff.1 h3⟩, fun w μ hw => ?_⟩
    · refine hnear (List.get_mem _ _) fun hc => hl ?_
      obtain ⟨a, ha⟩ := List.mem_iff_get.1 hc
      exact ⟨a, ha⟩
    · obtain ⟨e1, e2⟩ := h2 w (fun l => l.elim0) μ (okEqs_iff.2 hw)
      rw [hz, hss, hZ, e1, estimate_scatter, e2]
      exact ⟨rfl, by rw [okVariance_eq]⟩

/-- `OrdinaryKriging3D` without moving window. -/
theorem C47_unique_3d {n : ℕ} {env : Env} {x y z v : Fin n → ℝ} {args : OK3DArgs} {s : OK3D n}
    (h : OK3D.create env x y z v args = .ok s) {ea : ExecArgs3} (hknn : KnnSpec env) (hwf : WindowFits n ea.nClosest)
    (hw : ea.nClosest = none) (hp : args.pseudoInv = false) {γ : ℝ → ℝ} (hγ : s.variogramFunction s.params = .ok γ)
    {exact : Bool} (hex : args.exactValues = .bool exact) {r : ExecResult} (hr : s.execute env ea = .ok r)
    {j : ℕ} {p : ℝ × ℝ × ℝ} (hq : queryAt3 ea j = some p) (hm : maskedAt3 ea j = false) :
    OKRegular (semivar γ fun i k => ok3Distance args (x i, y i, z i) (x k, y k, z k)) ∧
    (∃ w μ, OKEqs (semivar γ fun i k => ok3Distance args (x i, y i, z i) (x k, y k, z k))
        (semivarTo exact γ fun i => ok3Distance args p (x i, y i, z i)) w μ) ∧
    ∀ w μ, OKEqs (semivar γ fun i k => ok3Distance args (x i, y i, z i) (x k, y k, z k))
        (semivarTo exact γ fun i => ok3Distance args p (x i, y i, z i)) w μ →
      r.z[j]? = some (some (estimate w v)) ∧
      r.ss[j]? = some (some (okVariance (semivarTo exact γ fun i => ok3Distance args p (x i, y i, z i)) w μ)) := by
  obtain ⟨-, he, hpi, -, -, -, -, hZ⟩ := OK3D.create_fields h
  obtain ⟨hD, hQ⟩ := OK3D.create_dist h
  rw [he] at hex
  cases hex
  obtain ⟨row, ⟨γ', hγ', hk⟩, hz, hss⟩ :=
    (OK3D.create_weighs h hknn hwf).at_point (z := s.VALUES) (lags := s.lags) (stats := s.stats) hr hq hm
  rw [hγ] at hγ'
  cases hγ'
  obtain ⟨-, hk⟩ | ⟨k, hk, -⟩ := hk
  · rw [hpi.trans hp] at hk
    obtain ⟨h1, ⟨w', ν', μ', h3⟩, h2⟩ := hk.unique
    simp only [id, hD, hQ] at h1 h2 h3
    refine ⟨okRegular_iff.1 h1, ⟨w', μ', okEqs_iff.1 h3⟩, fun w μ hw => ?_⟩
    obtain ⟨e1, e2⟩ := h2 w (fun l => l.elim0) μ (okEqs_iff.2 hw)
    rw [hz, hss, hZ, e1, scatter_id, e2]
    exact ⟨rfl, by rw [okVariance_eq]⟩
  · rw [hw] at hk; cases hk

/-- `OrdinaryKriging3D` with a moving window: the equations of the data in the window. -/
theorem C47_unique_window_3d {n : ℕ} {env : Env} {x y z v : Fin n → ℝ} {args : OK3DArgs} {s : OK3D n}
    (h : OK3D.create env x y z v args = .ok s) {ea : ExecArgs3} (hknn : KnnSpec env) (hwf : WindowFits n ea.nClosest)
    {k : ℕ} (hw : ea.nClosest = some (k : ℤ)) {γ : ℝ → ℝ} (hγ : s.variogramFunction s.params = .ok γ)
    {exact : Bool} (hex : args.exactValues = .bool exact) {r : ExecResult} (hr : s.execute env ea = .ok r)
    {j : ℕ} {p : ℝ × ℝ × ℝ} (hq : queryAt3 ea j = some p) (hm : maskedAt3 ea j = false) :
    ∃ sel : Fin k → Fin n, Function.Injective sel ∧
      (∀ i l, l ∉ Set.range sel → ok3Distance args p (x (sel i), y (sel i), z (sel i)) ≤ ok3Distance args p (x l, y l, z l)) ∧
      OKRegular (semivar γ fun i k => ok3Distance args (x (sel i), y (sel i), z (sel i)) (x (sel k), y (sel k), z (sel k))) ∧
      (∃ w μ, OKEqs (semivar γ fun i k => ok3Distance args (x (sel i), y (sel i), z (sel i)) (x (sel k), y (sel k), z (sel k)))
          (semivarTo exact γ fun i => ok3Distance args p (x (sel i), y (sel i), z (sel i))) w μ) ∧
      ∀ w μ, OKEqs (semivar γ fun i k => ok3Distance args (x (sel i), y (sel i), z (sel i)) (x (sel k), y (sel k), z (sel k)))
          (semivarTo exact γ fun i => ok3Distance args p (x (sel i), y (sel i), z (sel i))) w μ →
        r.z[j]? = some (some (estimate w fun i => v (sel i))) ∧
        r.ss[j]? = some (some (okVariance (semivarTo exact γ fun i => ok3Distance args p (x (sel i), y (sel i), z (sel i))) w μ)) := by
  obtain ⟨-, he, hpi, -, -, -, -, hZ⟩ := OK3D.create_fields h
  obtain ⟨hD, hQ⟩ := OK3D.create_dist h
  rw [he] at hex
  cases hex
  obtain ⟨row, ⟨γ', hγ', hk⟩, hz, hss⟩ :=
    (OK3D.create_weighs h hknn hwf).at_point (z := s.VALUES) (lags := s.lags) (stats := s.stats) hr hq hm
  rw [hγ] at hγ'
  cases hγ'
  obtain ⟨hk, -⟩ | ⟨k', hk, hk'⟩ := hk
  · rw [hw] at hk; cases hk
  · rw [hw] at hk
    cases hk
    have hkn : k ≤ n := by exact_mod_cast hwf _ hw
    obtain ⟨hl, hnd⟩ := OK3D.sel_spec hknn s hkn p
    have hnear := fun {i : Fin n} hi {l : Fin n} hl => OK3D.sel_nearest hknn s hkn p (i := i) hi (j := l) hl
    simp only [Int.toNat_natCast] at hk'
    generalize s.sel env k p = sl at hl hnd hk' hnear
    subst hl
    obtain ⟨h1, ⟨w', ν', μ', h3⟩, h2⟩ := hk'.unique
    have hinj := hk'.inj
    simp only [hD, hQ] at h1 h2 h3 hnear
    refine ⟨sl.get, hinj, fun i l hl => ?_, okRegular_iff.1 h1, ⟨w', μ', okEqs_iff.1 h3⟩, fun w μ hw => ?_⟩
    · refine hnear (List.get_mem _ _) fun hc => hl ?_
      obtain ⟨a, ha⟩ := List.mem_iff_get.1 hc
      exact ⟨a, ha⟩
    · obtain ⟨e1, e2⟩ := h2 w (fun l => l.elim0) μ (okEqs_iff.2 hw)
      rw [hz, hss, hZ, e1, estimate_scatter, e2]
      exact ⟨rfl, by rw [okVariance_eq]⟩

/-- `UniversalKriging` (specified drift: backend 'vectorized', see C24).  `F` and `f` are the drift terms at the data and at
the query point. -/
theorem C47_unique_uk {n : ℕ} {env : Env} {x y z : Fin n → ℝ} {args : UKArgs} {s : UK n}
    (h : UK.create env x y z args = .ok s) {ea : UKExecArgs} (hp : args.pseudoInv = false)
    (hs : "specified" ∈ args.driftTerms → ea.toExec.backend = "vectorized")
    {γ : ℝ → ℝ} (hγ : s.variogramFunction s.params = .ok γ)
    {exact : Bool} (hex : args.exactValues = .bool exact) {r : ExecResult} (hr : s.execute ea = .ok r)
    {j : ℕ} {p : ℝ × ℝ} (hq : queryAt ea.toExec j = some p) (hm : maskedAt ea.toExec j = false) :
    ∃ L, ∃ F : Fin L → Fin n → ℝ, ∃ f : Fin L → ℝ,
      (∀ i, List.ofFn (fun l => F l i) =
        driftTerms2 args s.adjustPoint (specAtDatum args.specifiedDrift i) (x i, y i)) ∧
      List.ofFn f = driftTerms2 args s.adjustPoint (specAtQuery ea j) p ∧
      Regular (semivar γ fun i k => ukDistance args (x i, y i) (x k, y k)) F ∧
      (∃ w ν μ, KrigingEqs (semivar γ fun i k => ukDistance args (x i, y i) (x k, y k)) F
          (semivarTo exact γ fun i => ukDistance args p (x i, y i)) f 1 w ν μ) ∧
      ∀ w ν μ, KrigingEqs (semivar γ fun i k => ukDistance args (x i, y i) (x k, y k)) F
          (semivarTo exact γ fun i => ukDistance args p (x i, y i)) f 1 w ν μ →
        r.z[j]? = some (some (estimate w z)) ∧
        r.ss[j]? = some (some (krigingVariance (semivarTo exact γ fun i => ukDistance args p (x i, y i)) f w ν μ)) := by
  obtain ⟨-, he, hpi, -, -, -, hZ⟩ := UK.create_fields h
  obtain ⟨hD, hQ⟩ := UK.create_dist h
  rw [he] at hex
  cases hex
  obtain ⟨row, hF, hz, hss⟩ :=
    (UK.create_weighs h ea).at_point (z := s.Z) (lags := s.lags) (stats := s.stats) hr hq hm
  obtain ⟨γ', L, F, f, hγ', hk, h1, h2⟩ := hF.args h hq hs
  rw [hγ] at hγ'
  cases hγ'
  rw [hpi.trans hp] at hk
  obtain ⟨h3, h5, h4⟩ := hk.unique
  simp only [id, hD, hQ] at h3 h4 h5
  refine ⟨L, F, f, h1, h2, h3, h5, fun w ν μ hw => ?_⟩
  obtain ⟨e1, e2⟩ := h4 w ν μ hw
  rw [hz, hss, hZ, e1, scatter_id, e2]
  exact ⟨rfl, rfl⟩

/-- `UniversalKriging3D` (specified drift: backend 'vectorized', see C24).  `F` and `f` are the drift terms at the data and at
the query point. -/
theorem C47_unique_uk3d {n : ℕ} {env : Env} {x y z v : Fin n → ℝ} {args : UK3DArgs} {s : UK3D n}
    (h : UK3D.create env x y z v args = .ok s) {ea : UK3DExecArgs} (hp : args.pseudoInv = false)
    (hs : "specified" ∈ args.driftTerms → ea.toExec.backend = "vectorized")
    {γ : ℝ → ℝ} (hγ : s.variogramFunction s.params = .ok γ)
    {exact : Bool} (hex : args.exactValues = .bool exact) {r : ExecResult} (hr : s.execute ea = .ok r)
    {j : ℕ} {p : ℝ × ℝ × ℝ} (hq : queryAt3 ea.toExec j = some p) (hm : maskedAt3 ea.toExec j = false) :
    ∃ L, ∃ F : Fin L → Fin n → ℝ, ∃ f : Fin L → ℝ,
      (∀ i, List.ofFn (fun l => F l i) =
        driftTerms3 args s.adjustPoint (specAtDatum args.specifiedDrift i) (x i, y i, z i)) ∧
      List.ofFn f = driftTerms3 args s.adjustPoint (specAtQuery3 ea j) p ∧
      Regular (semivar γ fun i k => uk3Distance args (x i, y i, z i) (x k, y k, z k)) F ∧
      (∃ w ν μ, KrigingEqs (semivar γ fun i k => uk3Distance args (x i, y i, z i) (x k, y k, z k)) F
          (semivarTo exact γ fun i => uk3Distance args p (x i, y i, z i)) f 1 w ν μ) ∧
      ∀ w ν μ, KrigingEqs (semivar γ fun i k => uk3Distance args (x i, y i, z i) (x k, y k, z k)) F
          (semivarTo exact γ fun i => uk3Distance args p (x i, y i, z i)) f 1 w ν μ →
        r.z[j]? = some (some (estimate w v)) ∧
        r.ss[j]? = some (some (krigingVariance (semivarTo exact γ fun i => uk3Distance args p (x i, y i, z i)) f w ν μ)) := by
  obtain ⟨-, he, hpi, -, -, -, -, hZ⟩ := UK3D.create_fields h
  obtain ⟨hD, hQ⟩ := UK3D.create_dist h
  rw [he] at hex
  cases hex
  obtain ⟨row, hF, hz, hss⟩ :=
    (UK3D.create_weighs h ea).at_point (z := s.VALUES) (lags := s.lags) (stats := s.stats) hr hq hm
  obtain ⟨γ', L, F, f, hγ', hk, h1, h2⟩ := hF.args h hq hs
  rw [hγ] at hγ'
  cases hγ'
  rw [hpi.trans hp] at hk
  obtain ⟨h3, h5, h4⟩ := hk.unique
  simp only [id, hD, hQ] at h3 h4 h5
  refine ⟨L, F, f, h1, h2, h3, h5, fun w ν μ hw => ?_⟩
  obtain ⟨e1, e2⟩ := h4 w ν μ hw
  rw [hz, hss, hZ, e1, scatter_id, e2]
  exact ⟨rfl, rfl⟩

end
end PyKrige
