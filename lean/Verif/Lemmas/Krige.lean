import Verif.Lemmas.Rows

/-! Consequences of "the row holds kriging weights", and reading results entry by entry. -/

set_option linter.unusedSectionVars false

namespace PyKrige
noncomputable section
open Matrix Spec

variable {ι κ : Type} [Fintype ι] [Fintype κ] [DecidableEq ι] [DecidableEq κ]

theorem kWeights_spec {pseudo : Bool} {G : ι → ι → ℝ} {F : κ → ι → ℝ} {g : ι → ℝ} {f : κ → ℝ}
    (h : Regular G F ∨ (pseudo = true ∧ ∃ w ν μ, KrigingEqs G F g f 1 w ν μ)) :
    ∃ ν μ, KrigingEqs G F g f 1 (kWeights pseudo G F g f) ν μ ∧
      kVar pseudo G F g f = krigingVariance g f (kWeights pseudo G F g f) ν μ := by
  rcases h with h | ⟨rfl, w, ν, μ, h⟩
  · refine ⟨_, _, ?_, rfl⟩
    unfold kWeights
    rw [krigInv_of_regular h]
    exact inv_solves ((regular_iff_det G F).1 h) g f 1
  · refine ⟨_, _, (krigMat_mulVec_iff G F g f 1 (krigInv true (krigMat G F) *ᵥ krigRhs g f 1)).1 ?_, rfl⟩
    exact scipyPinv_solves _ ((krigMat_mulVec_iff G F g f 1 (packX w ν μ)).2 h)

theorem kWeights_eq {pseudo : Bool} {G : ι → ι → ℝ} {F : κ → ι → ℝ} {g : ι → ℝ} {f : κ → ℝ}
    (hr : Regular G F) {w : ι → ℝ} {ν : κ → ℝ} {μ : ℝ} (h : KrigingEqs G F g f 1 w ν μ) :
    kWeights pseudo G F g f = w ∧ kVar pseudo G F g f = krigingVariance g f w ν μ := by
  obtain ⟨ν', μ', h', e⟩ := kWeights_spec (pseudo := pseudo) (Or.inl hr)
  obtain ⟨h1, h2, h3⟩ := h'.unique hr h
  subst h2; subst h3
  exact ⟨h1, by rw [e, h1]⟩

/-- The equations behind a row. -/
structure KrigedEqs {n L m : ℕ} (sel : Fin m → Fin n) (exact : Bool) (γ : ℝ → ℝ)
    (D : Fin n → Fin n → ℝ) (F : Fin L → Fin n → ℝ) (d : Fin n → ℝ) (f : Fin L → ℝ) (row : WRow n)
    (w : Fin m → ℝ) (ν : Fin L → ℝ) (μ : ℝ) : Prop where
  inj : Function.Injective sel
  eqs : KrigingEqs (semivar γ fun i j => D (sel i) (sel j)) (fun l i => F l (sel i))
    (semivarTo exact γ fun i => d (sel i)) f 1 w ν μ
  w_eq : row.w = scatter sel w
  var_eq : row.var = krigingVariance (semivarTo exact γ fun i => d (sel i)) f w ν μ

namespace KrigedBy
variable {n L m : ℕ} {sel : Fin m → Fin n} {pseudo exact : Bool} {γ : ℝ → ℝ} {D : Fin n → Fin n → ℝ}
  {F : Fin L → Fin n → ℝ} {d : Fin n → ℝ} {f : Fin L → ℝ} {row : WRow n}

theorem krigedEqs (h : KrigedBy sel pseudo exact γ D F d f row) (hp : pseudo = false ∨
    Regular (semivar γ fun i j => D (sel i) (sel j)) (fun l i => F l (sel i)) ∨
    ∃ w ν μ, KrigingEqs (semivar γ fun i j => D (sel i) (sel j)) (fun l i => F l (sel i))
      (semivarTo exact γ fun i => d (sel i)) f 1 w ν μ) :
    ∃ w ν μ, KrigedEqs sel exact γ D F d f row w ν μ := by
  have : Regular (semivar γ fun i j => D (sel i) (sel j)) (fun l i => F l (sel i)) ∨
      (pseudo = true ∧ ∃ w ν μ, KrigingEqs (semivar γ fun i j => D (sel i) (sel j)) (fun l i => F l (sel i))
      (semivarTo exact γ fun i => d (sel i)) f 1 w ν μ) := by
    rcases h.solvable with h1 | h1
    · rcases hp with hp | hp | hp
      · rw [hp] at h1; cases h1
      · exact Or.inl hp
      · exact Or.inr ⟨h1, hp⟩
    · exact Or.inl h1
  obtain ⟨ν, μ, h1, h2⟩ := kWeights_spec this
  exact ⟨_, ν, μ, h.inj, h1, h.w_eq, h.var_eq.trans h2⟩

end KrigedBy

namespace KrigedEqs
variable {n L m : ℕ} {sel : Fin m → Fin n} {exact : Bool} {γ : ℝ → ℝ} {D : Fin n → Fin n → ℝ}
  {F : Fin L → Fin n → ℝ} {d : Fin n → ℝ} {f : Fin L → ℝ} {row : WRow n}
  {w : Fin m → ℝ} {ν : Fin L → ℝ} {μ : ℝ}

theorem sum_one (h : KrigedEqs sel exact γ D F d f row w ν μ) : ∑ i, row.w i = 1 := by
  rw [h.w_eq, sum_scatter]; exact h.eqs.unbiased

theorem drift (h : KrigedEqs sel exact γ D F d f row w ν μ) (l : Fin L) :
    ∑ i, row.w i * F l i = f l := by
  rw [h.w_eq, sum_scatter_mul, ← h.eqs.drift l]
  exact Finset.sum_congr rfl fun i _ => mul_comm _ _

end KrigedEqs

/-- Kriging at a datum: the weights are 1 there and 0 elsewhere, the variance is 0. -/
theorem KrigedBy.at_datum {n L m : ℕ} {sel : Fin m → Fin n} {pseudo : Bool} {γ : ℝ → ℝ}
    {D : Fin n → Fin n → ℝ} {F : Fin L → Fin n → ℝ} {d : Fin n → ℝ} {f : Fin L → ℝ} {row : WRow n}
    (h : KrigedBy sel pseudo true γ D F d f row)
    (hp : pseudo = false ∨ Regular (semivar γ fun i j => D (sel i) (sel j)) (fun l i => F l (sel i)))
    {i₀ : Fin n} {j₀ : Fin m} (hsel : sel j₀ = i₀) (hd₀ : d i₀ = 0) (hd : ∀ i, i ≠ i₀ → d i = D i i₀)
    (hfar : ∀ i, i ≠ i₀ → 1 / 10 ^ 10 < D i i₀) (hf : ∀ l, F l i₀ = f l) :
    row.w = Pi.single i₀ 1 ∧ row.var = 0 := by
  classical
  have hr : Regular (semivar γ fun i j => D (sel i) (sel j)) (fun l i => F l (sel i)) := by
    rcases h.solvable with h1 | h1
    · rcases hp with hp | hp
      · rw [hp] at h1; cases h1
      · exact hp
    · exact h1
  have hg : ∀ i, semivarTo true γ (fun i => d (sel i)) i =
      semivar γ (fun i j => D (sel i) (sel j)) i j₀ := by
    intro i
    unfold semivarTo semivar
    by_cases hi : i = j₀
    · subst hi
      simp [hsel, hd₀]
    · have hne : sel i ≠ i₀ := fun e => hi (h.inj (e.trans hsel.symm))
      have := hfar _ hne
      beta_reduce
      rw [if_neg hi, hd _ hne, hsel, if_neg]
      rintro ⟨-, h2⟩
      exact absurd h2 (not_le.2 this)
  have he : KrigingEqs (semivar γ fun i j => D (sel i) (sel j)) (fun l i => F l (sel i))
      (semivarTo true γ fun i => d (sel i)) f 1 (Pi.single j₀ 1) 0 0 := by
    refine ⟨fun i => ?_, fun l => ?_, ?_⟩
    · simp [hg, Pi.single_apply]
    · simp [Pi.single_apply, hsel, hf]
    · simp
  obtain ⟨h1, h2⟩ := kWeights_eq (pseudo := pseudo) hr he
  constructor
  · rw [h.w_eq, h1]
    funext i
    unfold scatter
    simp only [Pi.single_apply]
    by_cases hi : i = i₀
    · subst hi
      rw [if_pos rfl, Finset.sum_eq_single j₀] <;> simp +contextual [hsel]
    · rw [if_neg hi]
      refine Finset.sum_eq_zero fun j _ => ?_
      by_cases hj : j = j₀
      · subst hj
        rw [if_neg (fun e => hi (e.symm.trans hsel))]
      · simp [hj]
  · rw [h.var_eq, h2]
    unfold krigingVariance
    have : semivarTo true γ (fun i => d (sel i)) j₀ = 0 := by rw [hg]; simp [semivar]
    simp [Pi.single_apply, this]

theorem estimate_single {n : ℕ} (i : Fin n) (z : Fin n → ℝ) : estimate (Pi.single i 1) z = z i := by
  simp [estimate, Pi.single_apply]

/-! ### Reading results -/

section weighs
variable {α : Type} {n : ℕ} {run : (Fin n → ℝ) → List (ℝ × ℝ) → Option Stats → ExecResult → Prop}
  {shape : List ℕ} {query : ℕ → Option α} {masked : ℕ → Bool} {Fact : ℕ → α → WRow n → Prop}

theorem applyRows_z (z : Fin n → ℝ) (R : List ℕ × List (Option (WRow n))) (j : ℕ) :
    (applyRows z R).z[j]? = R.2[j]?.map fun o => o.map fun r => estimate r.w z := by
  simp [applyRows, WRow.apply]

theorem applyRows_ss (z : Fin n → ℝ) (R : List ℕ × List (Option (WRow n))) (j : ℕ) :
    (applyRows z R).ss[j]? = R.2[j]?.map fun o => o.map fun r => r.var := by
  simp [applyRows, WRow.apply]

/-- A number in the result array comes from weights. -/
theorem Weighs.entry (h : Weighs run shape query masked Fact) {z lags stats r} (hr : run z lags stats r)
    {j : ℕ} {v : ℝ} (hv : r.z[j]? = some (some v)) :
    ∃ p row, query j = some p ∧ masked j = false ∧ Fact j p row ∧ v = estimate row.w z ∧
      r.ss[j]? = some (some row.var) := by
  obtain ⟨P, -, h2, h3⟩ := h
  obtain ⟨R, hR, rfl⟩ := (h2 z lags stats r).1 hr
  rw [applyRows_z] at hv
  rw [applyRows_ss]
  cases hj : R.2[j]? with
  | none => rw [hj] at hv; simp at hv
  | some o =>
    cases o with
    | none => rw [hj] at hv; simp at hv
    | some row =>
      obtain ⟨h4, p, hp, hF⟩ := (h3 R hR).visible j row hj
      rw [hj] at hv
      exact ⟨p, row, hp, h4, hF, by simpa using hv.symm, rfl⟩

/-- The same for variances. -/
theorem Weighs.entry_ss (h : Weighs run shape query masked Fact) {z lags stats r} (hr : run z lags stats r)
    {j : ℕ} {v : ℝ} (hv : r.ss[j]? = some (some v)) :
    ∃ p row, query j = some p ∧ masked j = false ∧ Fact j p row ∧ v = row.var ∧
      r.z[j]? = some (some (estimate row.w z)) := by
  obtain ⟨P, -, h2, h3⟩ := h
  obtain ⟨R, hR, rfl⟩ := (h2 z lags stats r).1 hr
  rw [applyRows_ss] at hv
  rw [applyRows_z]
  cases hj : R.2[j]? with
  | none => rw [hj] at hv; simp at hv
  | some o =>
    cases o with
    | none => rw [hj] at hv; simp at hv
    | some row =>
      obtain ⟨h4, p, hp, hF⟩ := (h3 R hR).visible j row hj
      rw [hj] at hv
      exact ⟨p, row, hp, h4, hF, by simpa using hv.symm, rfl⟩

/-- Every unmasked query point gets its numbers. -/
theorem Weighs.at_point (h : Weighs run shape query masked Fact) {z lags stats r} (hr : run z lags stats r)
    {j : ℕ} {p : α} (hq : query j = some p) (hm : masked j = false) :
    ∃ row, Fact j p row ∧ r.z[j]? = some (some (estimate row.w z)) ∧
      r.ss[j]? = some (some row.var) := by
  obtain ⟨P, -, h2, h3⟩ := h
  obtain ⟨R, hR, rfl⟩ := (h2 z lags stats r).1 hr
  rw [applyRows_ss, applyRows_z]
  cases hj : R.2[j]? with
  | none => rw [(h3 R hR).none_iff, hq] at hj; cases hj
  | some o =>
    cases o with
    | none =>
      have := ((h3 R hR).hidden_iff j).1 hj
      rw [hm] at this
      exact absurd this.2 (by simp)
    | some row =>
      obtain ⟨-, p', hp, hF⟩ := (h3 R hR).visible j row hj
      rw [hq] at hp
      cases hp
      exact ⟨row, hF, rfl, rfl⟩

/-- Layout of the result. -/
theorem Weighs.layout (h : Weighs run shape query masked Fact) {z lags stats r} (hr : run z lags stats r) :
    r.shape = shape ∧ (∀ j : ℕ, r.z[j]? = none ↔ query j = none) ∧
      (∀ j : ℕ, r.z[j]? = some none ↔ query j ≠ none ∧ masked j = true) ∧
      (∀ j : ℕ, r.ss[j]? = none ↔ query j = none) ∧
      ∀ j : ℕ, r.ss[j]? = some none ↔ query j ≠ none ∧ masked j = true := by
  obtain ⟨P, -, h2, h3⟩ := h
  obtain ⟨R, hR, rfl⟩ := (h2 z lags stats r).1 hr
  refine ⟨(h3 R hR).shape_eq, fun j => ?_, fun j => ?_, fun j => ?_, fun j => ?_⟩
  · rw [applyRows_z, ← (h3 R hR).none_iff]; simp
  · rw [applyRows_z, ← (h3 R hR).hidden_iff]
    cases R.2[j]? <;> simp
  · rw [applyRows_ss, ← (h3 R hR).none_iff]; simp
  · rw [applyRows_ss, ← (h3 R hR).hidden_iff]
    cases R.2[j]? <;> simp

/-- Success does not depend on the data values. -/
theorem Weighs.run_other (h : Weighs run shape query masked Fact) {z lags stats r} (hr : run z lags stats r)
    (z' : Fin n → ℝ) (lags' : List (ℝ × ℝ)) (stats' : Option Stats) :
    ∃ R : List ℕ × List (Option (WRow n)), GoodRows shape query masked Fact R ∧ r = applyRows z R ∧
      run z' lags' stats' (applyRows z' R) := by
  obtain ⟨P, -, h2, h3⟩ := h
  obtain ⟨R, hR, rfl⟩ := (h2 z lags stats r).1 hr
  exact ⟨R, h3 R hR, rfl, (h2 _ _ _ _).2 ⟨R, hR, rfl⟩⟩

end weighs

end
end PyKrige
