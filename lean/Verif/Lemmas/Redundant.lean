import Verif.Lemmas.Perm
import Verif.Lemmas.Krige

/-! Data at the same location: equal weights, and merging them into their mean. -/

set_option linter.unusedSectionVars false

namespace PyKrige
noncomputable section
open Matrix Spec

section
variable {ι ι' κ : Type} [Fintype ι] [Fintype ι'] [Fintype κ] [DecidableEq ι] [DecidableEq ι'] [DecidableEq κ]

/-- A relabelling that changes nothing does not change the weights. -/
theorem kWeights_invariant (pseudo : Bool) (e : ι ≃ ι) {G : ι → ι → ℝ} {F : κ → ι → ℝ} {g : ι → ℝ} (f : κ → ℝ)
    (hG : ∀ i j, G (e i) (e j) = G i j) (hF : ∀ l i, F l (e i) = F l i) (hg : ∀ i, g (e i) = g i) (i : ι) :
    kWeights pseudo G F g f (e i) = kWeights pseudo G F g f i := by
  have hx : krigInv pseudo (krigMat (fun i j => G (e i) (e j)) (fun l i => F l (e i))) *ᵥ
      krigRhs (fun i => g (e i)) f 1 =
      (krigInv pseudo (krigMat G F) *ᵥ krigRhs g f 1) ∘ Equiv.sumCongr e (Equiv.refl (κ ⊕ Unit)) := by
    rw [krigMat_reindex, krigRhs_reindex, krigInv_submatrix, Matrix.submatrix_mulVec_equiv,
      Function.comp_assoc, Equiv.self_comp_symm, Function.comp_id]
  have e1 : (fun i j => G (e i) (e j)) = G := by funext i j; exact hG i j
  have e2 : (fun l i => F l (e i)) = F := by funext l i; exact hF l i
  have e3 : (fun i => g (e i)) = g := funext hg
  rw [e1, e2, e3] at hx
  have := congrFun hx (.inl i)
  unfold kWeights wOf
  rw [this]
  rfl

/-- Data that cannot be told apart by their locations get the same weight. -/
theorem kWeights_same {α : Type} (loc : ι → α) (pseudo exact : Bool) {γ : ℝ → ℝ} {D : ι → ι → ℝ} {F : κ → ι → ℝ}
    {d : ι → ℝ} (f : κ → ℝ) (dist : α → α → ℝ) (hD : ∀ i j, D i j = dist (loc i) (loc j))
    (dto : α → ℝ) (hd : ∀ i, d i = dto (loc i)) (hF : ∀ l i j, loc i = loc j → F l i = F l j) {i j : ι}
    (h : loc i = loc j) :
    kWeights pseudo (semivar γ D) F (semivarTo exact γ d) f i = kWeights pseudo (semivar γ D) F (semivarTo exact γ d) f j := by
  have hl : ∀ k, loc (Equiv.swap i j k) = loc k := by
    intro k
    by_cases h1 : k = i
    · rw [h1, Equiv.swap_apply_left, h]
    · by_cases h2 : k = j
      · rw [h2, Equiv.swap_apply_right, h]
      · rw [Equiv.swap_apply_of_ne_of_ne h1 h2]
  have := kWeights_invariant pseudo (Equiv.swap i j) (G := semivar γ D) (F := F) (g := semivarTo exact γ d) f
    (fun a b => by
      unfold semivar
      simp only [(Equiv.swap i j).injective.eq_iff, hD, hl])
    (fun l a => hF l _ _ (hl a)) (fun a => by unfold semivarTo; simp only [hd, hl]) j
  rwa [Equiv.swap_apply_right] at this

/-- Mean of the values at the data that share the location of datum `i`. -/
def Spec.meanAt {α : Type} [DecidableEq α] (loc : ι → α) (z : ι → ℝ) (p : α) : ℝ :=
  (∑ j with loc j = p, z j) / (Finset.univ.filter fun j => loc j = p).card

theorem estimate_meanAt {α : Type} [DecidableEq α] {loc : ι → α} {w : ι → ℝ} (hw : ∀ i j, loc i = loc j → w i = w j)
    (z : ι → ℝ) : estimate w z = estimate w fun i => meanAt loc z (loc i) := by
  unfold estimate
  have key : ∀ i, w i * meanAt loc z (loc i) = ∑ j, if loc j = loc i then
      w j * z j / (Finset.univ.filter fun k => loc k = loc j).card else 0 := by
    intro i
    unfold meanAt
    rw [Finset.sum_div, Finset.mul_sum, ← Finset.sum_filter]
    refine Finset.sum_congr rfl fun j hj => ?_
    have h : loc j = loc i := (Finset.mem_filter.1 hj).2
    rw [hw i j h.symm, h]
    ring
  rw [Finset.sum_congr rfl fun i _ => key i, Finset.sum_comm]
  refine Finset.sum_congr rfl fun j _ => ?_
  have hc : (Finset.univ.filter fun k => loc j = loc k).card ≠ 0 :=
    Finset.card_ne_zero.2 ⟨j, by simp⟩
  rw [← Finset.sum_filter, Finset.sum_const, nsmul_eq_mul]
  have e : (Finset.univ.filter fun k => loc k = loc j) = Finset.univ.filter fun k => loc j = loc k := by
    ext k; simp [eq_comm]
  rw [e]
  field_simp

/-! ### Merging -/

section merge
variable (c : ι → ι') (hc : Function.Surjective c)

/-- How many data are merged into `k`. -/
def mult (c : ι → ι') (k : ι') : ℕ := (Finset.univ.filter fun i => c i = k).card

include hc in
theorem mult_pos (k : ι') : (mult c k : ℝ) ≠ 0 := by
  obtain ⟨i, hi⟩ := hc k
  have : mult c k ≠ 0 := Finset.card_ne_zero.2 ⟨i, by simp [hi]⟩
  exact_mod_cast this

include hc in
theorem sum_merge (h : ι' → ℝ) : ∑ i, h (c i) / mult c (c i) = ∑ k, h k := by
  rw [← Finset.sum_fiberwise (s := Finset.univ) (g := c)]
  refine Finset.sum_congr rfl fun k _ => ?_
  have : ∀ i ∈ Finset.univ.filter (fun i => c i = k), h (c i) / mult c (c i) = h k / mult c k := by
    intro i hi
    rw [(Finset.mem_filter.1 hi).2]
  rw [Finset.sum_congr rfl this, Finset.sum_const, nsmul_eq_mul]
  have := mult_pos c hc k
  unfold mult at *
  field_simp

/-- Weights spread evenly. -/
def spread (X : ι' ⊕ κ ⊕ Unit → ℝ) : ι ⊕ κ ⊕ Unit → ℝ :=
  packX (fun i => wOf X (c i) / mult c (c i)) (nuOf X) (muOf X)

include hc in
theorem krigMat_spread {G : ι → ι → ℝ} {G' : ι' → ι' → ℝ} {F : κ → ι → ℝ} {F' : κ → ι' → ℝ}
    (hG : ∀ i j, G i j = G' (c i) (c j)) (hF : ∀ l i, F l i = F' l (c i)) {g : ι' → ℝ} {f : κ → ℝ} {b : ℝ}
    {X : ι' ⊕ κ ⊕ Unit → ℝ} (h : krigMat G' F' *ᵥ X = krigRhs g f b) :
    krigMat G F *ᵥ spread c X = krigRhs (fun i => g (c i)) f b := by
  rw [krigMat_mulVec_iff] at h ⊢
  refine ⟨fun i => ?_, fun l => ?_, ?_⟩
  · rw [← h.stationary (c i)]
    simp only [spread, wOf_pack, nuOf_pack, muOf_pack, hF, hG]
    rw [← sum_merge c hc fun k => G' (c i) k * wOf X k]
    simp only [mul_div_assoc]
  · rw [← h.drift l]
    simp only [spread, wOf_pack, hF]
    rw [← sum_merge c hc fun k => F' l k * wOf X k]
    simp only [mul_div_assoc]
  · rw [← h.unbiased]
    simp only [spread, wOf_pack]
    rw [← sum_merge c hc fun k => wOf X k]

include hc in
/-- With the pseudo-inverse, redundant data act like one datum with their mean value. -/
theorem krigAnswer_merge {G : ι → ι → ℝ} {G' : ι' → ι' → ℝ} {F : κ → ι → ℝ} {F' : κ → ι' → ℝ}
    (hG : ∀ i j, G i j = G' (c i) (c j)) (hF : ∀ l i, F l i = F' l (c i)) (hs : ∀ i j, G' i j = G' j i)
    (hr : Regular G' F') (pseudo : Bool) (z : ι → ℝ) {g : ι → ℝ} {g' : ι' → ℝ} (hg : ∀ i, g i = g' (c i)) (f : κ → ℝ) :
    krigAnswer true G F z g f =
      krigAnswer pseudo G' F' (fun k => (∑ i with c i = k, z i) / mult c k) g' f := by
  have hM : (krigMat G F)ᵀ = krigMat G F := transpose_krigMat fun i j => by rw [hG, hG, hs]
  set X := (krigMat G' F')⁻¹ *ᵥ krigRhs g' f 1 with hX
  have hX' : krigMat G' F' *ᵥ X = krigRhs g' f 1 := by
    have := inv_solves ((regular_iff_det G' F').1 hr) g' f 1
    exact (krigMat_mulVec_iff _ _ _ _ _ _).2 this
  have hgg : g = fun i => g' (c i) := funext hg
  have h1 : krigMat G F *ᵥ spread c X = krigRhs g f 1 := by
    rw [hgg]
    exact krigMat_spread c hc hG hF hX'
  -- the spread solution is in the range of the matrix
  have h2 : ∃ y, krigMat G F *ᵥ y = spread c X := by
    have hy := inv_solves ((regular_iff_det G' F').1 hr) (fun k => -(wOf X k / mult c k)) (nuOf X) (muOf X)
    have hy' := (krigMat_mulVec_iff _ _ _ _ _ _).2 hy
    refine ⟨_, (krigMat_spread c hc hG hF hy').trans ?_⟩
    funext k
    rcases k with i | l | ⟨⟩ <;> simp [krigRhs, spread, packX]
  obtain ⟨y, hy⟩ := h2
  have h3 : scipyPinv (krigMat G F) *ᵥ krigRhs g f 1 = spread c X := by
    have hp := scipyPinv_isPinv (krigMat G F)
    have hsy : scipyPinv (krigMat G F) * krigMat G F = krigMat G F * scipyPinv (krigMat G F) := by
      have := hp.pa_symm
      rw [Matrix.transpose_mul, hM, scipyPinv_symm hM] at this
      exact this.symm
    rw [← h1, Matrix.mulVec_mulVec, hsy, ← hy, Matrix.mulVec_mulVec, hp.apa]
  have h4 : krigInv true (krigMat G F) = scipyPinv (krigMat G F) := if_pos rfl
  unfold krigAnswer
  rw [h4, h3, krigInv_of_regular hr, ← hX]
  unfold answerOf
  refine Prod.ext ?_ ?_
  · simp only [spread, wOf_pack, estimate]
    rw [← Finset.sum_fiberwise (s := Finset.univ) (g := c)]
    refine Finset.sum_congr rfl fun k _ => ?_
    rw [Finset.sum_div, Finset.mul_sum]
    refine Finset.sum_congr rfl fun i hi => ?_
    rw [(Finset.mem_filter.1 hi).2]
    ring
  · simp only [spread, wOf_pack, nuOf_pack, muOf_pack, krigingVariance, hg]
    rw [← sum_merge c hc fun k => wOf X k * g' k]
    congr 2
    exact Finset.sum_congr rfl fun i _ => by ring

end merge
end

/-! ### Results -/

section weighs
variable {α β : Type} {n : ℕ} {run : (Fin n → ℝ) → List (ℝ × ℝ) → Option Stats → ExecResult → Prop}
  {shape : List ℕ} {query : ℕ → Option α} {masked : ℕ → Bool} {Fact : ℕ → α → WRow n → Prop}

theorem Weighs.means [DecidableEq β] (h : Weighs run shape query masked Fact) (loc : Fin n → β)
    (h1 : ∀ j p row, Fact j p row → ∀ a b, loc a = loc b → row.w a = row.w b) {z lags stats r}
    (hr : run z lags stats r) (z' : Fin n → ℝ) (hz : ∀ i, meanAt loc z' (loc i) = meanAt loc z (loc i))
    (lags' stats') : run z' lags' stats' r := by
  obtain ⟨R, hR, rfl, hr'⟩ := h.run_other hr z' lags' stats'
  convert hr' using 1
  unfold applyRows
  congr 1
  refine List.map_congr_left fun o ho => ?_
  cases o with
  | none => rfl
  | some row =>
    obtain ⟨j, hj⟩ := List.getElem?_of_mem ho
    obtain ⟨-, p, -, hF⟩ := hR.visible j row hj
    have := h1 j p row hF
    simp only [Option.map_some, WRow.apply, Option.some.injEq]
    rw [estimate_meanAt this z, estimate_meanAt this z']
    simp only [hz]

end weighs

end
end PyKrige
