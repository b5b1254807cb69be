import Verif.Lemmas.PWCreate
import Verif.Lemmas.Nearest
import Mathlib.Data.List.NodupEquivFin

/-! Relabelling the data changes nothing. -/

set_option linter.unusedSectionVars false

namespace PyKrige
noncomputable section
open Matrix Spec

section
variable {ι ι' κ : Type} [Fintype ι] [Fintype ι'] [Fintype κ] [DecidableEq ι] [DecidableEq ι'] [DecidableEq κ]

theorem krigMat_reindex (e : ι ≃ ι') (G : ι' → ι' → ℝ) (F : κ → ι' → ℝ) :
    krigMat (fun i j => G (e i) (e j)) (fun l i => F l (e i)) =
      (krigMat G F).submatrix (Equiv.sumCongr e (Equiv.refl (κ ⊕ Unit))) (Equiv.sumCongr e (Equiv.refl (κ ⊕ Unit))) := by
  funext r c
  rcases r with i | l | ⟨⟩ <;> rcases c with j | m | ⟨⟩ <;> simp [krigMat]

theorem krigRhs_reindex (e : ι ≃ ι') (g : ι' → ℝ) (f : κ → ℝ) (c : ℝ) :
    krigRhs (fun i => g (e i)) f c = krigRhs g f c ∘ Equiv.sumCongr e (Equiv.refl (κ ⊕ Unit)) := by
  funext r
  rcases r with i | l | ⟨⟩ <;> simp [krigRhs]

theorem krigAnswer_reindex (pseudo : Bool) (e : ι ≃ ι') (G : ι' → ι' → ℝ) (F : κ → ι' → ℝ) (z g : ι' → ℝ)
    (f : κ → ℝ) : krigAnswer pseudo (fun i j => G (e i) (e j)) (fun l i => F l (e i)) (fun i => z (e i))
      (fun i => g (e i)) f = krigAnswer pseudo G F z g f := by
  have hx : krigInv pseudo (krigMat (fun i j => G (e i) (e j)) (fun l i => F l (e i))) *ᵥ
      krigRhs (fun i => g (e i)) f 1 =
      (krigInv pseudo (krigMat G F) *ᵥ krigRhs g f 1) ∘ Equiv.sumCongr e (Equiv.refl (κ ⊕ Unit)) := by
    rw [krigMat_reindex, krigRhs_reindex, krigInv_submatrix, Matrix.submatrix_mulVec_equiv,
      Function.comp_assoc, Equiv.self_comp_symm, Function.comp_id]
  unfold krigAnswer
  rw [hx]
  unfold answerOf
  refine Prod.ext ?_ ?_
  · exact Equiv.sum_comp e fun i => (krigInv pseudo (krigMat G F) *ᵥ krigRhs g f 1) (.inl i) * z i
  · unfold krigingVariance
    have := Equiv.sum_comp e fun i => (krigInv pseudo (krigMat G F) *ᵥ krigRhs g f 1) (.inl i) * g i
    exact congrArg (fun t => t - _ - _) this

theorem krigingEqs_reindex (e : ι ≃ ι') {G : ι' → ι' → ℝ} {F : κ → ι' → ℝ} {g : ι' → ℝ} {f : κ → ℝ} {c : ℝ}
    {w : ι' → ℝ} {ν : κ → ℝ} {μ : ℝ} (h : KrigingEqs G F g f c w ν μ) :
    KrigingEqs (fun i j => G (e i) (e j)) (fun l i => F l (e i)) (fun i => g (e i)) f c (fun i => w (e i)) ν μ := by
  refine ⟨fun i => ?_, fun l => ?_, ?_⟩
  · rw [← h.stationary (e i), Equiv.sum_comp e fun j => G (e i) j * w j]
  · rw [← h.drift l]; exact Equiv.sum_comp e fun i => F l i * w i
  · rw [← h.unbiased]; exact Equiv.sum_comp e w

theorem regular_reindex (e : ι ≃ ι') (G : ι' → ι' → ℝ) (F : κ → ι' → ℝ) :
    Regular (fun i j => G (e i) (e j)) (fun l i => F l (e i)) ↔ Regular G F := by
  rw [regular_iff_det, regular_iff_det, krigMat_reindex, Matrix.det_submatrix_equiv_self]

theorem semivar_reindex {e : ι → ι'} (he : Function.Injective e) (γ : ℝ → ℝ) (D : ι' → ι' → ℝ) :
    (semivar γ fun i j => D (e i) (e j)) = fun i j => semivar γ D (e i) (e j) := by
  funext i j
  unfold semivar
  simp only [he.eq_iff]

end

/-- Permuting a duplicate-free list. -/
theorem perm_equiv {α : Type} [DecidableEq α] {l l' : List α} (h : l.Perm l') (hn : l.Nodup) :
    ∃ e : Fin l.length ≃ Fin l'.length, ∀ i, l.get i = l'.get (e i) := by
  have hn' := h.nodup_iff.1 hn
  have hm : ∀ a, a ∈ l ↔ a ∈ l' := fun a => h.mem_iff
  refine ⟨(hn.getEquiv l).trans ((Equiv.subtypeEquivRight hm).trans (hn'.getEquiv l').symm), fun i => ?_⟩
  have := (hn'.getEquiv l').apply_symm_apply (Equiv.subtypeEquivRight hm (hn.getEquiv l i))
  have := congrArg Subtype.val this
  simp [List.Nodup.getEquiv]

section
variable {n : ℕ} {sel sel' : List (Fin n)}

theorem selAnswer_perm (h : sel.Perm sel') (hn : sel.Nodup) (exact : Bool) (γ : ℝ → ℝ) (D : Fin n → Fin n → ℝ)
    (Z bd : Fin n → ℝ) : selAnswer sel exact γ D Z bd = selAnswer sel' exact γ D Z bd := by
  obtain ⟨e, he⟩ := perm_equiv h hn
  unfold selAnswer
  rw [← krigAnswer_reindex false e]
  congr 1
  · rw [← semivar_reindex e.injective]; simp only [he]
  · funext l; exact l.elim0
  · funext i; rw [he]
  · funext i; simp only [semivarTo, he]

theorem selRegular_perm (h : sel.Perm sel') (hn : sel.Nodup) (γ : ℝ → ℝ) (D : Fin n → Fin n → ℝ) :
    SelRegular sel γ D ↔ SelRegular sel' γ D := by
  obtain ⟨e, he⟩ := perm_equiv h hn
  unfold SelRegular
  rw [← regular_reindex e]
  have : (semivar γ fun i j : Fin sel.length => D (sel.get i) (sel.get j)) =
      fun i j => semivar γ (fun i j : Fin sel'.length => D (sel'.get i) (sel'.get j)) (e i) (e j) := by
    rw [← semivar_reindex e.injective]; simp only [he]
  rw [this]
  have h0 : (noF : Fin 0 → Fin sel.length → ℝ) = fun l i => noF l (e i) := by funext l; exact l.elim0
  rw [h0]

theorem perm_finRange (hl : sel.length = n) (hn : sel.Nodup) : sel.Perm (List.finRange n) := by
  refine List.perm_of_nodup_nodup_toFinset_eq hn (List.nodup_finRange n) ?_
  have : sel.toFinset.card = n := by rw [List.toFinset_card_of_nodup hn, hl]
  have h2 : sel.toFinset = Finset.univ := Finset.eq_univ_of_card _ (by simpa using this)
  rw [h2]
  ext i; simp

theorem selAnswer_all (hl : sel.length = n) (hn : sel.Nodup) (exact : Bool) (γ : ℝ → ℝ) (D : Fin n → Fin n → ℝ)
    (Z bd : Fin n → ℝ) :
    selAnswer sel exact γ D Z bd = krigAnswer false (semivar γ D) noF Z (semivarTo exact γ bd) 0 := by
  have hinj : Function.Injective sel.get := List.nodup_iff_injective_get.1 hn
  have hb : Function.Bijective sel.get :=
    (Fintype.bijective_iff_injective_and_card _).2 ⟨hinj, by simp [hl]⟩
  let e := Equiv.ofBijective _ hb
  unfold selAnswer
  rw [← krigAnswer_reindex false e]
  congr 1
  · exact semivar_reindex hinj γ D
  · funext l; exact l.elim0

theorem selRegular_all (hl : sel.length = n) (hn : sel.Nodup) (γ : ℝ → ℝ) (D : Fin n → Fin n → ℝ) :
    SelRegular sel γ D ↔ Regular (semivar γ D) (noF : Fin 0 → Fin n → ℝ) := by
  have hinj : Function.Injective sel.get := List.nodup_iff_injective_get.1 hn
  have hb : Function.Bijective sel.get :=
    (Fintype.bijective_iff_injective_and_card _).2 ⟨hinj, by simp [hl]⟩
  let e := Equiv.ofBijective _ hb
  unfold SelRegular
  rw [← regular_reindex e]
  rw [semivar_reindex hinj γ D]
  have h0 : (noF : Fin 0 → Fin sel.length → ℝ) = fun l i => noF l (e i) := by funext l; exact l.elim0
  rw [h0]
  rfl

end

end
end PyKrige
