import Verif.Lemmas.Perm
import Verif.Lemmas.SameModel

/-! Moving windows given by an injection instead of a list. -/

namespace PyKrige
noncomputable section
open Matrix Spec

/-- The answer of a window, indexed by position. -/
theorem selAnswer_fun {n m : ℕ} {l : List (Fin n)} (hl : l.length = m) (exact : Bool) (γ : ℝ → ℝ)
    (D : Fin n → Fin n → ℝ) (Z bd : Fin n → ℝ) : selAnswer l exact γ D Z bd =
      krigAnswer false (semivar γ fun i j : Fin m => D (l.get (i.cast hl.symm)) (l.get (j.cast hl.symm))) noF
        (fun i => Z (l.get (i.cast hl.symm))) (semivarTo exact γ fun i => bd (l.get (i.cast hl.symm))) 0 := by
  subst hl; rfl

theorem selRegular_fun {n m : ℕ} {l : List (Fin n)} (hl : l.length = m) (γ : ℝ → ℝ)
    (D : Fin n → Fin n → ℝ) : SelRegular l γ D ↔
      Regular (semivar γ fun i j : Fin m => D (l.get (i.cast hl.symm)) (l.get (j.cast hl.symm)))
        (noF : Fin 0 → Fin m → ℝ) := by
  subst hl; rfl

/-- A selection of nearest data is the strictly nearest set, if there is one. -/
theorem nearest_perm {n k : ℕ} {l : List (Fin n)} (hl : l.length = k) (hn : l.Nodup) {d : Fin n → ℝ}
    (hd : ∀ i ∈ l, ∀ j, j ∉ l → d i ≤ d j) {e : Fin k → Fin n} (he : Function.Injective e)
    (hs : ∀ i j, j ∉ Set.range e → d (e i) < d j) : l.Perm (List.ofFn e) := by
  classical
  have hsub : l.toFinset ⊆ Finset.univ.image e := by
    intro a ha
    by_contra hna
    have : ∃ b ∈ Finset.univ.image e, b ∉ l.toFinset := by
      by_contra hc
      push Not at hc
      have hss : Finset.univ.image e ⊂ l.toFinset := ⟨hc, fun h => hna (h ha)⟩
      have := Finset.card_lt_card hss
      rw [Finset.card_image_of_injective _ he, List.toFinset_card_of_nodup hn, hl] at this
      simp at this
    obtain ⟨b, hb, hbl⟩ := this
    obtain ⟨i, -, rfl⟩ := Finset.mem_image.1 hb
    have h1 := hd a (List.mem_toFinset.1 ha) (e i) (fun h => hbl (List.mem_toFinset.2 h))
    have h2 := hs i a (fun ⟨i', h⟩ => hna (h ▸ Finset.mem_image_of_mem _ (Finset.mem_univ i')))
    linarith
  have heq : l.toFinset = Finset.univ.image e := by
    refine Finset.eq_of_subset_of_card_le hsub ?_
    rw [Finset.card_image_of_injective _ he, List.toFinset_card_of_nodup hn, hl]
    simp
  refine List.perm_of_nodup_nodup_toFinset_eq hn (List.nodup_ofFn.2 he) ?_
  rw [heq]
  ext a
  simp [List.mem_ofFn]

theorem selAnswer_ofFn {n k : ℕ} (e : Fin k → Fin n) (exact : Bool) (γ : ℝ → ℝ)
    (D : Fin n → Fin n → ℝ) (Z bd : Fin n → ℝ) : selAnswer (List.ofFn e) exact γ D Z bd =
      krigAnswer false (semivar γ fun i j => D (e i) (e j)) noF (fun i => Z (e i))
        (semivarTo exact γ fun i => bd (e i)) 0 := by
  rw [selAnswer_fun (List.length_ofFn)]
  simp

end
end PyKrige
