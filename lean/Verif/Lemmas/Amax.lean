import Verif.Model.Core
import Verif.Lemmas.Py

/-! `np.amax` and `np.amin`. -/

namespace PyKrige
noncomputable section

theorem amax_spec {l : List ℝ} {a : ℝ} (ha : a ∈ l) : ∃ m, amax l = .ok m ∧ IsGreatest {v | v ∈ l} m := by
  cases l with
  | nil => cases ha
  | cons b t =>
    refine ⟨_, rfl, ?_⟩
    have : ∀ (t : List ℝ) (b : ℝ), IsGreatest {v | v ∈ b :: t} (t.foldl max b) := by
      intro t
      induction t with
      | nil => intro b; simp
      | cons c t ih =>
        intro b
        obtain ⟨h1, h2⟩ := ih (max b c)
        rw [List.foldl_cons]
        constructor
        · rcases List.mem_cons.1 h1 with h | h
          · rcases max_cases b c with ⟨h', -⟩ | ⟨h', -⟩
            · rw [h, h']; simp
            · rw [h, h']; simp
          · exact List.mem_cons_of_mem _ (List.mem_cons_of_mem _ h)
        · intro v hv
          have hbc : max b c ≤ _ := h2 (List.mem_cons_self : max b c ∈ _)
          rcases List.mem_cons.1 hv with rfl | hv
          · exact (le_max_left _ _).trans hbc
          rcases List.mem_cons.1 hv with rfl | hv
          · exact (le_max_right _ _).trans hbc
          · exact h2 (List.mem_cons_of_mem _ hv)
    exact this t b

theorem amin_spec {l : List ℝ} {a : ℝ} (ha : a ∈ l) : ∃ m, amin l = .ok m ∧ IsLeast {v | v ∈ l} m := by
  cases l with
  | nil => cases ha
  | cons b t =>
    refine ⟨_, rfl, ?_⟩
    have : ∀ (t : List ℝ) (b : ℝ), IsLeast {v | v ∈ b :: t} (t.foldl min b) := by
      intro t
      induction t with
      | nil => intro b; simp
      | cons c t ih =>
        intro b
        obtain ⟨h1, h2⟩ := ih (min b c)
        rw [List.foldl_cons]
        constructor
        · rcases List.mem_cons.1 h1 with h | h
          · rcases min_cases b c with ⟨h', -⟩ | ⟨h', -⟩
            · rw [h, h']; simp
            · rw [h, h']; simp
          · exact List.mem_cons_of_mem _ (List.mem_cons_of_mem _ h)
        · intro v hv
          have hbc : _ ≤ min b c := h2 (List.mem_cons_self : min b c ∈ _)
          rcases List.mem_cons.1 hv with rfl | hv
          · exact hbc.trans (min_le_left _ _)
          rcases List.mem_cons.1 hv with rfl | hv
          · exact hbc.trans (min_le_right _ _)
          · exact h2 (List.mem_cons_of_mem _ hv)
    exact this t b

end
end PyKrige
