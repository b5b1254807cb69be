import Verif.Lemmas.OKExec
import Verif.Model.UK3D

/-! The drift bookkeeping of the universal kriging classes. -/

set_option linter.unusedSectionVars false
set_option linter.unusedSimpArgs false

namespace PyKrige
noncomputable section
open Matrix Spec

theorem pushDrift_snd {n N : ℕ} (st : Matrix (Fin N) (Fin N) ℝ × ℕ) (f : Fin n → ℝ) :
    (pushDrift st f).2 = st.2 + 1 := rfl

theorem foldl_pushDrift_snd {n N : ℕ} (L : List (Fin n → ℝ)) (st : Matrix (Fin N) (Fin N) ℝ × ℕ) :
    (L.foldl pushDrift st).2 = st.2 + L.length := by
  induction L generalizing st with
  | nil => rfl
  | cons f L ih => rw [List.foldl_cons, ih, pushDrift_snd, List.length_cons]; omega

theorem foldl_pushDrift_row {n N : ℕ} (L : List (Fin n → ℝ)) (A : Matrix (Fin N) (Fin N) ℝ) (i0 : ℕ)
    (h0 : n ≤ i0) (r c : Fin N) (hr : r.val < n) :
    (L.foldl pushDrift (A, i0)).1 r c =
      if i0 ≤ c.val ∧ c.val < i0 + L.length then (L.getD (c.val - i0) 0) ⟨r.val, hr⟩
      else A r c := by
  induction L generalizing A i0 with
  | nil => simp [show ∀ a b : ℕ, ¬ (a ≤ b ∧ b < a) from by omega]
  | cons f L ih =>
    rw [List.foldl_cons]
    have e : pushDrift (A, i0) f = ((pushDrift (A, i0) f).1, i0 + 1) := rfl
    rw [e, ih _ _ (by omega)]
    have hr' : r.val ≠ i0 := by omega
    by_cases h1 : c.val = i0
    · have h2 : ¬ (i0 + 1 ≤ c.val ∧ c.val < i0 + 1 + L.length) := by omega
      have h3 : i0 ≤ c.val ∧ c.val < i0 + (f :: L).length := by simp; omega
      rw [if_neg h2, if_pos h3]
      simp [pushDrift, hr', hr, h1]
    · by_cases h2 : i0 + 1 ≤ c.val ∧ c.val < i0 + 1 + L.length
      · have h3 : i0 ≤ c.val ∧ c.val < i0 + (f :: L).length := by simp; omega
        rw [if_pos h2, if_pos h3]
        have : c.val - i0 = (c.val - (i0 + 1)) + 1 := by omega
        rw [this, List.getD_cons_succ]
      · have h3 : ¬ (i0 ≤ c.val ∧ c.val < i0 + (f :: L).length) := by simp; omega
        rw [if_neg h2, if_neg h3]
        simp [pushDrift, hr', h1]

theorem foldl_pushDrift_col {n N : ℕ} (L : List (Fin n → ℝ)) (A : Matrix (Fin N) (Fin N) ℝ) (i0 : ℕ)
    (h0 : n ≤ i0) (r c : Fin N) (hc : c.val < n) :
    (L.foldl pushDrift (A, i0)).1 r c =
      if i0 ≤ r.val ∧ r.val < i0 + L.length then (L.getD (r.val - i0) 0) ⟨c.val, hc⟩
      else A r c := by
  induction L generalizing A i0 with
  | nil => simp [show ∀ a b : ℕ, ¬ (a ≤ b ∧ b < a) from by omega]
  | cons f L ih =>
    rw [List.foldl_cons]
    have e : pushDrift (A, i0) f = ((pushDrift (A, i0) f).1, i0 + 1) := rfl
    rw [e, ih _ _ (by omega)]
    have hc' : c.val ≠ i0 := by omega
    by_cases h1 : r.val = i0
    · have h2 : ¬ (i0 + 1 ≤ r.val ∧ r.val < i0 + 1 + L.length) := by omega
      have h3 : i0 ≤ r.val ∧ r.val < i0 + (f :: L).length := by simp; omega
      rw [if_neg h2, if_pos h3]
      simp [pushDrift, hc', hc, h1]
    · by_cases h2 : i0 + 1 ≤ r.val ∧ r.val < i0 + 1 + L.length
      · have h3 : i0 ≤ r.val ∧ r.val < i0 + (f :: L).length := by simp; omega
        rw [if_pos h2, if_pos h3]
        have : r.val - i0 = (r.val - (i0 + 1)) + 1 := by omega
        rw [this, List.getD_cons_succ]
      · have h3 : ¬ (i0 ≤ r.val ∧ r.val < i0 + (f :: L).length) := by simp; omega
        rw [if_neg h2, if_neg h3]
        simp [pushDrift, hc', h1]

/-- The matrix assembled by `_get_kriging_matrix` from a list of drift columns. -/
def ukMatrix {n : ℕ} (nw : ℕ) (γ : ℝ → ℝ) (d : Fin n → Fin n → ℝ) (L : List (Fin n → ℝ)) :
    Matrix (Fin (nw + 1)) (Fin (nw + 1)) ℝ :=
  setUnbias n nw (L.foldl pushDrift
    (fillDiagonal (setBlock (npZeros (nw + 1)) n fun i j => -γ (d i j)) 0, n)).1

theorem ukMatrix_apply {n : ℕ} (nw : ℕ) (γ : ℝ → ℝ) (d : Fin n → Fin n → ℝ)
    (L : List (Fin n → ℝ)) (r c : Fin (nw + 1)) :
    ukMatrix nw γ d L r c =
      if n ≤ r.val ∧ r.val < nw + 1 ∧ n ≤ c.val ∧ c.val < nw + 1 then 0
      else if r.val < n ∧ c.val = nw then 1
      else if r.val = nw ∧ c.val < n then 1
      else (L.foldl pushDrift
        (fillDiagonal (setBlock (npZeros (nw + 1)) n fun i j => -γ (d i j)) 0, n)).1 r c := rfl

theorem ukMatrix_submatrix {n : ℕ} (nw : ℕ) (γ : ℝ → ℝ) (d : Fin n → Fin n → ℝ)
    (L : List (Fin n → ℝ)) (h : nw + 1 = n + L.length + 1) :
    (ukMatrix nw γ d L).submatrix (idx n L.length (nw + 1) h) (idx n L.length (nw + 1) h) =
      krigMat (semivar γ d) L.get := by
  have hnw : nw = n + L.length := by omega
  funext r c
  rw [Matrix.submatrix_apply, ukMatrix_apply]
  rcases r with i | l | ⟨⟩
  · have hi := i.isLt
    have a3 : ¬ n ≤ i.val := by omega
    rcases c with j | l | ⟨⟩
    · have hj := j.isLt
      have a1 : i.val ≠ nw := by omega
      have a2 : j.val ≠ nw := by omega
      have a4 : ¬ n ≤ j.val := by omega
      rw [foldl_pushDrift_row _ _ _ le_rfl _ _ (by simp)]
      simp only [idx_inl, a1, a2, a3, a4, false_and, and_false, if_false, krigMat]
      by_cases hij : i = j
      · simp [fillDiagonal, semivar, hij]
      · have : i.val ≠ j.val := fun h => hij (Fin.ext h)
        simp [fillDiagonal, setBlock, semivar, hij, this]
    · have hl := l.isLt
      have a1 : i.val ≠ nw := by omega
      have a2 : n + l.val ≠ nw := by omega
      rw [foldl_pushDrift_row _ _ _ le_rfl _ _ (by simp)]
      simp [a1, a2, a3, krigMat]
    · simp [a3, krigMat, hnw]
  · have hl := l.isLt
    rcases c with j | m | ⟨⟩
    · have hj := j.isLt
      have a1 : j.val ≠ nw := by omega
      have a2 : n + l.val ≠ nw := by omega
      have a3 : ¬ n ≤ j.val := by omega
      rw [foldl_pushDrift_col _ _ _ le_rfl _ _ (by simp)]
      simp [a1, a2, a3, krigMat]
    · have hm := m.isLt
      rw [if_pos (by simp; omega)]
      simp [krigMat]
    · rw [if_pos (by simp; omega)]
      simp [krigMat]
  · rcases c with j | m | ⟨⟩
    · have hj := j.isLt
      have a3 : ¬ n ≤ j.val := by omega
      simp [a3, krigMat, hnw]
    · have hm := m.isLt
      rw [if_pos (by simp; omega)]
      simp [krigMat]
    · rw [if_pos (by simp; omega)]
      simp [krigMat]

theorem foldl_pushRhs_snd {N : ℕ} (L : List ℝ) (st : (Fin N → ℝ) × ℕ) :
    (L.foldl pushRhs st).2 = st.2 + L.length := by
  induction L generalizing st with
  | nil => rfl
  | cons f L ih => rw [List.foldl_cons, ih, List.length_cons]; simp [pushRhs]; omega

theorem foldl_pushRhs_fst {N : ℕ} (L : List ℝ) (b : Fin N → ℝ) (i0 : ℕ) (k : Fin N) :
    (L.foldl pushRhs (b, i0)).1 k =
      if i0 ≤ k.val ∧ k.val < i0 + L.length then L.getD (k.val - i0) 0 else b k := by
  induction L generalizing b i0 with
  | nil => simp [show ∀ a b : ℕ, ¬ (a ≤ b ∧ b < a) from by omega]
  | cons v L ih =>
    rw [List.foldl_cons]
    have e : pushRhs (b, i0) v = (setAt b i0 v, i0 + 1) := rfl
    rw [e, ih]
    by_cases h1 : k.val = i0
    · have h2 : ¬ (i0 + 1 ≤ k.val ∧ k.val < i0 + 1 + L.length) := by omega
      have h3 : i0 ≤ k.val ∧ k.val < i0 + (v :: L).length := by simp; omega
      rw [if_neg h2, if_pos h3]
      simp [setAt, h1]
    · by_cases h2 : i0 + 1 ≤ k.val ∧ k.val < i0 + 1 + L.length
      · have h3 : i0 ≤ k.val ∧ k.val < i0 + (v :: L).length := by simp; omega
        rw [if_pos h2, if_pos h3]
        have : k.val - i0 = (k.val - (i0 + 1)) + 1 := by omega
        rw [this, List.getD_cons_succ]
      · have h3 : ¬ (i0 ≤ k.val ∧ k.val < i0 + (v :: L).length) := by simp; omega
        rw [if_neg h2, if_neg h3]
        simp [setAt, h1]

/-- The right-hand side assembled from a list of drift values. -/
def ukRhs (n nw : ℕ) (exact : Bool) (γ : ℝ → ℝ) (zeroValue : Prop)
    [Decidable (zeroValue ∧ exact = true)] (d : Fin n → ℝ) (L : List ℝ) : Fin (nw + 1) → ℝ :=
  let b : Fin (nw + 1) → ℝ := fun _ => 0
  let b := setHead b n fun k => -γ (d k)
  let b := if zeroValue ∧ exact = true then setWhere b n (fun k => |d k| ≤ eps) 0 else b
  setAt (L.foldl pushRhs (b, n)).1 nw 1

theorem ukRhs_comp {n nw M : ℕ} (exact : Bool) (γ : ℝ → ℝ) (zeroValue : Prop)
    [Decidable (zeroValue ∧ exact = true)] (d : Fin n → ℝ) (L : List ℝ)
    (hd : ∀ i, 0 ≤ d i) (hz : (∃ i, |d i| ≤ eps) → zeroValue) (hL : L.length = M)
    (h : nw + 1 = n + M + 1) :
    ukRhs n nw exact γ zeroValue d L ∘ idx n M (nw + 1) h =
      krigRhs (semivarTo exact γ d) (fun l => L.getD l.val 0) 1 := by
  subst hL
  funext k
  rcases k with i | l | ⟨⟩
  · have hi := i.isLt
    have h1 : i.val ≠ nw := by omega
    have h2 : ¬ n ≤ i.val := by omega
    simp only [Function.comp, ukRhs, idx_inl, setAt, h1, if_false, krigRhs, semivarTo,
      foldl_pushRhs_fst, h2, false_and, if_false]
    by_cases he : exact = true ∧ d i ≤ 1 / 10 ^ 10
    · have hw : |d i| ≤ eps := by rw [abs_of_nonneg (hd i), eps_eq]; exact he.2
      have : zeroValue := hz ⟨i, hw⟩
      rw [if_pos ⟨this, he.1⟩, if_pos he]
      simp [setWhere, hw]
    · rw [if_neg he]
      split
      · next h =>
        have hw : ¬ |d i| ≤ eps := by
          rw [abs_of_nonneg (hd i), eps_eq]
          exact fun h' => he ⟨h.2, h'⟩
        simp [setWhere, setHead, hw]
      · simp [setHead]
  · have hl := l.isLt
    have h1 : n + l.val ≠ nw := by omega
    simp only [Function.comp, ukRhs, idx_inr_inl, setAt, h1, if_false, krigRhs, foldl_pushRhs_fst]
    rw [if_pos (by simp)]
    simp
  · have : n + L.length = nw := by omega
    simp [ukRhs, setAt, krigRhs, this]

end
end PyKrige
