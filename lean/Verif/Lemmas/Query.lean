import Verif.Lemmas.OK3DExec
import Verif.Spec.Query

/-! Entries of the flattened query lists. -/

namespace PyKrige
noncomputable section
open Spec

theorem flatMap_const_getElem? {α β : Type} (c : ℕ) (f : α → List β) (hf : ∀ a, (f a).length = c) :
    ∀ (l : List α) (j : ℕ), (l.flatMap f)[j]? = l[j / c]?.bind fun a => (f a)[j % c]?
  | [], j => by simp
  | a :: l, j => by
    rw [List.flatMap_cons]
    by_cases hj : j < c
    · rw [List.getElem?_append_left (by rw [hf]; exact hj), Nat.div_eq_of_lt hj, Nat.mod_eq_of_lt hj]
      simp
    · rw [not_lt] at hj
      rw [List.getElem?_append_right (by rw [hf]; exact hj), hf,
        flatMap_const_getElem? c f hf l (j - c)]
      rcases Nat.eq_zero_or_pos c with rfl | hc
      · simp
        cases l <;> simp [List.eq_nil_of_length_eq_zero (hf _)]
      · have h1 : j / c = (j - c) / c + 1 := by
          conv_lhs => rw [← Nat.sub_add_cancel hj]
          rw [Nat.add_div_right _ hc]
        have h2 : j % c = (j - c) % c := by
          conv_lhs => rw [← Nat.sub_add_cancel hj]
          rw [Nat.add_mod_right]
        rw [h1, h2]
        simp

theorem meshgridFlat_getElem? (xs ys : List ℝ) (j : ℕ) :
    (meshgridFlat xs ys)[j]? = (do
      let x ← xs[j % xs.length]?
      let y ← ys[j / xs.length]?
      return (x, y)) := by
  unfold meshgridFlat
  rw [flatMap_const_getElem? xs.length _ (by simp)]
  simp only [List.getElem?_map]
  cases ys[j / xs.length]? <;> cases xs[j % xs.length]? <;> simp

theorem meshgridFlat3_getElem? (xs ys zs : List ℝ) (j : ℕ) :
    (meshgridFlat3 xs ys zs)[j]? = (do
      let x ← xs[j % xs.length]?
      let y ← ys[j / xs.length % ys.length]?
      let z ← zs[j / xs.length / ys.length]?
      return (x, y, z)) := by
  unfold meshgridFlat3
  rw [flatMap_const_getElem? (ys.length * xs.length) _ (by simp [List.length_flatMap])]
  have h1 : j / (ys.length * xs.length) = j / xs.length / ys.length := by
    rw [Nat.div_div_eq_div_mul, Nat.mul_comm]
  have h2 : j % (ys.length * xs.length) / xs.length = j / xs.length % ys.length := by
    rw [Nat.mul_comm, Nat.mod_mul_right_div_self]
  have h3 : j % (ys.length * xs.length) % xs.length = j % xs.length := by
    rw [Nat.mul_comm, Nat.mod_mul_right_mod]
  simp only [flatMap_const_getElem? xs.length _ (fun y => List.length_map _), List.getElem?_map, h1,
    h2, h3]
  cases zs[j / xs.length / ys.length]? <;> cases ys[j / xs.length % ys.length]? <;>
    cases xs[j % xs.length]? <;> simp

theorem zip_getElem?_do {α β : Type} (xs : List α) (ys : List β) (j : ℕ) :
    (xs.zip ys)[j]? = (do
      let x ← xs[j]?
      let y ← ys[j]?
      return (x, y)) := by
  rw [List.zip_eq_zipWith, List.getElem?_zipWith]
  cases xs[j]? <;> cases ys[j]? <;> simp

/-- The flattened query list holds exactly the points `queryAt` says. -/
theorem queryPoints_getElem? {args : ExecArgs} {pts mask} (h : queryPoints args = .ok (pts, mask))
    (j : ℕ) : pts[j]? = queryAt args j := by
  unfold queryPoints at h
  unfold queryAt
  dsimp only at h
  split at h
  · next hst =>
    have hp : args.style ≠ "points" := by
      intro h'; rw [h'] at hst; simp at hst
    rw [if_neg hp, ← meshgridFlat_getElem?]
    split at h
    · split at h
      · simp at h
      · split at h
        · split at h
          · cases h; rfl
          · simp at h
        · cases h; rfl
    · cases h; rfl
  · split at h
    · next hp =>
      rw [if_pos hp]
      split at h
      · simp at h
      · cases h
        exact zip_getElem?_do _ _ _
    · simp at h

theorem queryPoints3_getElem? {args : ExecArgs3} {pts mask} (h : queryPoints3 args = .ok (pts, mask))
    (j : ℕ) : pts[j]? = queryAt3 args j := by
  unfold queryPoints3 at h
  unfold queryAt3
  dsimp only at h
  split at h
  · next hst =>
    have hp : args.style ≠ "points" := by
      intro h'; rw [h'] at hst; simp at hst
    rw [if_neg hp, ← meshgridFlat3_getElem?]
    split at h
    · split at h
      · simp at h
      · simp at h
      · split at h
        · split at h
          · cases h; rfl
          · simp at h
        · cases h; rfl
    · cases h; rfl
  · split at h
    · next hp =>
      rw [if_pos hp]
      split at h
      · simp at h
      · split at h
        · simp at h
        · cases h
          rw [zip_getElem?_do, zip_getElem?_do]
          cases args.xpoints.vals[j]? <;> cases args.ypoints.vals[j]? <;>
            cases args.zpoints.vals[j]? <;> rfl
    · simp at h

theorem range_getElem?_of_lt {n j : ℕ} (h : j < n) : (List.range n)[j]? = some j := by
  simp [h]

theorem Mask2.flatten_getElem? (m : Mask2) {j : ℕ} (h : j < m.rows * m.cols) :
    m.flatten[j]? = some (m.get (j / m.cols) (j % m.cols)) := by
  unfold Mask2.flatten
  have hc : 0 < m.cols := by
    rcases Nat.eq_zero_or_pos m.cols with h0 | h0
    · rw [h0] at h; simp at h
    · exact h0
  rw [flatMap_const_getElem? m.cols _ (by simp)]
  rw [range_getElem?_of_lt ((Nat.div_lt_iff_lt_mul hc).2 h)]
  simp only [Option.bind_some, List.getElem?_map, range_getElem?_of_lt (Nat.mod_lt _ hc),
    Option.map_some]

theorem flatten3_getElem? (d0 d1 d2 : ℕ) (get : ℕ → ℕ → ℕ → Bool) {j : ℕ} (h : j < d0 * d1 * d2) :
    (flatten3 d0 d1 d2 get)[j]? = some (get (j / d2 / d1) (j / d2 % d1) (j % d2)) := by
  unfold flatten3
  have hc : 0 < d2 := by
    rcases Nat.eq_zero_or_pos d2 with h0 | h0
    · rw [h0] at h; simp at h
    · exact h0
  have hc1 : 0 < d1 := by
    rcases Nat.eq_zero_or_pos d1 with h0 | h0
    · rw [h0] at h; simp at h
    · exact h0
  rw [flatMap_const_getElem? (d1 * d2) _ (by simp [List.length_flatMap])]
  rw [range_getElem?_of_lt ((Nat.div_lt_iff_lt_mul (Nat.mul_pos hc1 hc)).2 (by rw [← Nat.mul_assoc]; exact h))]
  have h1 : j / (d1 * d2) = j / d2 / d1 := by
    rw [Nat.div_div_eq_div_mul, Nat.mul_comm]
  have h2 : j % (d1 * d2) / d2 = j / d2 % d1 := by
    rw [Nat.mul_comm, Nat.mod_mul_right_div_self]
  have h3 : j % (d1 * d2) % d2 = j % d2 := by
    rw [Nat.mul_comm, Nat.mod_mul_right_mod]
  rw [Option.bind_some, flatMap_const_getElem? d2 _ (by simp), h2,
    range_getElem?_of_lt (Nat.mod_lt _ hc1)]
  simp only [Option.bind_some, List.getElem?_map, h1, h3, range_getElem?_of_lt (Nat.mod_lt _ hc),
    Option.map_some]

/-- The flattened mask hides exactly the entries `maskedAt` says. -/
theorem queryPoints_maskedAt {args : ExecArgs} {pts mask} (h : queryPoints args = .ok (pts, mask))
    {j : ℕ} (hj : j < pts.length) : mask[j]? = some (maskedAt args j) := by
  by_cases hm : args.style = "masked"
  swap
  · rw [queryPoints_mask h hm]
    unfold maskedAt
    simp [hm, hj]
  · unfold queryPoints at h
    unfold maskedAt
    simp only [hm, List.mem_cons, String.reduceEq, List.not_mem_nil, or_false, or_true, if_true] at h ⊢
    cases hmask : args.mask with
    | none => rw [hmask] at h; simp at h
    | some m =>
      rw [hmask] at h
      dsimp only at h ⊢
      split at h
      · next hne =>
        split at h
        · next h2 =>
          simp only [Except.ok.injEq, Prod.mk.injEq] at h
          obtain ⟨rfl, rfl⟩ := h
          rw [meshgridFlat_length] at hj
          rw [Mask2.flatten_getElem? _ (by simpa [Mask2.T, h2.1, h2.2] using hj), if_neg (by tauto)]
          simp [Mask2.T, h2.1]
        · simp at h
      · next hne =>
        push Not at hne
        simp only [Except.ok.injEq, Prod.mk.injEq] at h
        obtain ⟨rfl, rfl⟩ := h
        rw [meshgridFlat_length] at hj
        rw [Mask2.flatten_getElem? _ (by rw [hne.1, hne.2]; exact hj), if_pos hne, hne.2]

theorem queryPoints3_maskedAt {args : ExecArgs3} {pts mask} (h : queryPoints3 args = .ok (pts, mask))
    {j : ℕ} (hj : j < pts.length) : mask[j]? = some (maskedAt3 args j) := by
  by_cases hm : args.style = "masked"
  swap
  · rw [(queryPoints3_spec h).2 hm]
    unfold maskedAt3
    simp [hm, hj]
  · have hlen := (queryPoints3_spec h).1
    unfold queryPoints3 at h
    unfold maskedAt3
    simp only [hm, List.mem_cons, String.reduceEq, List.not_mem_nil, or_false, or_true, if_true] at h ⊢
    cases hmask : args.mask with
    | none => rw [hmask] at h; simp at h
    | some m =>
      rw [hmask] at h
      cases m with
      | wrongNdim => simp at h
      | arr d0 d1 d2 get =>
      dsimp only at h ⊢
      split at h
      · next hne =>
        split at h
        · next h2 =>
          simp only [Except.ok.injEq, Prod.mk.injEq] at h
          obtain ⟨rfl, rfl⟩ := h
          rw [← hlen] at hj
          rw [flatten3_getElem? _ _ _ _ (by simpa [flatten3, List.length_flatMap, mul_assoc] using hj),
            if_neg (by tauto)]
          rw [h2.1, h2.2.2]
        · simp at h
      · next hne =>
        push Not at hne
        simp only [Except.ok.injEq, Prod.mk.injEq] at h
        obtain ⟨rfl, rfl⟩ := h
        rw [← hlen] at hj
        rw [flatten3_getElem? _ _ _ _ (by simpa [flatten3, List.length_flatMap, mul_assoc] using hj), if_pos hne,
          hne.2.1, hne.2.2]

/-! ### Calls at listed points -/

theorem queryPoints_pointsCall (l : List (ℝ × ℝ)) (b : String) :
    queryPoints (pointsCall l b) = .ok (l, List.replicate l.length false) := by
  have : (l.map Prod.fst).zip (l.map Prod.snd) = l := by
    induction l with
    | nil => rfl
    | cons a l ih => simp [ih]
  simp [queryPoints, pointsCall, this]

theorem queryPoints3_pointsCall3 (l : List (ℝ × ℝ × ℝ)) (b : String) :
    queryPoints3 (pointsCall3 l b) = .ok (l, List.replicate l.length false) := by
  have : (l.map Prod.fst).zip ((l.map fun p => p.2.1).zip (l.map fun p => p.2.2)) = l := by
    induction l with
    | nil => rfl
    | cons a l ih => simp [ih]
  simp [queryPoints3, pointsCall3, this]

theorem queryAt_pointsCall (l : List (ℝ × ℝ)) (b : String) (j : ℕ) : queryAt (pointsCall l b) j = l[j]? := by
  rw [← queryPoints_getElem? (queryPoints_pointsCall l b)]

theorem queryAt3_pointsCall3 (l : List (ℝ × ℝ × ℝ)) (b : String) (j : ℕ) :
    queryAt3 (pointsCall3 l b) j = l[j]? := by
  rw [← queryPoints3_getElem? (queryPoints3_pointsCall3 l b)]

theorem maskedAt_pointsCall (l : List (ℝ × ℝ)) (b : String) (j : ℕ) : maskedAt (pointsCall l b) j = false := by
  simp [maskedAt, pointsCall]

theorem maskedAt3_pointsCall3 (l : List (ℝ × ℝ × ℝ)) (b : String) (j : ℕ) :
    maskedAt3 (pointsCall3 l b) j = false := by
  simp [maskedAt3, pointsCall3]

end
end PyKrige
