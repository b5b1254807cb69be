import Verif.Props.C38
import Verif.Props.C58

/-!
C59: the score of a classification is the fraction of samples classified rightly.

`ClassificationKriging.score` is the (weighted) fraction of the samples whose label is the number that `predict` returns.
For classes 0, 1, 2, ... it is one on the training data, where kriging honours them. As `predict` returns the position of a
class, not its label, this fails for other labels: for the labels 1, ..., c the same predictions score zero.
-/

namespace PyKrige
open Spec
noncomputable section

section
variable {m : ℕ}

open Classical in
theorem sum_ite_eq' {ω : Fin m → ℝ} {A : Fin m → Prop} [DecidablePred A] :
    ∑ j, ω j * (if A j then (1 : ℝ) else 0) = ∑ j, if A j then ω j else 0 :=
  Finset.sum_congr rfl fun j _ => by split_ifs <;> simp

/-- The metric. -/
theorem accuracyScore_spec {w : Option (List ℝ)} {ω : Fin m → ℝ} {y : Fin m → ℤ} {f : Fin m → ℕ} (hm : 0 < m)
    (hw : Weights m w ω) (hω : ∀ j, 0 < ω j) :
    accuracyScore (List.ofFn y) (List.ofFn f) w = .ok (some (fraction ω fun j => y j = f j)) := by
  have hs : 0 < ∑ j, ω j := Finset.sum_pos (fun j _ => hω j) ⟨⟨0, hm⟩, Finset.mem_univ _⟩
  unfold accuracyScore
  rw [if_neg (by
    rw [List.length_ofFn, List.length_ofFn]
    rintro (h | h)
    · exact h rfl
    · exact weights_length hw h)]
  dsimp only
  rw [zipWith_ofFn']
  have key : ∑ j, ω j * (if y j = (f j : ℤ) then (1 : ℝ) else 0) =
      (fraction ω fun j => y j = f j) * ∑ j, ω j := by
    unfold fraction
    rw [div_mul_cancel₀ _ hs.ne', sum_ite_eq']
    exact Finset.sum_congr rfl fun j _ => by congr
  rcases hw with ⟨rfl, h⟩ | rfl
  · dsimp only
    rw [List.length_ofFn, if_neg hm.ne', List.sum_ofFn]
    have hc : ∑ j, ω j = (m : ℝ) := by rw [Finset.sum_congr rfl fun j _ => h j]; simp
    have : ∑ j, (if y j = (f j : ℤ) then (1 : ℝ) else 0) = (fraction ω fun j => y j = f j) * m := by
      rw [← hc, ← key]
      exact Finset.sum_congr rfl fun j _ => by rw [h j, one_mul]
    rw [this, mul_div_cancel_right₀ _ (by rw [← hc]; exact hs.ne')]
  · dsimp only
    unfold npAverage
    rw [List.sum_ofFn, if_neg hs.ne', zipWith_ofFn', List.sum_ofFn, key, mul_div_cancel_right₀ _ hs.ne']
    rfl

/-- A fraction is between zero and one; it is one if and only if the condition holds of all, zero if and only if of none. -/
theorem fraction_spec {ω : Fin m → ℝ} {A : Fin m → Prop} (hm : 0 < m) (hω : ∀ j, 0 < ω j) :
    0 ≤ fraction ω A ∧ fraction ω A ≤ 1 ∧ (fraction ω A = 1 ↔ ∀ j, A j) ∧ (fraction ω A = 0 ↔ ∀ j, ¬A j) := by
  classical
  have hs : 0 < ∑ j, ω j := Finset.sum_pos (fun j _ => hω j) ⟨⟨0, hm⟩, Finset.mem_univ _⟩
  have hle : ∀ j, (if A j then ω j else 0) ≤ ω j := fun j => by split_ifs; exacts [le_rfl, (hω j).le]
  have hnn : ∀ j, 0 ≤ (if A j then ω j else 0) := fun j => by split_ifs; exacts [(hω j).le, le_rfl]
  have hf : fraction ω A = (∑ j, if A j then ω j else 0) / ∑ j, ω j := by
    unfold fraction; congr 1
  rw [hf]
  refine ⟨div_nonneg (Finset.sum_nonneg fun j _ => hnn j) hs.le, (div_le_one hs).2 (Finset.sum_le_sum fun j _ => hle j), ?_, ?_⟩
  · rw [div_eq_one_iff_eq hs.ne', Finset.sum_eq_sum_iff_of_le fun j _ => hle j]
    refine ⟨fun h j => ?_, fun h j _ => if_pos (h j)⟩
    by_contra hj
    have := h j (Finset.mem_univ j)
    rw [if_neg hj] at this
    exact (hω j).ne this
  · rw [div_eq_zero_iff, or_iff_left hs.ne', Finset.sum_eq_zero_iff_of_nonneg fun j _ => hnn j]
    refine ⟨fun h j hj => ?_, fun h j _ => if_neg (h j)⟩
    have := h j (Finset.mem_univ j)
    rw [if_pos hj] at this
    exact (hω j).ne' this

end

section
variable {P : Type} {C : Classifier P ℤ} {n m : ℕ} {env : Env} {k k' : CK C}

/-- The score: with the predictions `f` of one or more samples, labels `y` and positive weights (or none), it is the
weighted fraction of the samples with `y = f`. -/
theorem C59_score {q : Fin m → P} {u : Points} {bk : Option String} {f : Fin m → ℕ}
    (hf : k.predict env q u bk = .ok (List.ofFn f)) (hm : 0 < m) (y : Fin m → ℤ) {w : Option (List ℝ)} {ω : Fin m → ℝ}
    (hw : Weights m w ω) (hω : ∀ j, 0 < ω j) :
    ∃ r, k.score env q u (List.ofFn y) w bk = .ok (some r) ∧ r = fraction ω (fun j => y j = f j) ∧ 0 ≤ r ∧ r ≤ 1 ∧
      (r = 1 ↔ ∀ j, y j = f j) ∧ (r = 0 ↔ ∀ j, y j ≠ f j) := by
  refine ⟨_, ?_, rfl, fraction_spec hm hω⟩
  unfold CK.score
  rw [hf, py_ok_bind]
  exact accuracyScore_spec hm hw hω

/-- The score raises what the prediction raises. -/
theorem C59_raises {q : Fin m → P} {u : Points} {bk : Option String} {e : PyErr} (h : k.predict env q u bk = .error e)
    (y : List ℤ) (w : Option (List ℝ)) : k.score env q u y w bk = .error e := by
  unfold CK.score
  rw [h]
  rfl

/-- As many labels as predictions are needed. -/
theorem C59_length {q : Fin m → P} {u : Points} {bk : Option String} {f : List ℕ}
    (hf : k.predict env q u bk = .ok f) (y : List ℤ) (hy : y.length ≠ f.length)
    (w : Option (List ℝ)) : k.score env q u y w bk = .error .valueError := by
  unfold CK.score
  rw [hf, py_ok_bind]
  unfold accuracyScore
  rw [if_pos (.inl hy)]

theorem list_of_positions {v : List ℕ} (hl : v.length = m) : ∃ f : Fin m → ℕ, v = List.ofFn f ∧
    ∀ j : Fin m, v[j.val]? = some (f j) := by
  subst hl
  exact ⟨fun j => v[j], by simp, fun j => by simp⟩

/-- The score on the training data, from predictions that find the training class. -/
theorem score_positions {cl : List ℤ} {q : Fin n → P} {u : Points} {bk : Option String} {v : List ℕ}
    (hv : k.predict env q u bk = .ok v) {y : Fin n → ℤ} (hl : v.length = n)
    (hp : ∀ j : Fin n, ∃ t, v[j.val]? = some t ∧ cl[t]? = some (y j)) (hn : 0 < n) {w : Option (List ℝ)} {ω : Fin n → ℝ}
    (hw : Weights n w ω) (hω : ∀ j, 0 < ω j) (hcl : cl.Nodup) :
    k.score env q u (List.ofFn y) w bk =
      .ok (some (fraction ω fun j => ∃ t : ℕ, cl[t]? = some (y j) ∧ y j = t)) := by
  obtain ⟨f, rfl, hf⟩ := list_of_positions hl
  obtain ⟨r, hr, rfl, -⟩ := C59_score hv hn y hw hω
  rw [hr]
  congr 3
  funext j
  obtain ⟨t, h1, h2⟩ := hp j
  rw [hf j] at h1
  obtain rfl := Option.some.inj h1
  refine propext ⟨fun h => ⟨_, h2, h⟩, ?_⟩
  rintro ⟨s, h3, h4⟩
  have : s = f j := (List.getElem?_inj (List.getElem?_eq_some_iff.1 h3).1 hcl).1 (h3.trans h2.symm)
  rw [← this, h4]

/-- On its training data, in the plane, the score is the fraction of samples whose label is its own position in
`classes_`. -/
theorem C59_training_plane {p : Fin n → P} {x : Fin n → Fin 2 → ℝ} {y : Fin n → ℤ} {b : Bool} (hC : RowwiseProba C)
    (hfit : k.fit env p x y b = (.ok (), k')) (hnd : (C.classes k'.state).Nodup)
    (hx : ∀ ks, k'.krige = some ks → ∀ K ∈ ks, ExactPlane env K x) {bk : Option String} {i₀ : Bool} {v : List ℕ}
    (hv : k'.predict env p { n := n, d := 2, val := x, isInt := i₀ } bk = .ok v) (hn : 0 < n)
    {w : Option (List ℝ)} {ω : Fin n → ℝ} (hw : Weights n w ω) (hω : ∀ j, 0 < ω j) :
    k'.score env p { n := n, d := 2, val := x, isInt := i₀ } (List.ofFn y) w bk =
      .ok (some (fraction ω fun j => ∃ t : ℕ, (C.classes k'.state)[t]? = some (y j) ∧ y j = t)) := by
  obtain ⟨hl, hp⟩ := C38_training_plane hC hfit hnd hx hv
  exact score_positions hv hl (fun j => hp j j rfl rfl) hn hw hω hnd

/-- In space. -/
theorem C59_training_space {p : Fin n → P} {x : Fin n → Fin 3 → ℝ} {y : Fin n → ℤ} {b : Bool} (hC : RowwiseProba C)
    (hfit : k.fit env p x y b = (.ok (), k')) (hnd : (C.classes k'.state).Nodup)
    (hx : ∀ ks, k'.krige = some ks → ∀ K ∈ ks, ExactSpace env K x) {bk : Option String} {i₀ : Bool} {v : List ℕ}
    (hv : k'.predict env p { n := n, d := 3, val := x, isInt := i₀ } bk = .ok v) (hn : 0 < n)
    {w : Option (List ℝ)} {ω : Fin n → ℝ} (hw : Weights n w ω) (hω : ∀ j, 0 < ω j) :
    k'.score env p { n := n, d := 3, val := x, isInt := i₀ } (List.ofFn y) w bk =
      .ok (some (fraction ω fun j => ∃ t : ℕ, (C.classes k'.state)[t]? = some (y j) ∧ y j = t)) := by
  obtain ⟨hl, hp⟩ := C38_training_space hC hfit hnd hx hv
  exact score_positions hv hl (fun j => hp j j rfl rfl) hn hw hω hnd

/-- For the classes 0, 1, 2, ... it is one. Missing for the full claim: other labels, for which it is false
(`C59_label_zero`). -/
theorem C59_training_partial {p : Fin n → P} {x : Fin n → Fin 2 → ℝ} {y : Fin n → ℤ} {b : Bool} (hC : RowwiseProba C)
    (hfit : k.fit env p x y b = (.ok (), k')) {c : ℕ} (hcl : C.classes k'.state = (List.range c).map fun (t : ℕ) => (t : ℤ))
    (hx : ∀ ks, k'.krige = some ks → ∀ K ∈ ks, ExactPlane env K x) {bk : Option String} {i₀ : Bool} {v : List ℕ}
    (hv : k'.predict env p { n := n, d := 2, val := x, isInt := i₀ } bk = .ok v) (hn : 0 < n)
    {w : Option (List ℝ)} {ω : Fin n → ℝ} (hw : Weights n w ω) (hω : ∀ j, 0 < ω j) :
    k'.score env p { n := n, d := 2, val := x, isInt := i₀ } (List.ofFn y) w bk = .ok (some 1) := by
  have hnd : (C.classes k'.state).Nodup := by
    rw [hcl]; exact List.nodup_range.map fun a b h => by simpa using h
  rw [C59_training_plane hC hfit hnd hx hv hn hw hω]
  obtain ⟨-, hp⟩ := C38_training_plane hC hfit hnd hx hv
  rw [((fraction_spec hn hω).2.2.1).2 fun j => ?_]
  obtain ⟨t, -, h2⟩ := hp j j rfl rfl
  refine ⟨t, h2, ?_⟩
  rw [hcl, List.getElem?_map, Option.map_eq_some_iff] at h2
  obtain ⟨s, h3, h4⟩ := h2
  rw [List.getElem?_range (by simpa using (List.getElem?_eq_some_iff.1 h3).1)] at h3
  rw [← h4, Option.some.inj h3]

/-- For the classes 1, ..., c it is zero, although the prediction at every training point is the position of its class. -/
theorem C59_label_zero {p : Fin n → P} {x : Fin n → Fin 2 → ℝ} {y : Fin n → ℤ} {b : Bool} (hC : RowwiseProba C)
    (hfit : k.fit env p x y b = (.ok (), k')) {c : ℕ} (hcl : C.classes k'.state = (List.range c).map fun (t : ℕ) => (t : ℤ) + 1)
    (hx : ∀ ks, k'.krige = some ks → ∀ K ∈ ks, ExactPlane env K x) {bk : Option String} {i₀ : Bool} {v : List ℕ}
    (hv : k'.predict env p { n := n, d := 2, val := x, isInt := i₀ } bk = .ok v) (hn : 0 < n)
    {w : Option (List ℝ)} {ω : Fin n → ℝ} (hw : Weights n w ω) (hω : ∀ j, 0 < ω j) :
    k'.score env p { n := n, d := 2, val := x, isInt := i₀ } (List.ofFn y) w bk = .ok (some 0) := by
  have hnd : (C.classes k'.state).Nodup := by
    rw [hcl]; exact List.nodup_range.map fun a b h => by simpa using h
  rw [C59_training_plane hC hfit hnd hx hv hn hw hω]
  rw [((fraction_spec hn hω).2.2.2).2 fun j => ?_]
  rintro ⟨t, h2, h5⟩
  rw [hcl, List.getElem?_map, Option.map_eq_some_iff] at h2
  obtain ⟨s, h3, h4⟩ := h2
  rw [List.getElem?_range (by simpa using (List.getElem?_eq_some_iff.1 h3).1)] at h3
  rw [h5, Option.some.inj h3] at h4
  omega

end

/-- The claim that a classification scores one on the training data wherever kriging honours them is false: two points
labelled 1 and 2. -/
theorem C59_training_wrong : ∃ (C : Classifier ℝ ℤ) (k k' : CK C) (p : Fin 2 → ℝ) (x : Fin 2 → Fin 2 → ℝ) (y : Fin 2 → ℤ),
    RowwiseProba C ∧ k.fit stdEnv p x y true = (.ok (), k') ∧ (C.classes k'.state).Nodup ∧
    (∀ ks, k'.krige = some ks → ∀ K ∈ ks, ExactPlane stdEnv K x) ∧
    k'.score stdEnv p { n := 2, d := 2, val := x } (List.ofFn y) none none = .ok (some 0) := by
  obtain ⟨k', hf, hx, hrun⟩ := Demo.ck_fits (![1, 2] : Fin 2 → ℤ) ![0, 0]
  obtain ⟨v, hv⟩ := hrun 2 ![0, 0] ![(0, 0), (1, 0)]
  rw [Demo.plane_XY] at hv
  have hnd : ((Demo.coin (![1, 2] : Fin 2 → ℤ)).classes k'.state).Nodup := by
    change [(1 : ℤ), 2].Nodup
    decide
  exact ⟨_, _, k', _, _, _, Demo.coin_rowwise _, hf, hnd, hx,
    C59_label_zero (Demo.coin_rowwise _) hf (c := 2) rfl hx hv (by norm_num) (.inl ⟨rfl, fun _ => rfl⟩) (fun _ => one_pos)⟩

namespace Demo

/-- The labels 0 and 1: the score on the training data is one. -/
example : ∃ k' : CK (coin (![0, 1] : Fin 2 → ℤ)),
    CK.fit stdEnv (⟨(), kargs "ordinary" none, none, none⟩ : CK (coin (![0, 1] : Fin 2 → ℤ))) ![0, 0] XY ![0, 1] true =
      (.ok (), k') ∧
    k'.score stdEnv ![0, 0] ⟨2, 2, XY, false⟩ [0, 1] (some [1, 5]) none = .ok (some 1) := by
  obtain ⟨k', hf, hx, hrun⟩ := ck_fits (![0, 1] : Fin 2 → ℤ) ![0, 0]
  obtain ⟨v, hv⟩ := hrun 2 ![0, 0] ![(0, 0), (1, 0)]
  rw [plane_XY] at hv
  refine ⟨k', hf, ?_⟩
  have := C59_training_partial (coin_rowwise _) hf (c := 2) rfl hx hv (by norm_num) (w := some [1, 5]) (ω := ![1, 5])
    (.inr (by simp [List.ofFn_succ])) (fun j => by fin_cases j <;> simp)
  simpa [List.ofFn_succ] using this

/-- The labels 0 and 2: the second point, predicted as 1, counts as an error. -/
example : ∃ k' : CK (coin (![0, 2] : Fin 2 → ℤ)),
    CK.fit stdEnv (⟨(), kargs "ordinary" none, none, none⟩ : CK (coin (![0, 2] : Fin 2 → ℤ))) ![0, 0] XY ![0, 2] true =
      (.ok (), k') ∧
    k'.score stdEnv ![0, 0] ⟨2, 2, XY, false⟩ [0, 2] none none = .ok (some (1 / 2)) := by
  obtain ⟨k', hf, hx, hrun⟩ := ck_fits (![0, 2] : Fin 2 → ℤ) ![0, 0]
  obtain ⟨v, hv⟩ := hrun 2 ![0, 0] ![(0, 0), (1, 0)]
  rw [plane_XY] at hv
  refine ⟨k', hf, ?_⟩
  have hcl : (coin (![0, 2] : Fin 2 → ℤ)).classes k'.state = [0, 2] := rfl
  have := C59_training_plane (coin_rowwise _) hf (by rw [hcl]; decide) hx hv (by norm_num) (w := none) (ω := fun _ => 1)
    (.inl ⟨rfl, fun _ => rfl⟩) (fun _ => one_pos)
  rw [hcl] at this
  rw [show ([0, 2] : List ℤ) = List.ofFn (![0, 2] : Fin 2 → ℤ) by simp [List.ofFn_succ], this]
  unfold fraction
  rw [Fin.sum_univ_two, Fin.sum_univ_two, if_pos ⟨0, by simp, by simp⟩, if_neg]
  · norm_num
  · rintro ⟨t, h1, h2⟩
    rcases t with _ | _ | t
    · simp at h1
    · simp at h2
    · simp at h1

end Demo

end
end PyKrige
