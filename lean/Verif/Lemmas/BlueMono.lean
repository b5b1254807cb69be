import Verif.Lemmas.BlueRow
import Verif.Lemmas.Shift
import Verif.Lemmas.Affine
import Verif.Lemmas.Amax
import Verif.Lemmas.UKDrift
import Mathlib.Data.List.GetD

/-! Best linear unbiased prediction from more data, or with fewer conditions. -/

set_option linter.unusedSectionVars false

namespace PyKrige
noncomputable section
open Matrix Spec

/-- More data (`e` embeds the data of the first problem into those of the second), or fewer conditions: the smallest
mean squared error does not increase. -/
theorem Spec.IsBlue.mono {n n' : ℕ} {S : Set (Fin n)} {S' : Set (Fin n')} {G : Fin n → Fin n → ℝ} {G' : Fin n' → Fin n' → ℝ}
    {g : Fin n → ℝ} {g' : Fin n' → ℝ} {D : Fin n → List ℝ} {D' : Fin n' → List ℝ} {f f' : List ℝ} {z : Fin n → ℝ}
    {z' : Fin n' → ℝ} {est var est' var' : ℝ} (h : IsBlue S G g D f z est var) (h' : IsBlue S' G' g' D' f' z' est' var')
    {e : Fin n → Fin n'} (hG : ∀ i j, G' (e i) (e j) = G i j) (hg : ∀ i, g' (e i) = g i)
    (hu : ∀ w, Unbiased S D f w → Unbiased S' D' f' (scatter e w)) : var' ≤ var := by
  obtain ⟨w, hw, -, rfl⟩ := h.exists_weights
  refine (h'.best _ (hu w hw)).trans (le_of_eq ?_)
  rw [errorVariance_scatter]
  simp only [hG, hg]

theorem Spec.Unbiased.scatter {n n' : ℕ} {S : Set (Fin n)} {S' : Set (Fin n')} {D : Fin n → List ℝ} {D' : Fin n' → List ℝ}
    {f f' : List ℝ} {w : Fin n → ℝ} (h : Unbiased S D f w) {e : Fin n → Fin n'} (hS : ∀ i ∈ S, e i ∈ S')
    (hd : ∀ l : ℕ, ∑ i, w i * (D' (e i)).getD l 0 = f'.getD l 0) : Unbiased S' D' f' (scatter e w) where
  support k hk := by
    unfold PyKrige.scatter
    refine Finset.sum_eq_zero fun i _ => ?_
    split_ifs with hi
    · exact h.support i fun hc => hk (hi ▸ hS i hc)
    · rfl
  sum_one := by rw [sum_scatter]; exact h.sum_one
  drift l := by rw [sum_scatter_mul e w fun k => (D' k).getD l 0]; exact hd l

/-- A condition that is one of those of `h`, up to a constant (the weights have sum one). -/
theorem Spec.Unbiased.term {n : ℕ} {S : Set (Fin n)} {D : Fin n → List ℝ} {f : List ℝ} {w : Fin n → ℝ} (h : Unbiased S D f w)
    (l : ℕ) (a : Fin n → ℝ) (b c : ℝ) (ha : ∀ i, a i = (D i).getD l 0 + c) (hb : b = f.getD l 0 + c) :
    ∑ i, w i * a i = b := by
  simp only [ha, mul_add, Finset.sum_add_distrib, ← Finset.sum_mul, h.drift, h.sum_one, one_mul, hb]

theorem semivar_embed {n n' : ℕ} {α : Type} (γ : ℝ → ℝ) (d : α → α → ℝ) {x : Fin n → α} {x' : Fin n' → α} {e : Fin n → Fin n'}
    (he : Function.Injective e) (hx : ∀ i, x' (e i) = x i) (i j : Fin n) :
    semivar γ (fun i j => d (x' i) (x' j)) (e i) (e j) = semivar γ (fun i j => d (x i) (x j)) i j := by
  have := congrFun (congrFun (semivar_comp γ (fun i j => d (x' i) (x' j)) he) i) j
  rw [← this]
  simp only [hx]

/-- Of two sets of nearest data, the one with more elements contains the other one. -/
theorem nearest_subset {n : ℕ} {S S' : Finset (Fin n)} {d : Fin n → ℝ} (h : ∀ i ∈ S, ∀ i', i' ∉ S → d i ≤ d i')
    (h' : ∀ i ∈ S', ∀ i', i' ∉ S' → d i ≤ d i') (hc : S.card ≤ S'.card) (hd : ∀ i i', d i = d i' → i = i') : S ⊆ S' := by
  intro i hi
  by_contra hi'
  obtain ⟨a, ha, ha'⟩ : ∃ a ∈ S', a ∉ S := by
    by_contra hcon
    push Not at hcon
    have : S' ⊂ S := ⟨hcon, fun hs => hi' (hs hi)⟩
    have := Finset.card_lt_card this
    omega
  have := hd i a (le_antisymm (h i hi a ha') (h' a ha i hi'))
  exact ha' (this ▸ hi)

/-! ### Drift terms, one by one -/

section
variable {n : ℕ} {w : Fin n → ℝ}

/-- The weights reproduce the terms. -/
def Rep (w : Fin n → ℝ) (D : Fin n → List ℝ) (f : List ℝ) : Prop :=
  ∀ l : ℕ, ∑ i, w i * (D i).getD l 0 = f.getD l 0

theorem rep_append {A B : Fin n → List ℝ} {fa fb : List ℝ} (hl : ∀ i, (A i).length = fa.length) :
    Rep w (fun i => A i ++ B i) (fa ++ fb) ↔ Rep w A fa ∧ Rep w B fb := by
  constructor
  · intro h
    refine ⟨fun l => ?_, fun l => ?_⟩
    · by_cases hl' : l < fa.length
      · have := h l
        rw [List.getD_append _ _ _ _ hl'] at this
        rw [← this]
        exact Finset.sum_congr rfl fun i _ => by rw [List.getD_append _ _ _ _ (by rw [hl]; exact hl')]
      · rw [List.getD_eq_default _ _ (by omega)]
        refine Finset.sum_eq_zero fun i _ => ?_
        rw [List.getD_eq_default _ _ (by rw [hl]; omega), mul_zero]
    · have := h (fa.length + l)
      rw [List.getD_append_right _ _ _ _ (by omega), Nat.add_sub_cancel_left] at this
      rw [← this]
      exact Finset.sum_congr rfl fun i _ => by
        rw [List.getD_append_right _ _ _ _ (by rw [hl]; omega), hl, Nat.add_sub_cancel_left]
  · rintro ⟨h1, h2⟩ l
    by_cases hl' : l < fa.length
    · rw [List.getD_append _ _ _ _ hl', ← h1 l]
      exact Finset.sum_congr rfl fun i _ => by rw [List.getD_append _ _ _ _ (by rw [hl]; exact hl')]
    · rw [List.getD_append_right _ _ _ _ (by omega), ← h2]
      exact Finset.sum_congr rfl fun i _ => by rw [List.getD_append_right _ _ _ _ (by rw [hl]; omega), hl]

theorem rep_nil : Rep w (fun _ => []) [] := fun l => by simp

theorem rep_cons {a : Fin n → ℝ} {B : Fin n → List ℝ} {fa : ℝ} {fb : List ℝ} :
    Rep w (fun i => a i :: B i) (fa :: fb) ↔ ∑ i, w i * a i = fa ∧ Rep w B fb := by
  constructor
  · intro h
    exact ⟨by simpa using h 0, fun l => by simpa using h (l + 1)⟩
  · rintro ⟨h1, h2⟩ l
    cases l with
    | zero => simpa using h1
    | succ l => simpa using h2 l

theorem rep_map {α : Type} (ws : List α) (F : Fin n → α → ℝ) (f : α → ℝ) :
    Rep w (fun i => ws.map (F i)) (ws.map f) ↔ ∀ a ∈ ws, ∑ i, w i * F i a = f a := by
  induction ws with
  | nil => simp only [List.map_nil, List.not_mem_nil, false_implies, implies_true, iff_true]; exact rep_nil
  | cons a ws ih => simp only [List.map_cons, rep_cons, ih, List.mem_cons, forall_eq_or_imp]

theorem rep_ite {c : Prop} [Decidable c] {A : Fin n → List ℝ} {fa : List ℝ} :
    Rep w (fun i => if c then A i else []) (if c then fa else []) ↔ (c → Rep w A fa) := by
  by_cases h : c
  · simp [h]
  · simp [h, rep_nil]

/-- The conditions of the drift terms of `UniversalKriging`. -/
theorem rep_driftTerms2 {args : UKArgs} {adj : ℝ × ℝ → Fin 2 → ℝ} {sv : Fin n → List ℝ} {sq : List ℝ} {P : Fin n → ℝ × ℝ}
    {p : ℝ × ℝ} (hl : "specified" ∈ args.driftTerms → ∀ i, (sv i).length = sq.length) :
    Rep w (fun i => driftTerms2 args adj (sv i) (P i)) (driftTerms2 args adj sq p) ↔
      ("regional_linear" ∈ args.driftTerms → ∑ i, w i * adj (P i) 0 = adj p 0 ∧ ∑ i, w i * adj (P i) 1 = adj p 1) ∧
      ("point_log" ∈ args.driftTerms → ∀ a ∈ args.pointDrift.getD [],
        ∑ i, w i * (-a.2.2 * logDistance (euclid (adj (P i)) (adj (a.1, a.2.1)))) =
          -a.2.2 * logDistance (euclid (adj p) (adj (a.1, a.2.1)))) ∧
      ("external_Z" ∈ args.driftTerms → ∑ i, w i * externalValue args (P i) = externalValue args p) ∧
      ("specified" ∈ args.driftTerms → Rep w sv sq) ∧
      ("functional" ∈ args.driftTerms → ∀ fs, args.functionalDrift = .list fs → ∀ g ∈ fs,
        ∑ i, w i * g (adj (P i) 0) (adj (P i) 1) = g (adj p 0) (adj p 1)) := by
  unfold driftTerms2
  rw [rep_append, rep_append, rep_append, rep_append, rep_ite, rep_ite, rep_ite, rep_ite, rep_ite, rep_cons, rep_cons,
    rep_cons, rep_map]
  · simp only [rep_nil, and_true, and_assoc]
    refine and_congr_right fun _ => and_congr_right fun _ => and_congr_right fun _ => and_congr_right fun _ => ?_
    refine forall_congr' fun _ => ?_
    cases args.functionalDrift with
    | notList => simp [rep_nil]
    | list fs => simp only [rep_map, ListArg.list.injEq, forall_eq']
  · intro i; split <;> rfl
  · intro i; simp only [List.length_append]; congr 1 <;> split <;> simp
  · intro i; simp only [List.length_append]; congr 1 <;> [congr 1; skip] <;> split <;> simp
  · intro i
    by_cases hs : "specified" ∈ args.driftTerms
    · simp only [List.length_append, if_pos hs, hl hs i]
      congr 1; congr 1 <;> [congr 1; skip] <;> split <;> simp
    · simp only [List.length_append, if_neg hs]
      congr 1; congr 1 <;> [congr 1; skip] <;> split <;> simp

/-- The conditions of the drift terms of `UniversalKriging3D`. -/
theorem rep_driftTerms3 {args : UK3DArgs} {adj : ℝ × ℝ × ℝ → Fin 3 → ℝ} {sv : Fin n → List ℝ} {sq : List ℝ}
    {P : Fin n → ℝ × ℝ × ℝ} {p : ℝ × ℝ × ℝ} (hl : "specified" ∈ args.driftTerms → ∀ i, (sv i).length = sq.length) :
    Rep w (fun i => driftTerms3 args adj (sv i) (P i)) (driftTerms3 args adj sq p) ↔
      ("regional_linear" ∈ args.driftTerms → ∑ i, w i * adj (P i) 0 = adj p 0 ∧ ∑ i, w i * adj (P i) 1 = adj p 1 ∧
        ∑ i, w i * adj (P i) 2 = adj p 2) ∧
      ("specified" ∈ args.driftTerms → Rep w sv sq) ∧
      ("functional" ∈ args.driftTerms → ∀ fs, args.functionalDrift = .list fs → ∀ g ∈ fs,
        ∑ i, w i * g (adj (P i) 0) (adj (P i) 1) (adj (P i) 2) = g (adj p 0) (adj p 1) (adj p 2)) := by
  unfold driftTerms3
  rw [rep_append, rep_append, rep_ite, rep_ite, rep_ite, rep_cons, rep_cons, rep_cons]
  · simp only [rep_nil, and_true, and_assoc]
    refine and_congr_right fun _ => and_congr_right fun _ => ?_
    refine forall_congr' fun _ => ?_
    cases args.functionalDrift with
    | notList => simp [rep_nil]
    | list fs => simp only [rep_map, ListArg.list.injEq, forall_eq']
  · intro i; split <;> rfl
  · intro i
    by_cases hs : "specified" ∈ args.driftTerms
    · simp only [List.length_append, if_pos hs, hl hs i]
      congr 1; split <;> simp
    · simp only [List.length_append, if_neg hs]
      congr 1; split <;> simp

end

/-! ### Different centres -/

/-- The values of `x'` lie between values of `x`. -/
def Spec.Within {n n' : ℕ} (x : Fin n → ℝ) (x' : Fin n' → ℝ) : Prop := ∀ i', ∃ a b, x a ≤ x' i' ∧ x' i' ≤ x b

theorem midrange_within {n n' : ℕ} {x : Fin n → ℝ} {x' : Fin n' → ℝ} {e : Fin n → Fin n'} (he : ∀ i, x' (e i) = x i)
    (hw : Within x x') {c c' : ℝ} (h : midrange x = .ok c) (h' : midrange x' = .ok c') : c' = c := by
  unfold midrange at h h'
  obtain ⟨mx, h1, h⟩ := py_bind_eq_ok.1 h
  obtain ⟨mn, h2, h⟩ := py_bind_eq_ok.1 h
  obtain ⟨mx', h1', h'⟩ := py_bind_eq_ok.1 h'
  obtain ⟨mn', h2', h'⟩ := py_bind_eq_ok.1 h'
  simp only [py_pure, Except.ok.injEq] at h h'
  have key : ∀ {l : List ℝ} {v : ℝ}, amax l = .ok v → IsGreatest {v | v ∈ l} v := by
    intro l v hv
    cases l with
    | nil => simp [amax] at hv
    | cons a l =>
      obtain ⟨m, hm, hg⟩ := amax_spec (l := a :: l) (a := a) (by simp)
      rw [hv] at hm
      rw [Except.ok.inj hm]; exact hg
  have key' : ∀ {l : List ℝ} {v : ℝ}, amin l = .ok v → IsLeast {v | v ∈ l} v := by
    intro l v hv
    cases l with
    | nil => simp [amin] at hv
    | cons a l =>
      obtain ⟨m, hm, hg⟩ := amin_spec (l := a :: l) (a := a) (by simp)
      rw [hv] at hm
      rw [Except.ok.inj hm]; exact hg
  have g1 := key h1
  have g2 := key' h2
  have g1' := key h1'
  have g2' := key' h2'
  have mem : ∀ {m : ℕ} (v : Fin m → ℝ) (i : Fin m), v i ∈ List.ofFn v := fun v i => List.mem_ofFn.2 ⟨i, rfl⟩
  have e1 : mx' = mx := by
    apply le_antisymm
    · obtain ⟨k, hk⟩ := List.mem_ofFn.1 g1'.1
      obtain ⟨a, b, -, hb⟩ := hw k
      exact hk ▸ hb.trans (g1.2 (mem x b))
    · obtain ⟨k, hk⟩ := List.mem_ofFn.1 g1.1
      exact hk ▸ he k ▸ g1'.2 (mem x' (e k))
  have e2 : mn' = mn := by
    apply le_antisymm
    · obtain ⟨k, hk⟩ := List.mem_ofFn.1 g2.1
      exact hk ▸ he k ▸ g2'.2 (mem x' (e k))
    · obtain ⟨k, hk⟩ := List.mem_ofFn.1 g2'.1
      obtain ⟨a, b, ha, -⟩ := hw k
      exact hk ▸ (g2.2 (mem x a)).trans ha
  rw [← h, ← h', e1, e2]

theorem UK.create_center {n : ℕ} {env : Env} {x y z : Fin n → ℝ} {args : UKArgs} {s : UK n}
    (h : UK.create env x y z args = .ok s) : midrange x = .ok s.XCENTER ∧ midrange y = .ok s.YCENTER := by
  obtain ⟨hp, exact, name, model, fArg, pArg, sc, an, f, fname, xc, yc, vp, lags, ps, stats, ext, plog, spec,
    func, h1, h2, h3, h4, h5, h6, h7, h8, h9, h10, h11, h12, rfl⟩ := UK.create_ok h
  exact ⟨h4, h5⟩

theorem UK3D.create_center {n : ℕ} {env : Env} {x y z v : Fin n → ℝ} {args : UK3DArgs} {s : UK3D n}
    (h : UK3D.create env x y z v args = .ok s) :
    midrange x = .ok s.XCENTER ∧ midrange y = .ok s.YCENTER ∧ midrange z = .ok s.ZCENTER := by
  obtain ⟨hp, exact, name, model, fArg, pArg, an, f, fname, xc, yc, zc, vp, lags, ps, stats, spec, func,
    h1, h2, h3, h4, h5, h6, h7, h8, h9, h10, h11, rfl⟩ := UK3D.create_ok h
  exact ⟨h4, h5, h6⟩

theorem adjust2_center (c c' p : Fin 2 → ℝ) (sc an : ℝ) :
    adjust2 c' sc an p = adjust2 c sc an p + (anisoMat2 sc an *ᵥ (c - c') + (c' - c)) := by
  rw [adjust2_mat, adjust2_mat]
  have : p - c' = (p - c) + (c - c') := by abel
  rw [this, Matrix.mulVec_add]
  abel

theorem adjust2_isotropic (c p : Fin 2 → ℝ) : adjust2 c 1 0 p = p := by
  unfold adjust2
  funext k
  fin_cases k <;> simp [dotProduct, Fin.sum_univ_two]

theorem adjust3_center (c c' p : Fin 3 → ℝ) (an : Aniso3) :
    adjust3 c' ![an.scalingY, an.scalingZ] ![an.angleX, an.angleY, an.angleZ] p =
      adjust3 c ![an.scalingY, an.scalingZ] ![an.angleX, an.angleY, an.angleZ] p +
        (anisoMat3 an *ᵥ (c - c') + (c' - c)) := by
  rw [adjust3_mat, adjust3_mat]
  have : p - c' = (p - c) + (c - c') := by abel
  rw [this, Matrix.mulVec_add]
  abel

theorem adjust3_isotropic (c p : Fin 3 → ℝ) : adjust3 c ![1, 1] ![0, 0, 0] p = p := by
  unfold adjust3
  funext k
  fin_cases k <;> simp [dotProduct, Fin.sum_univ_three]

theorem euclid_add_right {m : ℕ} (p q k : Fin m → ℝ) : euclid (p + k) (q + k) = euclid p q := by
  unfold euclid
  simp

theorem sum_shift {n : ℕ} {w a : Fin n → ℝ} {b : ℝ} (h1 : ∑ i, w i = 1) (h : ∑ i, w i * a i = b) (c : ℝ) :
    ∑ i, w i * (a i + c) = b + c := by
  simp only [mul_add, Finset.sum_add_distrib, ← Finset.sum_mul, h, h1, one_mul]

end
end PyKrige
