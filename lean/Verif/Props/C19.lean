import Verif.Props.C18
import Verif.Spec.Env
import Verif.Examples.Demo

/-!
# C19: the automatic fit
-/

namespace PyKrige
noncomputable section

/-- The parameters an automatic fit may return: `S` is the largest semivariance, `L` the largest lag. -/
def Spec.WithinBounds (model : String) (S L : ℝ) (ps : List ℝ) : Prop :=
  if model = "linear" then
    ∃ slope nugget, ps = [slope, nugget] ∧ 0 ≤ slope ∧ 0 ≤ nugget ∧ nugget ≤ S
  else if model = "power" then
    ∃ scale exponent nugget, ps = [scale, exponent, nugget] ∧ 0 ≤ scale ∧
      0.001 ≤ exponent ∧ exponent ≤ 1.999 ∧ 0 ≤ nugget ∧ nugget ≤ S
  else
    ∃ psill range nugget, ps = [psill, range, nugget] ∧ 0 ≤ psill ∧ psill ≤ 10 * S ∧
      0 ≤ range ∧ range ≤ L ∧ 0 ≤ nugget ∧ nugget ≤ S

/-- When the automatic fit is possible: some semivariance is positive and the lags are not degenerate. -/
def Spec.CanFit (model : String) (weight : Bool) (S l L : ℝ) : Prop :=
  0 < S ∧ 0 < L ∧ (model = "linear" ∨ model = "power" ∨ weight = true → l < L)

open Spec

theorem lsq_two {env : Env} (hl : LsqSpec env) {res : List ℝ → Py (List ℝ)} {a b : Option ℝ} {l1 l2 : ℝ}
    {u1 u2 : WithTop ℝ} (hc : lsqChecks ⟨[a, b], [l1, l2], [u1, u2]⟩ = .ok ()) :
    ∃ p q : ℝ, env.lsq res ⟨[a, b], [l1, l2], [u1, u2]⟩ = [p, q] ∧ l1 ≤ p ∧ (p : WithTop ℝ) ≤ u1 ∧
      l2 ≤ q ∧ (q : WithTop ℝ) ≤ u2 := by
  obtain ⟨h1, h2⟩ := hl res _ hc rfl rfl
  obtain ⟨p, q, hpq⟩ := List.length_eq_two.1 h1
  rw [hpq] at h2 ⊢
  refine ⟨p, q, rfl, ?_⟩
  simpa [and_assoc] using h2

theorem lsq_three {env : Env} (hl : LsqSpec env) {res : List ℝ → Py (List ℝ)} {a b c : Option ℝ} {l1 l2 l3 : ℝ}
    {u1 u2 u3 : WithTop ℝ} (hc : lsqChecks ⟨[a, b, c], [l1, l2, l3], [u1, u2, u3]⟩ = .ok ()) :
    ∃ p q r : ℝ, env.lsq res ⟨[a, b, c], [l1, l2, l3], [u1, u2, u3]⟩ = [p, q, r] ∧ l1 ≤ p ∧ (p : WithTop ℝ) ≤ u1 ∧
      l2 ≤ q ∧ (q : WithTop ℝ) ≤ u2 ∧ l3 ≤ r ∧ (r : WithTop ℝ) ≤ u3 := by
  obtain ⟨h1, h2⟩ := hl res _ hc rfl rfl
  obtain ⟨p, q, r, hpq⟩ := List.length_eq_three.1 h1
  rw [hpq] at h2 ⊢
  refine ⟨p, q, r, rfl, ?_⟩
  simpa [and_assoc] using h2

theorem lsqChecks_error (p : LsqProblem) : lsqChecks p = .ok () ∨ lsqChecks p = .error .valueError := by
  unfold lsqChecks
  split
  · exact .inr rfl
  · split
    · exact .inr rfl
    · exact .inl rfl

theorem lsqChecks_iff (p : LsqProblem) : lsqChecks p = .ok () ↔
    (∀ b ∈ p.lb.zip p.ub, ((b.1 : ℝ) : WithTop ℝ) < b.2) ∧
    (∀ b ∈ p.x0.zip (p.lb.zip p.ub), ∃ v, b.1 = some v ∧ b.2.1 ≤ v ∧ (v : WithTop ℝ) ≤ b.2.2) := by
  unfold lsqChecks
  split
  · next h => exact ⟨fun h => (by cases h), fun h' => absurd h'.1 h⟩
  · next h =>
    split
    · next h2 => exact ⟨fun h => (by cases h), fun h' => absurd h'.2 h2⟩
    · next h2 => exact ⟨fun _ => ⟨not_not.1 h, not_not.1 h2⟩, fun _ => rfl⟩

/-- Extreme values of a non-empty list. -/
theorem extremes {l : List ℝ} (h : l ≠ []) : ∃ a b, amin l = .ok a ∧ amax l = .ok b ∧
    IsLeast {v | v ∈ l} a ∧ IsGreatest {v | v ∈ l} b ∧ a ≤ b := by
  obtain ⟨v, hv⟩ := List.exists_mem_of_ne_nil l h
  obtain ⟨b, hb, hb'⟩ := amax_spec hv
  obtain ⟨a, ha, ha'⟩ := amin_spec hv
  exact ⟨a, b, ha, hb, ha', hb', (ha'.2 hv).trans (hb'.2 hv)⟩

section
variable {env : Env} {lags sv : List ℝ} {s S l L : ℝ} {model : String} {f : VFun} {weight : Bool}

theorem lsqProblem_linear (h1 : amin sv = .ok s) (h2 : amax sv = .ok S) (h3 : amin lags = .ok l)
    (h4 : amax lags = .ok L) : lsqProblem lags sv "linear" = .ok
      { x0 := [if L - l = 0 then none else some ((S - s) / (L - l)), some s], lb := [0, 0], ub := [⊤, (S : WithTop ℝ)] } := by
  unfold lsqProblem
  rw [if_pos rfl, h1, h2, h3, h4]
  rfl

theorem lsqProblem_power (h1 : amin sv = .ok s) (h2 : amax sv = .ok S) (h3 : amin lags = .ok l)
    (h4 : amax lags = .ok L) : lsqProblem lags sv "power" = .ok
      { x0 := [if L - l = 0 then none else some ((S - s) / (L - l)), some 1.1, some s], lb := [0, 0.001, 0]
        ub := [⊤, ((1.999 : ℝ) : WithTop ℝ), (S : WithTop ℝ)] } := by
  unfold lsqProblem
  rw [if_neg (by decide), if_pos rfl, h1, h2, h3, h4]
  rfl

theorem lsqProblem_other (hm : model ≠ "linear") (hm' : model ≠ "power") (h1 : amin sv = .ok s) (h2 : amax sv = .ok S)
    (h4 : amax lags = .ok L) : lsqProblem lags sv model = .ok
      { x0 := [some (S - s), some (0.25 * L), some s], lb := [0, 0, 0]
        ub := [((10 * S : ℝ) : WithTop ℝ), (L : WithTop ℝ), (S : WithTop ℝ)] } := by
  unfold lsqProblem
  rw [if_neg hm, if_neg hm', h1, h2, h4]
  rfl

theorem weightCheck_eq (h3 : amin lags = .ok l) (h4 : amax lags = .ok L) (hlL : l ≤ L) :
    weightCheck lags weight = if weight = true → l < L then .ok () else .error .valueError := by
  unfold weightCheck
  rw [h3, h4]
  simp only [py_ok_bind]
  by_cases hw : weight = true
  · by_cases h : l < L
    · rw [if_neg (fun hc => absurd hc.2 (sub_pos.2 h).ne'), if_pos (fun _ => h)]; rfl
    · rw [if_pos ⟨hw, by linarith⟩, if_neg (fun hc => h (hc hw))]; rfl
  · rw [if_neg (fun hc => hw hc.1), if_pos (fun h => absurd h hw)]; rfl

/-- The automatic fit is handed a feasible problem (start vector inside bounds, every lower bound below its upper
bound) exactly when it can be: then the result is within the bounds; otherwise it is a `ValueError`. -/
theorem fit_cases (h1 : amin sv = .ok s) (h2 : amax sv = .ok S) (h3 : amin lags = .ok l)
    (h4 : amax lags = .ok L) (hs : 0 ≤ s) (hsS : s ≤ S) (hl : 0 ≤ l) (hlL : l ≤ L) :
    (CanFit model weight S l L → ∃ ps, calculateVariogramModel env lags sv model f weight = .ok ps ∧
      (LsqSpec env → WithinBounds model S L ps)) ∧
    (¬ CanFit model weight S l L → calculateVariogramModel env lags sv model f weight = .error .valueError) := by
  have hw := weightCheck_eq (weight := weight) h3 h4 hlL
  have red : ∀ p, lsqProblem lags sv model = .ok p → ((lsqChecks p = .ok () ∧ (weight = true → l < L)) ↔ CanFit model weight S l L) →
      (∀ res, LsqSpec env → lsqChecks p = .ok () → WithinBounds model S L (env.lsq res p)) →
      (CanFit model weight S l L → ∃ ps, calculateVariogramModel env lags sv model f weight = .ok ps ∧
        (LsqSpec env → WithinBounds model S L ps)) ∧
      (¬ CanFit model weight S l L → calculateVariogramModel env lags sv model f weight = .error .valueError) := by
    intro p hp hiff hwb
    unfold calculateVariogramModel
    rw [hp, hw]
    refine ⟨fun h => ?_, fun h => ?_⟩
    · obtain ⟨hc, hw'⟩ := hiff.2 h
      rw [if_pos hw']
      simp only [py_ok_bind, hc]
      exact ⟨_, rfl, fun he => hwb _ he hc⟩
    · simp only [py_ok_bind]
      rcases lsqChecks_error p with hc | hc
      · have : ¬ (weight = true → l < L) := fun hw' => h (hiff.1 ⟨hc, hw'⟩)
        rw [hc, if_neg this]; rfl
      · rw [hc]; rfl
  by_cases hm : model = "linear"
  · subst hm
    refine red _ (lsqProblem_linear h1 h2 h3 h4) ?_ ?_
    · rw [lsqChecks_iff]
      unfold CanFit
      constructor
      · rintro ⟨⟨c1, c2⟩, c3⟩
        have d1 := c1 (0, (S : WithTop ℝ)) (by simp)
        have d2 := c2 (if L - l = 0 then none else some ((S - s) / (L - l)), 0, ⊤) (by simp)
        obtain ⟨v, d2, -⟩ := d2
        have hne : ¬ L - l = 0 := by
          intro hc; simp only [if_pos hc] at d2; cases d2
        have : l < L := lt_of_le_of_ne hlL fun hc => hne (by rw [hc, sub_self])
        exact ⟨WithTop.coe_lt_coe.1 d1, hl.trans_lt this, fun _ => this⟩
      · rintro ⟨hS, hL, hlt⟩
        have hlt := hlt (.inl rfl)
        have hne : ¬ L - l = 0 := (sub_pos.2 hlt).ne'
        refine ⟨⟨?_, ?_⟩, fun _ => hlt⟩
        · simp [hS]
        · rw [if_neg hne]
          simp only [List.zip_cons_cons, List.zip_nil_right, List.mem_cons, List.not_mem_nil, or_false]
          rintro b (rfl | rfl)
          · exact ⟨_, rfl, div_nonneg (by linarith) (by linarith), le_top⟩
          · exact ⟨_, rfl, hs, WithTop.coe_le_coe.2 hsS⟩
    · intro res he hc
      obtain ⟨p, q, e, e1, e2, e3, e4⟩ := lsq_two he (res := res) hc
      rw [e]
      unfold WithinBounds
      rw [if_pos rfl]
      exact ⟨p, q, rfl, e1, e3, by exact_mod_cast e4⟩
  by_cases hm' : model = "power"
  · subst hm'
    refine red _ (lsqProblem_power h1 h2 h3 h4) ?_ ?_
    · rw [lsqChecks_iff]
      unfold CanFit
      constructor
      · rintro ⟨⟨c1, c2⟩, c3⟩
        have d1 := c1 (0, (S : WithTop ℝ)) (by simp)
        have d2 := c2 (if L - l = 0 then none else some ((S - s) / (L - l)), 0, ⊤) (by simp)
        obtain ⟨v, d2, -⟩ := d2
        have hne : ¬ L - l = 0 := by
          intro hc; simp only [if_pos hc] at d2; cases d2
        have : l < L := lt_of_le_of_ne hlL fun hc => hne (by rw [hc, sub_self])
        exact ⟨WithTop.coe_lt_coe.1 d1, hl.trans_lt this, fun _ => this⟩
      · rintro ⟨hS, hL, hlt⟩
        have hlt := hlt (.inr (.inl rfl))
        have hne : ¬ L - l = 0 := (sub_pos.2 hlt).ne'
        refine ⟨⟨?_, ?_⟩, fun _ => hlt⟩
        · simp only [List.zip_cons_cons, List.zip_nil_right, List.mem_cons, List.not_mem_nil, or_false]
          rintro b (rfl | rfl | rfl)
          · simp
          · refine WithTop.coe_lt_coe.2 ?_
            norm_num
          · exact WithTop.coe_lt_coe.2 hS
        · rw [if_neg hne]
          simp only [List.zip_cons_cons, List.zip_nil_right, List.mem_cons, List.not_mem_nil, or_false]
          rintro b (rfl | rfl | rfl)
          · exact ⟨_, rfl, div_nonneg (by linarith) (by linarith), le_top⟩
          · exact ⟨_, rfl, by norm_num, WithTop.coe_le_coe.2 (by norm_num)⟩
          · exact ⟨_, rfl, hs, WithTop.coe_le_coe.2 hsS⟩
    · intro res he hc
      obtain ⟨p, q, r, e, e1, e2, e3, e4, e5, e6⟩ := lsq_three he (res := res) hc
      rw [e]
      unfold WithinBounds
      rw [if_neg hm, if_pos rfl]
      exact ⟨p, q, r, rfl, e1, e3, by exact_mod_cast e4, e5, by exact_mod_cast e6⟩
  · refine red _ (lsqProblem_other hm hm' h1 h2 h4) ?_ ?_
    · rw [lsqChecks_iff]
      unfold CanFit
      constructor
      · rintro ⟨⟨c1, c2⟩, c3⟩
        have d1 := c1 (0, (S : WithTop ℝ)) (by simp)
        have d2 := c1 (0, (L : WithTop ℝ)) (by simp)
        refine ⟨WithTop.coe_lt_coe.1 d1, WithTop.coe_lt_coe.1 d2, ?_⟩
        rintro (h | h | h)
        · exact absurd h hm
        · exact absurd h hm'
        · exact c3 h
      · rintro ⟨hS, hL, hlt⟩
        refine ⟨⟨?_, ?_⟩, fun h => hlt (.inr (.inr h))⟩
        · simp only [List.zip_cons_cons, List.zip_nil_right, List.mem_cons, List.not_mem_nil, or_false]
          rintro b (rfl | rfl | rfl)
          · exact WithTop.coe_lt_coe.2 (by linarith)
          · exact WithTop.coe_lt_coe.2 hL
          · exact WithTop.coe_lt_coe.2 hS
        · simp only [List.zip_cons_cons, List.zip_nil_right, List.mem_cons, List.not_mem_nil, or_false]
          rintro b (rfl | rfl | rfl)
          · exact ⟨_, rfl, by linarith, WithTop.coe_le_coe.2 (by linarith)⟩
          · exact ⟨_, rfl, by linarith, WithTop.coe_le_coe.2 (by linarith)⟩
          · exact ⟨_, rfl, hs, WithTop.coe_le_coe.2 hsS⟩
    · intro res he hc
      obtain ⟨p, q, r, e, e1, e2, e3, e4, e5, e6⟩ := lsq_three he (res := res) hc
      rw [e]
      unfold WithinBounds
      rw [if_neg hm, if_neg hm']
      exact ⟨p, q, r, rfl, e1, by exact_mod_cast e2, e3, by exact_mod_cast e4, e5, by exact_mod_cast e6⟩

end

/-- The automatic fit is possible for these data: not all values are equal, not all data are at the same place, and —
for the models linear and power, and whenever weights are asked for — at least two lag classes are asked for and not
all pairs of data are equally far apart. -/
def Spec.FitPossible {n : ℕ} (D : Fin n → Fin n → ℝ) (y : Fin n → ℝ) (model : String) (weight : Bool) (nlags : ℕ) :
    Prop :=
  (∃ i j, i < j ∧ y i ≠ y j) ∧ (∃ i j, i < j ∧ D i j ≠ 0) ∧
  (model = "linear" ∨ model = "power" ∨ weight = true →
    2 ≤ nlags ∧ ∃ i j k l, i < j ∧ k < l ∧ D i j ≠ D k l)

theorem pairDistance_nonneg {m : ℕ} (ct : String) (p q : Fin m → ℝ) : 0 ≤ pairDistance ct p q := by
  unfold pairDistance
  split
  · positivity
  · split
    · rw [← greatCircle_eq]; exact greatCircleDistance_nonneg _ _ _ _
    · exact le_rfl

theorem mean_pos {l : List ℝ} (h : ∀ v ∈ l, 0 ≤ v) : 0 < l.sum / (l.length : ℝ) ↔ ∃ v ∈ l, 0 < v := by
  constructor
  · intro h0
    by_contra hc
    push Not at hc
    have : l.sum = 0 := by
      have e : ∀ v ∈ l, v = 0 := fun v hv => le_antisymm (hc v hv) (h v hv)
      exact List.sum_eq_zero e
    rw [this, zero_div] at h0
    exact lt_irrefl _ h0
  · rintro ⟨v, hv, hv0⟩
    have hl : (0 : ℝ) < l.length := by exact_mod_cast List.length_pos_of_mem hv
    exact div_pos (hv0.trans_le (List.single_le_sum h v hv)) hl

section
variable {n m : ℕ} {X : Fin n → Fin m → ℝ} {y : Fin n → ℝ} {nlags : ℕ} {ct : String} {ev : List (ℝ × ℝ)}

theorem mem_pairs {p : ℝ × ℝ} : p ∈ pairs X y ct ↔
    ∃ i j, i < j ∧ p = (pairDistance ct (X i) (X j), (y i - y j) ^ 2 / 2) := by
  unfold pairs pairsBy
  simp only [Multiset.mem_map, Finset.mem_val, Finset.mem_filter, Finset.mem_univ, true_and, Prod.exists]
  exact ⟨fun ⟨i, j, h, e⟩ => ⟨i, j, h, e.symm⟩, fun ⟨i, j, h, e⟩ => ⟨i, j, h, e.symm⟩⟩

theorem ev_positive (h : experimentalVariogram X y nlags ct = .ok ev) (hn : 0 < nlags) :
    ((∃ v ∈ ev.map Prod.fst, 0 < v) ↔ ∃ p ∈ pairs X y ct, 0 < p.1) ∧
    ((∃ v ∈ ev.map Prod.snd, 0 < v) ↔ ∃ p ∈ pairs X y ct, 0 < p.2) := by
  obtain ⟨gs, h1, rfl, h3, -⟩ := C18_groups h hn
  have hpos : ∀ p ∈ pairs X y ct, 0 ≤ p.1 ∧ 0 ≤ p.2 := by
    intro p hp
    obtain ⟨i, j, -, rfl⟩ := mem_pairs.1 hp
    exact ⟨pairDistance_nonneg _ _ _, by positivity⟩
  have hmem : ∀ p, p ∈ pairs X y ct ↔ ∃ g ∈ gs, p ∈ g := by
    intro p
    rw [← h1, Multiset.mem_coe, List.mem_flatten]
  have key : ∀ F : ℝ × ℝ → ℝ, (∀ p ∈ pairs X y ct, 0 ≤ F p) →
      ((∃ g ∈ gs, 0 < (g.map F).sum / (g.length : ℝ)) ↔ ∃ p ∈ pairs X y ct, 0 < F p) := by
    intro F hF
    have e : ∀ g ∈ gs, (0 < (g.map F).sum / (g.length : ℝ) ↔ ∃ p ∈ g, 0 < F p) := by
      intro g hg
      have := mean_pos (l := g.map F) (fun v hv => by
        obtain ⟨p, hp, rfl⟩ := List.mem_map.1 hv
        exact hF p ((hmem p).2 ⟨g, hg, hp⟩))
      rw [List.length_map] at this
      rw [this]
      simp
    constructor
    · rintro ⟨g, hg, h0⟩
      obtain ⟨p, hp, hp0⟩ := (e g hg).1 h0
      exact ⟨p, (hmem p).2 ⟨g, hg, hp⟩, hp0⟩
    · rintro ⟨p, hp, hp0⟩
      obtain ⟨g, hg, hpg⟩ := (hmem p).1 hp
      exact ⟨g, hg, (e g hg).2 ⟨p, hpg, hp0⟩⟩
  constructor
  · rw [← key Prod.fst fun p hp => (hpos p hp).1]
    simp [List.mem_map]
  · rw [← key Prod.snd fun p hp => (hpos p hp).2]
    simp [List.mem_map]

theorem ev_two_lags (h : experimentalVariogram X y nlags ct = .ok ev) (hn : 0 < nlags) :
    (∃ u ∈ ev.map Prod.fst, ∃ v ∈ ev.map Prod.fst, u < v) ↔
      2 ≤ nlags ∧ ∃ p ∈ pairs X y ct, ∃ q ∈ pairs X y ct, p.1 ≠ q.1 := by
  obtain ⟨gs, h1, rfl, h3, h4, h5, lo, hi, hlo, hhi, h6⟩ := C18_groups h hn
  have hmem : ∀ p, p ∈ pairs X y ct ↔ ∃ g ∈ gs, p ∈ g := by
    intro p
    rw [← h1, Multiset.mem_coe, List.mem_flatten]
  have hsymm : gs.Pairwise fun g g' => (∀ p ∈ g, ∀ q ∈ g', p.1 < q.1) ∨ (∀ p ∈ g', ∀ q ∈ g, p.1 < q.1) :=
    h5.imp fun h => .inl h
  have hall : ∀ g ∈ gs, ∀ g' ∈ gs, g ≠ g' →
      (∀ p ∈ g, ∀ q ∈ g', p.1 < q.1) ∨ (∀ p ∈ g', ∀ q ∈ g, p.1 < q.1) := by
    intro g hg g' hg' hne
    have : Std.Symm fun g g' : List (ℝ × ℝ) =>
        (∀ p ∈ g, ∀ q ∈ g', p.1 < q.1) ∨ (∀ p ∈ g', ∀ q ∈ g, p.1 < q.1) := ⟨fun _ _ h => h.symm⟩
    exact hsymm.forall hg hg' hne
  have hmean : ∀ g ∈ gs, ∀ g' ∈ gs, (∀ p ∈ g, ∀ q ∈ g', p.1 < q.1) →
      (g.map Prod.fst).sum / (g.length : ℝ) < (g'.map Prod.fst).sum / (g'.length : ℝ) := by
    intro g hg g' hg' hlt
    have := mean_lt_mean (l := g.map Prod.fst) (l' := g'.map Prod.fst) (by simpa using h3 g hg)
      (by simpa using h3 g' hg') (fun v hv u hu => by
        obtain ⟨p, hp, rfl⟩ := List.mem_map.1 hv
        obtain ⟨q, hq, rfl⟩ := List.mem_map.1 hu
        exact hlt p hp q hq)
    simpa using this
  have hlag : ∀ u, u ∈ (gs.map fun g : List (ℝ × ℝ) => ((g.map Prod.fst).sum / (g.length : ℝ),
      (g.map Prod.snd).sum / (g.length : ℝ))).map Prod.fst ↔ ∃ g ∈ gs, (g.map Prod.fst).sum / (g.length : ℝ) = u := by
    intro u; simp
  constructor
  · rintro ⟨u, hu, v, hv, huv⟩
    obtain ⟨g, hg, rfl⟩ := (hlag u).1 hu
    obtain ⟨g', hg', rfl⟩ := (hlag v).1 hv
    have hne : g ≠ g' := by rintro rfl; exact lt_irrefl _ huv
    refine ⟨?_, ?_⟩
    · by_contra hc
      have hlen : gs.length ≤ 1 := by omega
      have : ∃ a, ∀ b ∈ gs, b = a := by
        clear * - hlen
        match gs, hlen with
        | [], _ => exact ⟨[], fun b hb => by cases hb⟩
        | [a], _ => exact ⟨a, fun b hb => List.mem_singleton.1 hb⟩
      obtain ⟨a, ha⟩ := this
      exact hne ((ha g hg).trans (ha g' hg').symm)
    · obtain ⟨p, hp⟩ := List.exists_mem_of_ne_nil g (h3 g hg)
      obtain ⟨q, hq⟩ := List.exists_mem_of_ne_nil g' (h3 g' hg')
      refine ⟨p, (hmem p).2 ⟨g, hg, hp⟩, q, (hmem q).2 ⟨g', hg', hq⟩, ?_⟩
      rcases hall g hg g' hg' hne with h | h
      · exact (h p hp q hq).ne
      · exact (h q hq p hp).ne'
  · rintro ⟨hn2, p, hp, q, hq, hpq⟩
    have hlt : lo < hi := by
      refine lt_of_le_of_ne ((hlo.2 ⟨p, hp, rfl⟩).trans (hhi.2 ⟨p, hp, rfl⟩)) fun hc => hpq ?_
      have a1 := hlo.2 ⟨p, hp, rfl⟩
      have a2 := hhi.2 ⟨p, hp, rfl⟩
      have a3 := hlo.2 ⟨q, hq, rfl⟩
      have a4 := hhi.2 ⟨q, hq, rfl⟩
      linarith
    obtain ⟨pl, hpl, epl⟩ := hlo.1
    obtain ⟨ph, hph, eph⟩ := hhi.1
    obtain ⟨g, hg, hpg⟩ := (hmem pl).1 hpl
    obtain ⟨g', hg', hpg'⟩ := (hmem ph).1 hph
    have hw : 0 < (hi - lo) / nlags := div_pos (by linarith) (by exact_mod_cast hn)
    have hne : g ≠ g' := by
      rintro rfl
      obtain ⟨k, hk, hk'⟩ := h6 g hg
      have b1 := (hk' pl hpg).1
      have b2 := (hk' ph hpg').2.1
      rw [← epl] at b1
      rw [← eph] at b2
      have hk0 : (k : ℝ) ≤ 0 := by
        by_contra hc
        have := mul_pos (not_le.1 hc) hw
        linarith
      have hk0 : k = 0 := by
        have : k ≤ 0 := by exact_mod_cast hk0
        omega
      rw [hk0] at b2
      have : (2 : ℝ) ≤ nlags := by exact_mod_cast hn2
      have e : (nlags : ℝ) * ((hi - lo) / nlags) = hi - lo := mul_div_cancel₀ _ (by positivity)
      push_cast at b2
      nlinarith
    rcases hall g hg g' hg' hne with h | h
    · exact ⟨_, (hlag _).2 ⟨g, hg, rfl⟩, _, (hlag _).2 ⟨g', hg', rfl⟩, hmean g hg g' hg' h⟩
    · exact ⟨_, (hlag _).2 ⟨g', hg', rfl⟩, _, (hlag _).2 ⟨g, hg, rfl⟩, hmean g' hg' g hg h⟩

theorem canFit_iff (h : experimentalVariogram X y nlags ct = .ok ev) (hn : 0 < nlags) {model : String} {weight : Bool}
    {S l L : ℝ} (hS : IsGreatest {v | v ∈ ev.map Prod.snd} S) (hl : IsLeast {v | v ∈ ev.map Prod.fst} l)
    (hL : IsGreatest {v | v ∈ ev.map Prod.fst} L) :
    CanFit model weight S l L ↔ FitPossible (fun i j => pairDistance ct (X i) (X j)) y model weight nlags := by
  obtain ⟨p1, p2⟩ := ev_positive h hn
  have p3 := ev_two_lags h hn
  have e1 : 0 < S ↔ ∃ i j, i < j ∧ y i ≠ y j := by
    have : 0 < S ↔ ∃ v ∈ ev.map Prod.snd, 0 < v :=
      ⟨fun h => ⟨S, hS.1, h⟩, fun ⟨v, hv, h⟩ => h.trans_le (hS.2 hv)⟩
    rw [this, p2]
    constructor
    · rintro ⟨p, hp, h0⟩
      obtain ⟨i, j, hij, rfl⟩ := mem_pairs.1 hp
      refine ⟨i, j, hij, fun hc => ?_⟩
      simp [hc] at h0
    · rintro ⟨i, j, hij, hne⟩
      refine ⟨_, mem_pairs.2 ⟨i, j, hij, rfl⟩, ?_⟩
      have := sub_ne_zero.2 hne
      positivity
  have e2 : 0 < L ↔ ∃ i j, i < j ∧ pairDistance ct (X i) (X j) ≠ 0 := by
    have : 0 < L ↔ ∃ v ∈ ev.map Prod.fst, 0 < v :=
      ⟨fun h => ⟨L, hL.1, h⟩, fun ⟨v, hv, h⟩ => h.trans_le (hL.2 hv)⟩
    rw [this, p1]
    constructor
    · rintro ⟨p, hp, h0⟩
      obtain ⟨i, j, hij, rfl⟩ := mem_pairs.1 hp
      exact ⟨i, j, hij, h0.ne'⟩
    · rintro ⟨i, j, hij, hne⟩
      exact ⟨_, mem_pairs.2 ⟨i, j, hij, rfl⟩, lt_of_le_of_ne (pairDistance_nonneg _ _ _) hne.symm⟩
  have e3 : l < L ↔ 2 ≤ nlags ∧ ∃ i j k l, i < j ∧ k < l ∧
      pairDistance ct (X i) (X j) ≠ pairDistance ct (X k) (X l) := by
    have : l < L ↔ ∃ u ∈ ev.map Prod.fst, ∃ v ∈ ev.map Prod.fst, u < v :=
      ⟨fun h => ⟨l, hl.1, L, hL.1, h⟩, fun ⟨u, hu, v, hv, h⟩ => ((hl.2 hu).trans_lt h).trans_le (hL.2 hv)⟩
    rw [this, p3]
    refine and_congr_right fun _ => ?_
    constructor
    · rintro ⟨p, hp, q, hq, h0⟩
      obtain ⟨i, j, hij, rfl⟩ := mem_pairs.1 hp
      obtain ⟨k, l, hkl, rfl⟩ := mem_pairs.1 hq
      exact ⟨i, j, k, l, hij, hkl, h0⟩
    · rintro ⟨i, j, k, l, hij, hkl, hne⟩
      exact ⟨_, mem_pairs.2 ⟨i, j, hij, rfl⟩, _, mem_pairs.2 ⟨k, l, hkl, rfl⟩, hne⟩
  unfold CanFit FitPossible
  rw [e1, e2, e3]

end

/-- The automatic fit (no parameters given) succeeds exactly for data it is possible for, with parameters within the
bounds; all other data are refused with a `ValueError`. -/
theorem C19_fit {n m : ℕ} (env : Env) (X : Fin n → Fin m → ℝ) (y : Fin n → ℝ) {model : String} (f : VFun) {nlags : ℕ}
    (weight : Bool) {ct : String} (hn : 0 < nlags) (hm : model ≠ "custom")
    (hct : ct = "euclidean" ∨ ct = "geographic" ∧ m = 2) :
    (FitPossible (fun i j => pairDistance ct (X i) (X j)) y model weight nlags →
      ∃ ev ps S L, initializeVariogramModel env X y model none f nlags weight ct = .ok (ev, ps) ∧
        IsGreatest {v | v ∈ ev.map Prod.snd} S ∧ IsGreatest {v | v ∈ ev.map Prod.fst} L ∧
        (LsqSpec env → WithinBounds model S L ps)) ∧
    (¬ FitPossible (fun i j => pairDistance ct (X i) (X j)) y model weight nlags →
      initializeVariogramModel env X y model none f nlags weight ct = .error .valueError) := by
  by_cases h2 : 2 ≤ n
  · obtain ⟨ev, h⟩ := C18_accepted h2 X y nlags hct
    have hne := (C18_lags_increase h hn).2.2
    obtain ⟨s, S, a1, a2, a3, a4, a5⟩ := extremes (l := ev.map Prod.snd) (by simpa using hne)
    obtain ⟨l, L, b1, b2, b3, b4, b5⟩ := extremes (l := ev.map Prod.fst) (by simpa using hne)
    obtain ⟨a, b, c, d, ha⟩ : ∃ a b c d, ∀ p ∈ pairs X y ct, (a ≤ p.1 ∧ p.1 ≤ b) ∧ (c ≤ p.2 ∧ p.2 ≤ d) := by
      have hfin : (pairs X y ct).toList ≠ [] := by
        intro hc
        have := mem_pairs (X := X) (y := y) (ct := ct)
          (p := (pairDistance ct (X ⟨0, by omega⟩) (X ⟨1, by omega⟩), (y ⟨0, by omega⟩ - y ⟨1, by omega⟩) ^ 2 / 2))
          |>.2 ⟨_, _, by simp [Fin.lt_def], rfl⟩
        rw [← Multiset.mem_toList, hc] at this
        cases this
      obtain ⟨a, b, -, -, c1, c2, -⟩ := extremes (l := (pairs X y ct).toList.map Prod.fst) (by simpa using hfin)
      obtain ⟨c, d, -, -, c3, c4, -⟩ := extremes (l := (pairs X y ct).toList.map Prod.snd) (by simpa using hfin)
      refine ⟨a, b, c, d, fun p hp => ?_⟩
      have m1 : p.1 ∈ (pairs X y ct).toList.map Prod.fst := List.mem_map.2 ⟨p, Multiset.mem_toList.2 hp, rfl⟩
      have m2 : p.2 ∈ (pairs X y ct).toList.map Prod.snd := List.mem_map.2 ⟨p, Multiset.mem_toList.2 hp, rfl⟩
      exact ⟨⟨c1.2 m1, c2.2 m1⟩, ⟨c3.2 m2, c4.2 m2⟩⟩
    have hr := C18_ranges h hn (fun p hp => (ha p hp).1) (fun p hp => (ha p hp).2)
    have hs : 0 ≤ s := by
      obtain ⟨e, he, hes⟩ := List.mem_map.1 a3.1
      rw [← hes]; exact (hr e he).2.2.2
    have hl : 0 ≤ l := by
      obtain ⟨e, he, hes⟩ := List.mem_map.1 b3.1
      rw [← hes]; exact (hr e he).2.2.1
    obtain ⟨c1, c2⟩ := fit_cases (env := env) (f := f) (model := model) (weight := weight) a1 a2 b1 b2 hs a5 hl b5
    rw [canFit_iff h hn a4 b3 b4] at c1 c2
    unfold initializeVariogramModel
    rw [h]
    simp only [py_ok_bind, if_neg hm]
    refine ⟨fun hf => ?_, fun hf => ?_⟩
    · obtain ⟨ps, e1, e2⟩ := c1 hf
      rw [e1]
      exact ⟨ev, ps, S, L, rfl, a4, b4, e2⟩
    · rw [c2 hf]; rfl
  · refine ⟨fun hf => ?_, fun _ => ?_⟩
    · obtain ⟨⟨i, j, hij, -⟩, -⟩ := hf
      have := i.isLt; have := j.isLt
      have := Fin.lt_def.1 hij
      omega
    · unfold initializeVariogramModel
      rw [C18_too_few (by omega)]
      rfl

/-! ### The four classes -/

theorem midrange_cases {n : ℕ} (v : Fin n → ℝ) :
    (∃ c, midrange v = .ok c) ∨ n = 0 ∧ midrange v = .error .valueError := by
  cases n with
  | zero => right; exact ⟨rfl, by simp [midrange, amax]⟩
  | succ k =>
    left
    have hmem : v 0 ∈ List.ofFn v := List.mem_ofFn.2 ⟨0, rfl⟩
    obtain ⟨a, ha, -⟩ := amax_spec hmem
    obtain ⟨b, hb, -⟩ := amin_spec hmem
    unfold midrange
    rw [ha, hb]
    exact ⟨_, rfl⟩

theorem chooseFunction_cases (name : String) (f : FunArg) :
    (∃ r, chooseFunction name f = .ok r) ∨ chooseFunction name f = .error .valueError := by
  unfold chooseFunction
  split
  · exact .inr rfl
  · split
    · cases f with
      | none => exact .inr rfl
      | notCallable => exact .inr rfl
      | callable g nm => exact .inl ⟨_, rfl⟩
    · split
      · exact .inl ⟨_, rfl⟩
      · exact .inr rfl

theorem OK.setup_cases {n : ℕ} (x y : Fin n → ℝ) (ct : String) (sc an : ℝ) :
    (∃ xc yc sc' an' adj, OK.setupCoordinates x y ct sc an = .ok (xc, yc, sc', an', adj) ∧
      (ct = "euclidean" ∨ ct = "geographic") ∧
      ∀ i j, pairDistance ct (adj i) (adj j) = distance2 ct sc an (x i, y i) (x j, y j)) ∨
    (n = 0 ∨ ct ≠ "euclidean" ∧ ct ≠ "geographic") ∧ OK.setupCoordinates x y ct sc an = .error .valueError := by
  unfold OK.setupCoordinates
  by_cases hc : ct = "euclidean"
  · rw [if_pos hc]
    rcases midrange_cases x with ⟨xc, hx⟩ | ⟨h0, hx⟩
    · rcases midrange_cases y with ⟨yc, hy⟩ | ⟨h0, hy⟩
      · left
        rw [hx, hy]
        refine ⟨xc, yc, sc, an, _, rfl, .inl hc, fun i j => ?_⟩
        unfold pairDistance distance2 adjustData2
        rw [if_pos hc, if_pos hc, ← adjust2_euclid ![xc, yc]]
        rfl
      · right
        rw [hx, hy]; exact ⟨.inl h0, rfl⟩
    · right
      rw [hx]; exact ⟨.inl h0, rfl⟩
  · rw [if_neg hc]
    by_cases hg : ct = "geographic"
    · rw [if_pos hg]
      left
      refine ⟨_, _, _, _, _, rfl, .inr hg, fun i j => ?_⟩
      unfold pairDistance distance2
      rw [if_neg hc, if_neg hc, dif_pos rfl]
      rfl
    · rw [if_neg hg]
      exact .inr ⟨.inr ⟨hc, hg⟩, rfl⟩

theorem adj2_pairDistance {n : ℕ} (x y : Fin n → ℝ) (xc yc sc an : ℝ) (i j : Fin n) :
    pairDistance "euclidean" (adjustData2 x y xc yc sc an i) (adjustData2 x y xc yc sc an j) =
      anisoDist2 sc an (x i, y i) (x j, y j) := by
  unfold pairDistance adjustData2
  rw [if_pos rfl, ← adjust2_euclid ![xc, yc]]
  rfl

theorem adj3_pairDistance {n : ℕ} (x y z : Fin n → ℝ) (xc yc zc : ℝ) (an : Aniso3) (i j : Fin n) :
    pairDistance "euclidean" (adjustPoint3 xc yc zc an (x i) (y i) (z i)) (adjustPoint3 xc yc zc an (x j) (y j) (z j)) =
      distance3 an (x i, y i, z i) (x j, y j, z j) := by
  unfold pairDistance adjustPoint3
  rw [if_pos rfl, ← adjust3_euclid ![xc, yc, zc]]
  rfl

theorem not_fit_zero {n : ℕ} {D : Fin n → Fin n → ℝ} {y : Fin n → ℝ} {model : String} {weight : Bool} {nlags : ℕ}
    (h : FitPossible D y model weight nlags) : n ≠ 0 := by
  obtain ⟨⟨i, -⟩, -⟩ := h
  have := i.isLt
  omega

theorem init_fit {n m : ℕ} {env : Env} {X : Fin n → Fin m → ℝ} {y : Fin n → ℝ} {model : String} {f : VFun} {nlags : ℕ}
    {weight : Bool} {ct : String} (hn : 0 < nlags) (hm : model ≠ "custom")
    (hct : ct = "euclidean" ∨ ct = "geographic" ∧ m = 2) {ev : List (ℝ × ℝ)} {ps : List ℝ}
    (h : initializeVariogramModel env X y model none f nlags weight ct = .ok (ev, ps)) (hl : LsqSpec env) :
    FitPossible (fun i j => pairDistance ct (X i) (X j)) y model weight nlags ∧
    ∃ S L, IsGreatest {v | v ∈ ev.map Prod.snd} S ∧ IsGreatest {v | v ∈ ev.map Prod.fst} L ∧ WithinBounds model S L ps := by
  obtain ⟨h1, h2⟩ := C19_fit env X y f weight hn hm hct
  by_cases hf : FitPossible (fun i j => pairDistance ct (X i) (X j)) y model weight nlags
  · obtain ⟨ev', ps', S, L, e, e1, e2, e3⟩ := h1 hf
    rw [h] at e
    cases e
    exact ⟨hf, S, L, e1, e2, e3 hl⟩
  · rw [h2 hf] at h
    cases h

/-- Whenever a fit was needed and the constructor succeeded, it was possible and the parameters are within the bounds. -/
theorem C19_bounds_ok {n : ℕ} {env : Env} {x y z : Fin n → ℝ} {args : OKArgs} {s : OK n}
    (h : OK.create env x y z args = .ok s) {nm : String} (hm : args.variogramModel = .name nm) (hc : nm ≠ "custom")
    (hp : args.params = .none) (hn : 0 < args.nlags) (hl : LsqSpec env) :
    FitPossible (fun i j => okDistance args (x i, y i) (x j, y j)) z nm args.weight args.nlags ∧
    ∃ S L, IsGreatest {v | v ∈ s.lags.map Prod.snd} S ∧ IsGreatest {v | v ∈ s.lags.map Prod.fst} L ∧
      WithinBounds nm S L s.params := by
  obtain ⟨hpt, exact, name, model, fArg, pArg, sc₀, an₀, f, fname, xc, yc, sc, an, adj, vp, lags, ps, stats,
    h1, h2, h3, h4, h5, h6, h7, rfl⟩ := OK.create_ok h
  rw [hm, hp] at h2
  obtain ⟨rfl, rfl, rfl, rfl, rfl, rfl⟩ : name = nm ∧ model = none ∧ fArg = args.variogramFunction ∧ pArg = .none ∧ _ := by
    have h2' := (Except.ok.inj h2).symm
    simpa only [Prod.mk.injEq] using h2'
  cases h5
  rcases OK.setup_cases x y args.coordinatesType args.anisotropyScaling args.anisotropyAngle with
    ⟨xc', yc', sc', an', adj', e1, e2, e3⟩ | ⟨-, e⟩
  · rw [h4] at e1
    cases e1
    have hD : (fun i j => okDistance args (x i, y i) (x j, y j)) =
        fun i j => pairDistance args.coordinatesType (adj i) (adj j) := by
      funext i j
      rw [e3]
      unfold okDistance
      rw [hm]
      rfl
    rw [hD]
    exact init_fit hn hc (e2.imp id fun h => ⟨h, rfl⟩) h6 hl
  · rw [h4] at e
    cases e

/-- If the fit is not possible — e.g. for constant values — the constructor raises a `ValueError`. -/
theorem C19_refused_ok {n : ℕ} (env : Env) (x y z : Fin n → ℝ) (args : OKArgs)
    {nm : String} (hm : args.variogramModel = .name nm) (hc : nm ≠ "custom")
    (hp : args.params = .none) (hn : 0 < args.nlags)
    (hf : ¬ FitPossible (fun i j => okDistance args (x i, y i) (x j, y j)) z nm args.weight args.nlags) :
    OK.create env x y z args = .error .valueError := by
  unfold OK.create
  by_cases hpt : args.pseudoInvType ∈ ["pinv", "pinvh"]
  swap
  · rw [if_pos hpt]; rfl
  rw [if_neg (not_not.2 hpt)]
  cases hex : args.exactValues with
  | notBool => rfl
  | bool b =>
    rw [hm, hp]
    simp only [OK.resolveModel, py_ok_bind, py_pure]
    rcases chooseFunction_cases nm args.variogramFunction with ⟨⟨f, fname⟩, hr⟩ | hr
    swap
    · rw [hr]; rfl
    rw [hr]
    simp only [py_ok_bind]
    rcases OK.setup_cases x y args.coordinatesType args.anisotropyScaling args.anisotropyAngle with
      ⟨xc', yc', sc', an', adj', e1, e2, e3⟩ | ⟨-, e⟩
    · rw [e1]
      simp only [py_ok_bind, makeVariogramParameterList]
      have hD : (fun i j => okDistance args (x i, y i) (x j, y j)) =
          fun i j => pairDistance args.coordinatesType (adj' i) (adj' j) := by
        funext i j
        rw [e3]
        unfold okDistance
        rw [hm]
        rfl
      rw [hD] at hf
      rw [(C19_fit env adj' z f args.weight hn hc (e2.imp id fun h => ⟨h, rfl⟩)).2 hf]
      rfl
    · rw [e]; rfl

/-- Whenever a fit was needed and the constructor succeeded, it was possible and the parameters are within the bounds. -/
theorem C19_bounds_ok3 {n : ℕ} {env : Env} {x y z v : Fin n → ℝ} {args : OK3DArgs} {s : OK3D n}
    (h : OK3D.create env x y z v args = .ok s) {nm : String} (hm : args.variogramModel = .name nm) (hc : nm ≠ "custom")
    (hp : args.params = .none) (hn : 0 < args.nlags) (hl : LsqSpec env) :
    FitPossible (fun i j => ok3Distance args (x i, y i, z i) (x j, y j, z j)) v nm args.weight args.nlags ∧
    ∃ S L, IsGreatest {v | v ∈ s.lags.map Prod.snd} S ∧ IsGreatest {v | v ∈ s.lags.map Prod.fst} L ∧
      WithinBounds nm S L s.params := by
  obtain ⟨hpt, exact, name, model, fArg, pArg, an, f, fname, xc, yc, zc, vp, lags, ps, stats,
    h1, h2, h3, h4, h5, h6, h7, h8, h9, rfl⟩ := OK3D.create_ok h
  rw [hm, hp] at h2
  obtain ⟨rfl, rfl, rfl, rfl, rfl⟩ : name = nm ∧ model = none ∧ fArg = args.variogramFunction ∧ pArg = .none ∧ _ := by
    have h2' := (Except.ok.inj h2).symm
    simpa only [Prod.mk.injEq] using h2'
  cases h7
  have := init_fit hn hc (.inl rfl) h8 hl
  simp only [adj3_pairDistance] at this
  have hD : (fun i j => ok3Distance args (x i, y i, z i) (x j, y j, z j)) =
      fun i j => distance3 args.aniso (x i, y i, z i) (x j, y j, z j) := by
    funext i j
    unfold ok3Distance
    rw [hm]
    rfl
  rw [hD]
  exact this

/-- If the fit is not possible — e.g. for constant values — the constructor raises a `ValueError`. -/
theorem C19_refused_ok3 {n : ℕ} (env : Env) (x y z v : Fin n → ℝ) (args : OK3DArgs)
    {nm : String} (hm : args.variogramModel = .name nm) (hc : nm ≠ "custom")
    (hp : args.params = .none) (hn : 0 < args.nlags)
    (hf : ¬ FitPossible (fun i j => ok3Distance args (x i, y i, z i) (x j, y j, z j)) v nm args.weight args.nlags) :
    OK3D.create env x y z v args = .error .valueError := by
  unfold OK3D.create
  by_cases hpt : args.pseudoInvType ∈ ["pinv", "pinvh"]
  swap
  · rw [if_pos hpt]; rfl
  rw [if_neg (not_not.2 hpt)]
  cases hex : args.exactValues with
  | notBool => rfl
  | bool b =>
    rw [hm, hp]
    simp only [OK3D.resolveModel, py_ok_bind, py_pure]
    rcases chooseFunction_cases nm args.variogramFunction with ⟨⟨f, fname⟩, hr⟩ | hr
    swap
    · rw [hr]; rfl
    rw [hr]
    simp only [py_ok_bind]
    rcases midrange_cases x with ⟨xc, hx⟩ | ⟨-, hx⟩
    swap
    · rw [hx]; rfl
    rw [hx]
    simp only [py_ok_bind]
    rcases midrange_cases y with ⟨yc, hy⟩ | ⟨-, hy⟩
    swap
    · rw [hy]; rfl
    rw [hy]
    simp only [py_ok_bind]
    rcases midrange_cases z with ⟨zc, hz⟩ | ⟨-, hz⟩
    swap
    · rw [hz]; rfl
    rw [hz]
    simp only [py_ok_bind]
    simp only [py_ok_bind, makeVariogramParameterList]
    have hD : (fun i j => ok3Distance args (x i, y i, z i) (x j, y j, z j)) =
        fun i j => pairDistance "euclidean" ((fun i => adjustPoint3 xc yc zc args.aniso (x i) (y i) (z i)) i) ((fun i => adjustPoint3 xc yc zc args.aniso (x i) (y i) (z i)) j) := by
      funext i j
      beta_reduce
      rw [adj3_pairDistance]
      unfold ok3Distance
      rw [hm]
      rfl
    rw [hD] at hf
    rw [(C19_fit env _ v f args.weight hn hc (.inl rfl)).2 hf]
    rfl

/-- Whenever a fit was needed and the constructor succeeded, it was possible and the parameters are within the bounds. -/
theorem C19_bounds_uk {n : ℕ} {env : Env} {x y z : Fin n → ℝ} {args : UKArgs} {s : UK n}
    (h : UK.create env x y z args = .ok s) {nm : String} (hm : args.variogramModel = .name nm) (hc : nm ≠ "custom")
    (hp : args.params = .none) (hn : 0 < args.nlags) (hl : LsqSpec env) :
    FitPossible (fun i j => ukDistance args (x i, y i) (x j, y j)) z nm args.weight args.nlags ∧
    ∃ S L, IsGreatest {v | v ∈ s.lags.map Prod.snd} S ∧ IsGreatest {v | v ∈ s.lags.map Prod.fst} L ∧
      WithinBounds nm S L s.params := by
  obtain ⟨hpt, exact, name, model, fArg, pArg, sc, an, f, fname, xc, yc, vp, lags, ps, stats, ext, plog, spec,
    func, h1, h2, h3, h4, h5, h6, h7, h8, h9, h10, h11, h12, rfl⟩ := UK.create_ok h
  rw [hm, hp] at h2
  obtain ⟨rfl, rfl, rfl, rfl, rfl, rfl⟩ : name = nm ∧ model = none ∧ fArg = args.variogramFunction ∧ pArg = .none ∧ _ := by
    have h2' := (Except.ok.inj h2).symm
    simpa only [Prod.mk.injEq] using h2'
  cases h6
  have := init_fit hn hc (.inl rfl) h7 hl
  simp only [adj2_pairDistance] at this
  have hD : (fun i j => ukDistance args (x i, y i) (x j, y j)) =
      fun i j => anisoDist2 args.anisotropyScaling args.anisotropyAngle (x i, y i) (x j, y j) := by
    funext i j
    unfold ukDistance
    rw [hm]
    rfl
  rw [hD]
  exact this

/-- If the fit is not possible — e.g. for constant values — the constructor raises a `ValueError`. -/
theorem C19_refused_uk {n : ℕ} (env : Env) (x y z : Fin n → ℝ) (args : UKArgs)
    {nm : String} (hm : args.variogramModel = .name nm) (hc : nm ≠ "custom")
    (hp : args.params = .none) (hn : 0 < args.nlags)
    (hf : ¬ FitPossible (fun i j => ukDistance args (x i, y i) (x j, y j)) z nm args.weight args.nlags) :
    UK.create env x y z args = .error .valueError := by
  unfold UK.create
  by_cases hpt : args.pseudoInvType ∈ ["pinv", "pinvh"]
  swap
  · rw [if_pos hpt]; rfl
  rw [if_neg (not_not.2 hpt)]
  cases hex : args.exactValues with
  | notBool => rfl
  | bool b =>
    rw [hm, hp]
    simp only [UK.resolveModel, py_ok_bind, py_pure]
    rcases chooseFunction_cases nm args.variogramFunction with ⟨⟨f, fname⟩, hr⟩ | hr
    swap
    · rw [hr]; rfl
    rw [hr]
    simp only [py_ok_bind]
    rcases midrange_cases x with ⟨xc, hx⟩ | ⟨-, hx⟩
    swap
    · rw [hx]; rfl
    rw [hx]
    simp only [py_ok_bind]
    rcases midrange_cases y with ⟨yc, hy⟩ | ⟨-, hy⟩
    swap
    · rw [hy]; rfl
    rw [hy]
    simp only [py_ok_bind]
    simp only [py_ok_bind, makeVariogramParameterList]
    have hD : (fun i j => ukDistance args (x i, y i) (x j, y j)) =
        fun i j => pairDistance "euclidean" ((adjustData2 x y xc yc args.anisotropyScaling args.anisotropyAngle) i) ((adjustData2 x y xc yc args.anisotropyScaling args.anisotropyAngle) j) := by
      funext i j
      beta_reduce
      rw [adj2_pairDistance]
      unfold ukDistance
      rw [hm]
      rfl
    rw [hD] at hf
    rw [(C19_fit env _ z f args.weight hn hc (.inl rfl)).2 hf]
    rfl

/-- Whenever a fit was needed and the constructor succeeded, it was possible and the parameters are within the bounds. -/
theorem C19_bounds_uk3 {n : ℕ} {env : Env} {x y z v : Fin n → ℝ} {args : UK3DArgs} {s : UK3D n}
    (h : UK3D.create env x y z v args = .ok s) {nm : String} (hm : args.variogramModel = .name nm) (hc : nm ≠ "custom")
    (hp : args.params = .none) (hn : 0 < args.nlags) (hl : LsqSpec env) :
    FitPossible (fun i j => uk3Distance args (x i, y i, z i) (x j, y j, z j)) v nm args.weight args.nlags ∧
    ∃ S L, IsGreatest {v | v ∈ s.lags.map Prod.snd} S ∧ IsGreatest {v | v ∈ s.lags.map Prod.fst} L ∧
      WithinBounds nm S L s.params := by
  obtain ⟨hpt, exact, name, model, fArg, pArg, an, f, fname, xc, yc, zc, vp, lags, ps, stats, spec, func,
    h1, h2, h3, h4, h5, h6, h7, h8, h9, h10, h11, rfl⟩ := UK3D.create_ok h
  rw [hm, hp] at h2
  obtain ⟨rfl, rfl, rfl, rfl, rfl⟩ : name = nm ∧ model = none ∧ fArg = args.variogramFunction ∧ pArg = .none ∧ _ := by
    have h2' := (Except.ok.inj h2).symm
    simpa only [Prod.mk.injEq] using h2'
  cases h7
  have := init_fit hn hc (.inl rfl) h8 hl
  simp only [adj3_pairDistance] at this
  have hD : (fun i j => uk3Distance args (x i, y i, z i) (x j, y j, z j)) =
      fun i j => distance3 args.aniso (x i, y i, z i) (x j, y j, z j) := by
    funext i j
    unfold uk3Distance
    rw [hm]
    rfl
  rw [hD]
  exact this

/-- If the fit is not possible — e.g. for constant values — the constructor raises a `ValueError`. -/
theorem C19_refused_uk3 {n : ℕ} (env : Env) (x y z v : Fin n → ℝ) (args : UK3DArgs)
    {nm : String} (hm : args.variogramModel = .name nm) (hc : nm ≠ "custom")
    (hp : args.params = .none) (hn : 0 < args.nlags)
    (hf : ¬ FitPossible (fun i j => uk3Distance args (x i, y i, z i) (x j, y j, z j)) v nm args.weight args.nlags) :
    UK3D.create env x y z v args = .error .valueError := by
  unfold UK3D.create
  by_cases hpt : args.pseudoInvType ∈ ["pinv", "pinvh"]
  swap
  · rw [if_pos hpt]; rfl
  rw [if_neg (not_not.2 hpt)]
  cases hex : args.exactValues with
  | notBool => rfl
  | bool b =>
    rw [hm, hp]
    simp only [OK3D.resolveModel, py_ok_bind, py_pure]
    rcases chooseFunction_cases nm args.variogramFunction with ⟨⟨f, fname⟩, hr⟩ | hr
    swap
    · rw [hr]; rfl
    rw [hr]
    simp only [py_ok_bind]
    rcases midrange_cases x with ⟨xc, hx⟩ | ⟨-, hx⟩
    swap
    · rw [hx]; rfl
    rw [hx]
    simp only [py_ok_bind]
    rcases midrange_cases y with ⟨yc, hy⟩ | ⟨-, hy⟩
    swap
    · rw [hy]; rfl
    rw [hy]
    simp only [py_ok_bind]
    rcases midrange_cases z with ⟨zc, hz⟩ | ⟨-, hz⟩
    swap
    · rw [hz]; rfl
    rw [hz]
    simp only [py_ok_bind]
    simp only [py_ok_bind, makeVariogramParameterList]
    have hD : (fun i j => uk3Distance args (x i, y i, z i) (x j, y j, z j)) =
        fun i j => pairDistance "euclidean" ((fun i => adjustPoint3 xc yc zc args.aniso (x i) (y i) (z i)) i) ((fun i => adjustPoint3 xc yc zc args.aniso (x i) (y i) (z i)) j) := by
      funext i j
      beta_reduce
      rw [adj3_pairDistance]
      unfold uk3Distance
      rw [hm]
      rfl
    rw [hD] at hf
    rw [(C19_fit env _ v f args.weight hn hc (.inl rfl)).2 hf]
    rfl

/-- Ordinary kriging without statistics: if the fit is possible, the constructor succeeds. -/
theorem C19_accepted_ok {n : ℕ} (env : Env) (x y z : Fin n → ℝ) (args : OKArgs)
    {nm : String} (hm : args.variogramModel = .name nm)
    (hb : nm ∈ ["linear", "power", "gaussian", "spherical", "exponential", "hole-effect"])
    (hp : args.params = .none) (hn : 0 < args.nlags) (hs : args.enableStatistics = false)
    (hpt : args.pseudoInvType ∈ ["pinv", "pinvh"]) (hex : args.exactValues ≠ .notBool)
    (hct : args.coordinatesType = "euclidean" ∨ args.coordinatesType = "geographic")
    (hf : FitPossible (fun i j => okDistance args (x i, y i) (x j, y j)) z nm args.weight args.nlags) :
    ∃ s, OK.create env x y z args = .ok s := by
  have hc : nm ≠ "custom" := by rintro rfl; revert hb; decide
  unfold OK.create
  rw [if_neg (not_not.2 hpt)]
  cases hex' : args.exactValues with
  | notBool => exact absurd hex' hex
  | bool b =>
    rw [hm, hp]
    simp only [OK.resolveModel, py_ok_bind, py_pure]
    obtain ⟨⟨f, fname⟩, hr⟩ : ∃ r, chooseFunction nm args.variogramFunction = .ok r := by
      clear * - hb
      simp only [List.mem_cons, List.not_mem_nil, or_false] at hb
      rcases hb with rfl | rfl | rfl | rfl | rfl | rfl <;> exact ⟨_, rfl⟩
    rw [hr]
    simp only [py_ok_bind]
    rcases OK.setup_cases x y args.coordinatesType args.anisotropyScaling args.anisotropyAngle with
      ⟨xc', yc', sc', an', adj', e1, e2, e3⟩ | ⟨h0, -⟩
    · rw [e1]
      simp only [py_ok_bind, makeVariogramParameterList]
      have hD : (fun i j => okDistance args (x i, y i) (x j, y j)) =
          fun i j => pairDistance args.coordinatesType (adj' i) (adj' j) := by
        funext i j
        rw [e3]
        unfold okDistance
        rw [hm]
        rfl
      rw [hD] at hf
      obtain ⟨ev, ps, S, L, e, -⟩ := (C19_fit env adj' z f args.weight hn hc (e2.imp id fun h => ⟨h, rfl⟩)).1 hf
      rw [e, hs]
      exact ⟨_, rfl⟩
    · rcases h0 with h0 | ⟨h0, h1⟩
      · exact absurd h0 (not_fit_zero hf)
      · exact absurd hct (by simp [h0, h1])

/-- Constant data: no automatic fit. -/
theorem C19_constant_ok {n : ℕ} (env : Env) (x y z : Fin n → ℝ) (args : OKArgs)
    {nm : String} (hm : args.variogramModel = .name nm) (hc : nm ≠ "custom")
    (hp : args.params = .none) (hn : 0 < args.nlags) (hz : ∀ i j, z i = z j) :
    OK.create env x y z args = .error .valueError :=
  C19_refused_ok env x y z args hm hc hp hn fun ⟨⟨i, j, _, h⟩, _⟩ => h (hz i j)

/-- A concrete case: three data on a line, at unequal distances, with different values, default arguments. -/
example : ∃ s, OK.create stdEnv ![0, 1, 3] ![0, 0, 0] ![1, 2, 4] {} = .ok s ∧
    ∃ S L, IsGreatest {v | v ∈ s.lags.map Prod.snd} S ∧ IsGreatest {v | v ∈ s.lags.map Prod.fst} L ∧
      WithinBounds "linear" S L s.params := by
  have hd : ∀ a b : ℝ, okDistance {} (a, 0) (b, 0) = |a - b| := by
    intro a b
    simp [okDistance, distance2, anisoDist2, effScaling, effAngle, rad, Real.sqrt_sq_eq_abs]
  obtain ⟨s, h⟩ := C19_accepted_ok stdEnv ![0, 1, 3] ![0, 0, 0] ![1, 2, 4] {} (nm := "linear") rfl (by simp) rfl
    (by norm_num) rfl (by simp) (by simp) (.inl rfl) ⟨⟨0, 1, by decide, by norm_num⟩, ⟨0, 1, by decide, by
      show okDistance {} (0, 0) (1, 0) ≠ 0
      rw [hd]; norm_num⟩, fun _ => ⟨by norm_num, 0, 1, 1, 2, by decide, by decide, by
      show okDistance {} (0, 0) (1, 0) ≠ okDistance {} (1, 0) (3, 0)
      rw [hd, hd]; norm_num⟩⟩
  exact ⟨s, h, (C19_bounds_ok h rfl (by decide) rfl (by norm_num) stdEnv_lsq).2⟩

end
end PyKrige
