import Verif.Lemmas.Fit
import Verif.Props.C53

/-!
# The automatic fit in another unit of length
-/

namespace PyKrige
noncomputable section
open Spec

theorem softL1_nonneg (r : List ℝ) : 0 ≤ softL1 r := by
  unfold softL1
  refine List.sum_nonneg fun v hv => ?_
  obtain ⟨t, -, rfl⟩ := List.mem_map.1 hv
  have : (1 : ℝ) ≤ √(1 + t ^ 2) := Real.one_le_sqrt.2 (by nlinarith [sq_nonneg t])
  linarith

theorem softL1_zero {r : List ℝ} (h : softL1 r ≤ 0) : ∀ t ∈ r, t = 0 := by
  induction r with
  | nil => simp
  | cons a r ih =>
    have h1 : softL1 (a :: r) = √(1 + a ^ 2) - 1 + softL1 r := by simp [softL1]
    have h2 := softL1_nonneg r
    have h3 : (1 : ℝ) ≤ √(1 + a ^ 2) := Real.one_le_sqrt.2 (by nlinarith [sq_nonneg a])
    have h4 : √(1 + a ^ 2) = 1 := by linarith
    have h5 : a = 0 := by
      rw [Real.sqrt_eq_one] at h4
      have : a ^ 2 = 0 := by linarith
      exact pow_eq_zero_iff (two_ne_zero) |>.1 this
    intro t ht
    rcases List.mem_cons.1 ht with rfl | ht
    · exact h5
    · exact ih (by linarith) t ht

theorem weightOf_pos (weight : Bool) {ls : List ℝ} (hne : ls ≠ []) (t : ℝ) : 0 < weightOf weight ls t := by
  unfold weightOf
  dsimp only
  split
  · refine div_pos (by positivity) (List.sum_pos _ (fun v hv => ?_) (by simpa using hne))
    obtain ⟨t, -, rfl⟩ := List.mem_map.1 hv
    positivity
  · exact one_pos

theorem misfit_nonneg (weight : Bool) (ev : List (ℝ × ℝ)) (γ : ℝ → ℝ) : 0 ≤ misfit weight ev γ := softL1_nonneg _

theorem misfit_exact {weight : Bool} {ev : List (ℝ × ℝ)} {γ : ℝ → ℝ} (h : ∀ e ∈ ev, γ e.1 = e.2) : misfit weight ev γ = 0 := by
  unfold misfit
  have : (ev.map fun e => (γ e.1 - e.2) * weightOf weight (ev.map Prod.fst) e.1) = ev.map fun _ => 0 := by
    refine List.map_congr_left fun e he => ?_
    rw [h e he]; ring
  rw [this]
  simp [softL1]

theorem misfit_zero {weight : Bool} {ev : List (ℝ × ℝ)} {γ : ℝ → ℝ} (h : misfit weight ev γ ≤ 0) : ∀ e ∈ ev, γ e.1 = e.2 := by
  intro e he
  have := softL1_zero h _ (List.mem_map.2 ⟨e, he, rfl⟩)
  have hw := weightOf_pos weight (ls := ev.map Prod.fst) (by simpa using List.ne_nil_of_mem he) e.1
  rcases mul_eq_zero.1 this with h | h
  · linarith
  · exact absurd h hw.ne'

/-! ### Scaling -/

section
variable {c : ℝ} (hc : 0 < c)
include hc

open _root_.Pointwise in
theorem weightOf_times (weight : Bool) (ls : List ℝ) (t : ℝ) : weightOf weight (ls.map (c * ·)) (c * t) = weightOf weight ls t := by
  have e : {v | v ∈ ls.map (c * ·)} = c • {v : ℝ | v ∈ ls} := by
    ext v
    simp only [List.mem_map, Set.mem_smul_set, smul_eq_mul]
    rfl
  unfold weightOf
  dsimp only
  rw [e, Real.sInf_smul_of_nonneg hc.le, Real.sSup_smul_of_nonneg hc.le]
  simp only [smul_eq_mul, List.map_map]
  have k : ∀ t, (-(2.1972 / (0.1 * (c * sSup {v | v ∈ ls} - c * sInf {v | v ∈ ls})))) * (c * sInf {v | v ∈ ls} + 0.7 * (c * sSup {v | v ∈ ls} - c * sInf {v | v ∈ ls}) - c * t) =
      (-(2.1972 / (0.1 * (sSup {v | v ∈ ls} - sInf {v | v ∈ ls})))) * (sInf {v | v ∈ ls} + 0.7 * (sSup {v | v ∈ ls} - sInf {v | v ∈ ls}) - t) := by
    intro t
    have h1 : c * sInf {v | v ∈ ls} + 0.7 * (c * sSup {v | v ∈ ls} - c * sInf {v | v ∈ ls}) - c * t = c * (sInf {v | v ∈ ls} + 0.7 * (sSup {v | v ∈ ls} - sInf {v | v ∈ ls}) - t) := by ring
    have h2 : 0.1 * (c * sSup {v | v ∈ ls} - c * sInf {v | v ∈ ls}) = c * (0.1 * (sSup {v | v ∈ ls} - sInf {v | v ∈ ls})) := by ring
    rw [h1, h2]
    have := hc.ne'
    by_cases h0 : 0.1 * (sSup {v | v ∈ ls} - sInf {v | v ∈ ls}) = 0
    · rw [h0]; simp
    · field_simp
  have k2 : ((fun t => 1 / (1 + Real.exp (-(2.1972 / (0.1 * (c * sSup {v | v ∈ ls} - c * sInf {v | v ∈ ls}))) * (c * sInf {v | v ∈ ls} + 0.7 * (c * sSup {v | v ∈ ls} - c * sInf {v | v ∈ ls}) - t)))) ∘ fun x => c * x) =
      fun t => 1 / (1 + Real.exp (-(2.1972 / (0.1 * (sSup {v | v ∈ ls} - sInf {v | v ∈ ls}))) * (sInf {v | v ∈ ls} + 0.7 * (sSup {v | v ∈ ls} - sInf {v | v ∈ ls}) - t))) := by
    funext t
    simp only [Function.comp, k]
  rw [k2, k]

theorem misfit_times (weight : Bool) {ev : List (ℝ × ℝ)} {γ γ' : ℝ → ℝ} (h : ∀ e ∈ ev, γ' (c * e.1) = γ e.1) :
    misfit weight (ev.map fun e => (c * e.1, e.2)) γ' = misfit weight ev γ := by
  unfold misfit
  rw [List.map_map]
  congr 1
  refine List.map_congr_left fun e he => ?_
  have e1 : (ev.map fun e => (c * e.1, e.2)).map Prod.fst = (ev.map Prod.fst).map (c * ·) := by simp [List.map_map, Function.comp_def]
  simp only [Function.comp]
  rw [e1, weightOf_times hc, h e he]

theorem greatest_times {ls : List ℝ} {L : ℝ} (h : IsGreatest {v | v ∈ ls} L) : IsGreatest {v | v ∈ ls.map (c * ·)} (c * L) := by
  refine ⟨List.mem_map.2 ⟨L, h.1, rfl⟩, fun v hv => ?_⟩
  obtain ⟨t, ht, rfl⟩ := List.mem_map.1 hv
  exact mul_le_mul_of_nonneg_left (h.2 ht) hc.le

theorem within_times {model : String} {S L : ℝ} {ps : List ℝ} (h : WithinBounds model S L ps) :
    WithinBounds model S (c * L) (inUnit c model ps) := by
  unfold WithinBounds at h ⊢
  by_cases hm : model = "linear"
  · rw [if_pos hm] at h ⊢
    obtain ⟨a, b, rfl, h1, h2⟩ := h
    exact ⟨a / c, b, rfl, div_nonneg h1 hc.le, h2⟩
  rw [if_neg hm] at h ⊢
  by_cases hm' : model = "power"
  · rw [if_pos hm'] at h ⊢
    obtain ⟨a, b, n, rfl, h1, h2⟩ := h
    exact ⟨a / c ^ b, b, n, if_pos hm', div_nonneg h1 (Real.rpow_nonneg hc.le _), h2⟩
  · rw [if_neg hm'] at h ⊢
    obtain ⟨a, b, n, rfl, h1, h2, h3, h4, h5⟩ := h
    exact ⟨a, c * b, n, if_neg hm', h1, h2, mul_nonneg hc.le h3, mul_le_mul_of_nonneg_left h4 hc.le, h5⟩

theorem builtin_times {model : String} {S L : ℝ} {ps : List ℝ} {γ : ℝ → ℝ} (hw : WithinBounds model S L ps) (h : Builtin model ps γ) :
    ∃ γ', Builtin model (inUnit c model ps) γ' ∧ ∀ d, 0 ≤ d → γ' (c * d) = γ d := by
  unfold WithinBounds at hw
  by_cases hm : model = "linear"
  · subst hm
    rw [if_pos rfl] at hw
    obtain ⟨a, b, rfl, -⟩ := hw
    obtain rfl := builtin_linear.1 h
    refine ⟨_, builtin_linear.2 rfl, fun d _ => ?_⟩
    simp only [linearFormula]
    have := hc.ne'
    field_simp
  rw [if_neg hm] at hw
  by_cases hm' : model = "power"
  · subst hm'
    rw [if_pos rfl] at hw
    obtain ⟨a, b, n, rfl, -⟩ := hw
    obtain rfl := builtin_power.1 h
    refine ⟨_, builtin_power.2 rfl, fun d hd => ?_⟩
    simp only [powerFormula]
    have := (Real.rpow_pos_of_pos hc b).ne'
    rw [Real.mul_rpow hc.le hd]
    field_simp
  rw [if_neg hm'] at hw
  obtain ⟨a, b, n, rfl, -⟩ := hw
  have e : inUnit c model [a, b, n] = [a, c * b, n] := if_neg hm'
  rw [e]
  by_cases h1 : model = "gaussian"
  · subst h1
    obtain rfl := builtin_gaussian.1 h
    exact ⟨_, builtin_gaussian.2 rfl, fun d _ => gaussian_unit hc _ _ _ _⟩
  by_cases h2 : model = "spherical"
  · subst h2
    obtain rfl := builtin_spherical.1 h
    exact ⟨_, builtin_spherical.2 rfl, fun d _ => spherical_unit hc _ _ _ _⟩
  by_cases h3 : model = "exponential"
  · subst h3
    obtain rfl := builtin_exponential.1 h
    exact ⟨_, builtin_exponential.2 rfl, fun d _ => exponential_unit hc _ _ _ _⟩
  by_cases h4 : model = "hole-effect"
  · subst h4
    obtain rfl := builtin_hole.1 h
    exact ⟨_, builtin_hole.2 rfl, fun d _ => holeEffect_unit hc _ _ _ _⟩
  · obtain ⟨f, hf, -⟩ := h
    simp [variogramDict, hm, hm', h1, h2, h3, h4] at hf

theorem inUnit_inv {model : String} {S L : ℝ} {ps : List ℝ} (hw : WithinBounds model S L ps) :
    inUnit c⁻¹ model (inUnit c model ps) = ps := by
  have hc' := hc.ne'
  unfold WithinBounds at hw
  by_cases hm : model = "linear"
  · subst hm
    rw [if_pos rfl] at hw
    obtain ⟨a, b, rfl, -⟩ := hw
    simp only [inUnit]
    congr 1
    field_simp
  rw [if_neg hm] at hw
  by_cases hm' : model = "power"
  · subst hm'
    rw [if_pos rfl] at hw
    obtain ⟨a, b, n, rfl, -⟩ := hw
    simp only [inUnit, if_true]
    congr 1
    rw [Real.inv_rpow hc.le]
    have := (Real.rpow_pos_of_pos hc b).ne'
    field_simp
  · rw [if_neg hm'] at hw
    obtain ⟨a, b, n, rfl, -⟩ := hw
    simp only [inUnit, if_neg hm']
    congr 2
    field_simp

theorem best_times {model : String} {weight : Bool} {ev : List (ℝ × ℝ)} (h0 : ∀ e ∈ ev, 0 ≤ e.1) {ps : List ℝ}
    (h : BestFit model weight ev ps) : BestFit model weight (ev.map fun e => (c * e.1, e.2)) (inUnit c model ps) := by
  obtain ⟨S, L, hS, hL, hw, γ, hb, hbest⟩ := h
  have e1 : (ev.map fun e => (c * e.1, e.2)).map Prod.fst = (ev.map Prod.fst).map (c * ·) := by simp [List.map_map, Function.comp_def]
  have e2 : (ev.map fun e => (c * e.1, e.2)).map Prod.snd = ev.map Prod.snd := by simp [List.map_map, Function.comp_def]
  obtain ⟨γ', hb', hg⟩ := builtin_times hc hw hb
  refine ⟨S, c * L, by rw [e2]; exact hS, by rw [e1]; exact greatest_times hc hL, within_times hc hw, γ', hb', fun ps₁ γ₁ hw₁ hb₁ => ?_⟩
  rw [misfit_times hc weight (γ := γ) fun e he => hg _ (h0 e he)]
  have hci : 0 < c⁻¹ := inv_pos.2 hc
  obtain ⟨γ₂, hb₂, hg₂⟩ := builtin_times hci hw₁ hb₁
  have hw₂ := within_times hci hw₁
  rw [inv_mul_cancel_left₀ hc.ne'] at hw₂
  refine (hbest _ _ hw₂ hb₂).trans (le_of_eq ?_)
  refine (misfit_times hc weight fun e he => ?_).symm
  have := hg₂ (c * e.1) (mul_nonneg hc.le (h0 e he))
  rw [inv_mul_cancel_left₀ hc.ne'] at this
  exact this.symm

/-! ### The experimental variogram -/

omit hc in
theorem forall₂_zip_tail {α β : Type} {R : α → β → Prop} {l : List α} {l' : List β} (h : List.Forall₂ R l l') :
    List.Forall₂ (fun a b => R a.1 b.1 ∧ R a.2 b.2) (l.zip l.tail) (l'.zip l'.tail) := by
  induction h with
  | nil => exact .nil
  | cons h1 h2 ih =>
    cases h2 with
    | nil => exact .nil
    | cons h3 h4 => exact .cons ⟨h1, h3⟩ ih

omit hc in
theorem filterMap_forall₂ {α β γ δ : Type} {R : α → β → Prop} {f : α → Option γ} {g : β → Option δ} {k : γ → δ}
    (hk : ∀ a b, R a b → g b = (f a).map k) {l : List α} {l' : List β} (h : List.Forall₂ R l l') :
    l'.filterMap g = (l.filterMap f).map k := by
  induction h with
  | nil => rfl
  | cons h1 _ ih =>
    rw [List.filterMap_cons, List.filterMap_cons, hk _ _ h1, ih]
    cases f _ <;> rfl

theorem binned_times {dg : List (ℝ × ℝ)} {dmin dmax : ℝ} (hmax : ∀ p ∈ dg, p.1 ≤ dmax) (nlags : ℕ) :
    binned (dg.map fun e => (c * e.1, e.2)) (binEdges (c * dmin) (c * dmax) nlags) =
      (binned dg (binEdges dmin dmax nlags)).map fun e => (c * e.1, e.2) := by
  set R : ℝ → ℝ → Prop := fun e e' => ∀ d ≤ dmax, (e ≤ d ↔ e' ≤ c * d) ∧ (d < e ↔ c * d < e') with hR
  have hE : List.Forall₂ R (binEdges dmin dmax nlags) (binEdges (c * dmin) (c * dmax) nlags) := by
    unfold binEdges
    dsimp only
    refine List.rel_append (R := R) ?_ (.cons (fun d hd => ?_) .nil)
    · rw [List.forall₂_map_left_iff, List.forall₂_map_right_iff, List.forall₂_same]
      intro k _ d _
      have : c * dmin + k * ((c * dmax - c * dmin) / nlags) = c * (dmin + k * ((dmax - dmin) / nlags)) := by ring
      rw [this, mul_le_mul_iff_of_pos_left hc, mul_lt_mul_iff_of_pos_left hc]
      exact ⟨Iff.rfl, Iff.rfl⟩
    · have h2 := mul_le_mul_of_nonneg_left hd hc.le
      refine ⟨iff_of_false ?_ ?_, iff_of_true ?_ ?_⟩ <;> linarith
  unfold binned
  refine filterMap_forall₂ (k := fun e : ℝ × ℝ => (c * e.1, e.2)) (fun a b hab => ?_) (forall₂_zip_tail hE)
  have hin : inBin (dg.map fun e => (c * e.1, e.2)) b.1 b.2 = (inBin dg a.1 a.2).map fun e => (c * e.1, e.2) := by
    unfold inBin
    rw [List.filter_map]
    congr 1
    refine List.filter_congr fun p hp => ?_
    simp only [Function.comp, decide_eq_decide]
    rw [(hab.1 p.1 (hmax p hp)).1, (hab.2 p.1 (hmax p hp)).2]
  dsimp only
  rw [hin, List.length_map]
  split
  · have hs : ∀ l : List (ℝ × ℝ), ((l.map fun e => (c * e.1, e.2)).map Prod.fst).sum = c * (l.map Prod.fst).sum := by
      intro l
      induction l with
      | nil => simp
      | cons e l ih => simp only [List.map_cons, List.sum_cons] at ih ⊢; rw [ih]; ring
    have hs2 : ∀ l : List (ℝ × ℝ), (l.map fun e => (c * e.1, e.2)).map Prod.snd = l.map Prod.snd := by
      intro l; simp [List.map_map, Function.comp_def]
    simp only [Option.map_some, mean, hs, hs2, List.length_map, mul_div_assoc]
  · rfl

theorem experimentalVariogram_times {n m m' : ℕ} {X : Fin n → Fin m → ℝ} {X' : Fin n → Fin m' → ℝ} {y : Fin n → ℝ} {nlags : ℕ} {ev : List (ℝ × ℝ)}
    (hX : ∀ i j, euclid (X' i) (X' j) = c * euclid (X i) (X j)) (h : experimentalVariogram X y nlags "euclidean" = .ok ev) :
    experimentalVariogram X' y nlags "euclidean" = .ok (ev.map fun e => (c * e.1, e.2)) := by
  unfold experimentalVariogram pairDistances at h ⊢
  rw [if_pos rfl] at h ⊢
  simp only [py_pure, py_ok_bind, py_bind_eq_ok] at h ⊢
  obtain ⟨dmax, h1, dmin, h2, h3⟩ := h
  set dg := (pdistPairs n).map fun p => (euclid (X p.1) (X p.2), (1 / 2) * (y p.1 - y p.2) ^ 2) with hdg
  have e : ((pdistPairs n).map fun p => (euclid (X' p.1) (X' p.2), (1 / 2) * (y p.1 - y p.2) ^ 2)) =
      dg.map fun e => (c * e.1, e.2) := by
    rw [hdg, List.map_map]
    refine List.map_congr_left fun p _ => ?_
    simp only [Function.comp, hX]
  have e1 : (dg.map fun e => (c * e.1, e.2)).map Prod.fst = (dg.map Prod.fst).map (c * ·) := by simp [List.map_map, Function.comp_def]
  rw [e, e1, amax_times hc, amin_times hc, h1, h2]
  have hmax : ∀ p ∈ dg, p.1 ≤ dmax := by
    intro p hp
    obtain ⟨v, hv, hv'⟩ := amax_spec (List.mem_map.2 ⟨p, hp, rfl⟩ : p.1 ∈ dg.map Prod.fst)
    cases h1.symm.trans hv
    exact hv'.2 (List.mem_map.2 ⟨p, hp, rfl⟩)
  refine ⟨_, rfl, _, rfl, ?_⟩
  cases h3
  rw [binned_times hc hmax]

end

theorem binned_nonneg {dg : List (ℝ × ℝ)} (h : ∀ p ∈ dg, 0 ≤ p.1) (edges : List ℝ) : ∀ e ∈ binned dg edges, 0 ≤ e.1 := by
  intro e he
  unfold binned at he
  obtain ⟨b, -, hb⟩ := List.mem_filterMap.1 he
  dsimp only at hb
  split at hb
  · obtain rfl := Option.some.inj hb
    unfold mean
    refine div_nonneg (List.sum_nonneg fun v hv => ?_) (Nat.cast_nonneg _)
    obtain ⟨p, hp, rfl⟩ := List.mem_map.1 hv
    exact h p (List.mem_of_mem_filter hp)
  · cases hb

theorem experimentalVariogram_nonneg {n m : ℕ} {X : Fin n → Fin m → ℝ} {y : Fin n → ℝ} {nlags : ℕ} {ct : String} {ev : List (ℝ × ℝ)}
    (h : experimentalVariogram X y nlags ct = .ok ev) : ∀ e ∈ ev, 0 ≤ e.1 := by
  unfold experimentalVariogram at h
  simp only [py_pure, py_bind_eq_ok] at h
  obtain ⟨pd, hpd, dmax, -, dmin, -, h⟩ := h
  cases h
  refine binned_nonneg (fun p hp => ?_) _
  unfold pairDistances at hpd
  split_ifs at hpd
  · cases hpd
    obtain ⟨q, -, rfl⟩ := List.mem_map.1 hp
    exact Real.sqrt_nonneg _
  · cases hpd
    obtain ⟨q, -, rfl⟩ := List.mem_map.1 hp
    exact greatCircleDistance_nonneg _ _ _ _

/-! ### The constructor's fit -/

section
variable {env : Env} {n m : ℕ} {X : Fin n → Fin m → ℝ} {y : Fin n → ℝ} {nm : String} {f : VFun} {nlags : ℕ} {weight : Bool} {ct : String}
  {ev : List (ℝ × ℝ)} {ps : List ℝ}

theorem init_auto (h : initializeVariogramModel env X y nm none f nlags weight ct = .ok (ev, ps)) :
    nm ≠ "custom" ∧ experimentalVariogram X y nlags ct = .ok ev ∧
      calculateVariogramModel env (ev.map Prod.fst) (ev.map Prod.snd) nm f weight = .ok ps ∧ ev ≠ [] := by
  unfold initializeVariogramModel at h
  simp only [py_pure, py_bind_eq_ok] at h
  obtain ⟨ev', h1, h2⟩ := h
  split at h2
  · cases h2
  next hcu =>
  simp only [py_bind_eq_ok] at h2
  obtain ⟨ps', h2, h3⟩ := h2
  cases h3
  refine ⟨hcu, h1, h2, ?_⟩
  rintro rfl
  unfold calculateVariogramModel at h2
  simp only [List.map_nil, py_bind_eq_ok] at h2
  obtain ⟨p, hp, -⟩ := h2
  unfold lsqProblem amax at hp
  split_ifs at hp <;> cases hp

theorem init_best (ho : LsqOptimal env) (hf : variogramDict nm = some f)
    (h : initializeVariogramModel env X y nm none f nlags weight ct = .ok (ev, ps)) (hex : ∃ ps₀, BestFit nm weight ev ps₀) :
    BestFit nm weight ev ps := by
  obtain ⟨-, h1, h2, h3⟩ := init_auto h
  exact fit_best ho hf h3 h2 hex

/-- An exact fit is a best fit, and then all best fits are exact. -/
theorem best_exact {S L : ℝ} {ps₀ : List ℝ} {γ₀ : ℝ → ℝ} (hS : IsGreatest {v | v ∈ ev.map Prod.snd} S)
    (hL : IsGreatest {v | v ∈ ev.map Prod.fst} L) (hw : WithinBounds nm S L ps₀) (hb : Builtin nm ps₀ γ₀) (he : ∀ e ∈ ev, γ₀ e.1 = e.2) :
    BestFit nm weight ev ps₀ ∧ ∀ ps, BestFit nm weight ev ps → ∃ γ, Builtin nm ps γ ∧ ∀ e ∈ ev, γ e.1 = e.2 := by
  refine ⟨⟨S, L, hS, hL, hw, γ₀, hb, fun ps' γ' _ _ => by rw [misfit_exact he]; exact misfit_nonneg _ _ _⟩, ?_⟩
  rintro ps ⟨S', L', hS', hL', hw', γ, hb', hbest⟩
  cases hS.unique hS'
  cases hL.unique hL'
  refine ⟨γ, hb', misfit_zero (weight := weight) ?_⟩
  have := hbest ps₀ γ₀ hw hb
  rwa [misfit_exact he] at this

theorem init_two_lags (h : initializeVariogramModel env X y "linear" none f nlags weight ct = .ok (ev, ps)) :
    ∃ a ∈ ev, ∃ b ∈ ev, a.1 < b.1 := by
  obtain ⟨-, -, h2, h3⟩ := init_auto h
  obtain ⟨s, S, k1, k2, -, -, -⟩ := extremes (l := ev.map Prod.snd) (by simpa using h3)
  obtain ⟨l, L, k3, k4, kl, kL, hlL⟩ := extremes (l := ev.map Prod.fst) (by simpa using h3)
  unfold calculateVariogramModel at h2
  rw [lsqProblem_linear k1 k2 k3 k4] at h2
  simp only [py_ok_bind, py_bind_eq_ok] at h2
  obtain ⟨⟨⟩, hck, -⟩ := h2
  obtain ⟨-, hx⟩ := (lsqChecks_iff _).1 hck
  have hne : ¬ L - l = 0 := by
    intro h0
    obtain ⟨v, hv, -⟩ := hx (if L - l = 0 then none else some ((S - s) / (L - l)), 0, ⊤) (by simp)
    simp only [if_pos h0] at hv
    cases hv
  obtain ⟨a, ha, rfl⟩ := List.mem_map.1 kl.1
  obtain ⟨b, hb, rfl⟩ := List.mem_map.1 kL.1
  exact ⟨a, ha, b, hb, lt_of_le_of_ne hlL fun e => hne (by rw [e]; ring)⟩

/-- Two points determine a line. -/
theorem line_unique (ho : LsqOptimal env) (hf : variogramDict "linear" = some f)
    (h : initializeVariogramModel env X y "linear" none f nlags weight ct = .ok (ev, ps)) {slope nugget : ℝ} (h1 : 0 ≤ slope) (h2 : 0 ≤ nugget)
    (he : ∀ e ∈ ev, slope * e.1 + nugget = e.2) : ps = [slope, nugget] := by
  obtain ⟨-, hev, -, h3⟩ := init_auto h
  obtain ⟨a, ha, b, hb, hab⟩ := init_two_lags h
  obtain ⟨s, S, -, -, -, kS, -⟩ := extremes (l := ev.map Prod.snd) (by simpa using h3)
  obtain ⟨l, L, -, -, -, kL, -⟩ := extremes (l := ev.map Prod.fst) (by simpa using h3)
  have h0 := experimentalVariogram_nonneg hev
  have hw : WithinBounds "linear" S L [slope, nugget] := by
    unfold WithinBounds
    rw [if_pos rfl]
    obtain ⟨e, hm, rfl⟩ := List.mem_map.1 kS.1
    exact ⟨slope, nugget, rfl, h1, h2, by rw [← he e hm]; nlinarith [h0 e hm, mul_nonneg h1 (h0 e hm)]⟩
  obtain ⟨k1, k2⟩ := best_exact (weight := weight) kS kL hw (builtin_linear.2 rfl) he
  have hbf := init_best ho hf h ⟨_, k1⟩
  obtain ⟨γ, hγ, hex⟩ := k2 _ hbf
  obtain ⟨S', L', -, -, hw', -⟩ := hbf
  unfold WithinBounds at hw'
  rw [if_pos rfl] at hw'
  obtain ⟨sl, nu, rfl, -⟩ := hw'
  rw [builtin_linear] at hγ
  subst hγ
  have ea : sl * a.1 + nu = slope * a.1 + nugget := (hex a ha).trans (he a ha).symm
  have eb : sl * b.1 + nu = slope * b.1 + nugget := (hex b hb).trans (he b hb).symm
  have e1 : sl = slope := by
    have : (sl - slope) * (b.1 - a.1) = 0 := by linarith
    rcases mul_eq_zero.1 this with h | h <;> linarith
  subst e1
  have e2 : nu = nugget := by linarith
  rw [e2]

theorem init_unit {c : ℝ} (hc : 0 < c) {m' : ℕ} {X' : Fin n → Fin m' → ℝ} {ev' : List (ℝ × ℝ)} {ps' : List ℝ}
    (hX : ∀ i j, euclid (X' i) (X' j) = c * euclid (X i) (X j)) (ho : LsqOptimal env) (hf : variogramDict nm = some f)
    (h : initializeVariogramModel env X y nm none f nlags weight "euclidean" = .ok (ev, ps))
    (h' : initializeVariogramModel env X' y nm none f nlags weight "euclidean" = .ok (ev', ps'))
    (hu : ∃! q, BestFit nm weight ev q) :
    ev' = ev.map (fun e => (c * e.1, e.2)) ∧ ps' = inUnit c nm ps := by
  obtain ⟨-, h1, h2, h3⟩ := init_auto h
  obtain ⟨-, h1', h2', h3'⟩ := init_auto h'
  have e := experimentalVariogram_times hc hX h1
  cases h1'.symm.trans e
  refine ⟨rfl, ?_⟩
  obtain ⟨q, hq, huq⟩ := hu
  have b1 := fit_best ho hf h3 h2 ⟨q, hq⟩
  have b2 := fit_best ho hf h3' h2' ⟨_, best_times hc (experimentalVariogram_nonneg h1) hq⟩
  have hci : 0 < c⁻¹ := inv_pos.2 hc
  have h0 := experimentalVariogram_nonneg h1'
  have b3 := best_times hci h0 b2
  have e3 : (ev.map fun e => (c * e.1, e.2)).map (fun e => (c⁻¹ * e.1, e.2)) = ev := by
    rw [List.map_map]
    conv_rhs => rw [← List.map_id ev]
    refine List.map_congr_left fun e _ => ?_
    simp [Function.comp, inv_mul_cancel_left₀ hc.ne']
  rw [e3] at b3
  have e4 := (huq _ b1).trans (huq _ b3).symm
  obtain ⟨S, L, -, -, hw, -⟩ := b2
  have := inUnit_inv (c := c⁻¹) hci hw
  rw [inv_inv] at this
  rw [e4, this]

end

end
end PyKrige
