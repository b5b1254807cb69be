import Verif.Props.C19
import Verif.Lemmas.OKExec

/-!
# C20: variogram-fit statistics
-/

namespace PyKrige
noncomputable section
open Matrix

open Classical in
/-- Semivariances between the data and the prediction point, as the statistics use them: the first datum closer than
`1e-10` is taken to be at the same location. -/
def Spec.semivarToFirst {n : ℕ} (γ : ℝ → ℝ) (d : Fin n → ℝ) (i : Fin n) : ℝ :=
  if d i ≤ 1 / 10 ^ 10 ∧ ∀ k < i, 1 / 10 ^ 10 < d k then 0 else γ (d i)

/-- The data before datum `i`. -/
def Spec.before {n : ℕ} (i : Fin n) (k : Fin i.val) : Fin n := ⟨k.val, k.isLt.trans i.isLt⟩

/-- No drift. -/
def Spec.noDrift {ι : Type} : Fin 0 → ι → ℝ := fun l => l.elim0

/-- `est` and `var` are estimate and variance of ordinary kriging at datum `i` from the data before it. -/
def Spec.PredictedFromBefore {n : ℕ} (D : Fin n → Fin n → ℝ) (y : Fin n → ℝ) (γ : ℝ → ℝ) (i : Fin n) (est var : ℝ) : Prop :=
  ∃ w ν μ, Spec.KrigingEqs (Spec.semivar γ fun a b => D (Spec.before i a) (Spec.before i b)) Spec.noDrift
      (Spec.semivarToFirst γ fun a => D (Spec.before i a) i) 0 1 w ν μ ∧
    est = Spec.estimate w (fun a => y (Spec.before i a)) ∧
    var = Spec.krigingVariance (Spec.semivarToFirst γ fun a => D (Spec.before i a) i) (0 : Fin 0 → ℝ) w ν μ

open Classical in
/-- `delta`, `sigma`, `epsilon` are the residuals, standard deviations and standardised residuals of predicting each
datum but the first from the data before it, in the order of the data, leaving out data predicted with a variance below
`1e-10`. -/
def Spec.IsStatistics {n : ℕ} (D : Fin n → Fin n → ℝ) (y : Fin n → ℝ) (γ : ℝ → ℝ) (st : Stats) : Prop :=
  ∃ est var : Fin n → ℝ, (∀ i, i.val ≠ 0 → Spec.PredictedFromBefore D y γ i (est i) (var i)) ∧
    let kept := (List.finRange n).filter fun i => i.val ≠ 0 ∧ 1 / 10 ^ 10 ≤ var i
    st.delta = kept.map (fun i => y i - est i) ∧ st.sigma = kept.map (fun i => √(var i)) ∧
    st.epsilon = kept.map fun i => (y i - est i) / √(var i)

open Spec

theorem pairDistance_comm {m : ℕ} (ct : String) (p q : Fin m → ℝ) : pairDistance ct p q = pairDistance ct q p := by
  unfold pairDistance
  split
  · exact euclid_comm p q
  · split
    · exact sphereDist_comm _ _
    · rfl

theorem krigeDistances_spec {n m : ℕ} {X : Fin n → Fin m → ℝ} {q : Fin m → ℝ} {ct : String}
    {d : Fin n → Fin n → ℝ} {bd : Fin n → ℝ} (h : krigeDistances X q ct = .ok (d, bd)) :
    d = (fun i j => pairDistance ct (X i) (X j)) ∧ bd = fun i => pairDistance ct (X i) q := by
  unfold krigeDistances at h
  split at h
  · next hc =>
    cases h
    refine ⟨?_, ?_⟩ <;> (funext i; try funext j) <;> (unfold pairDistance; rw [if_pos hc]; rfl)
  · next hc =>
    split at h
    · split at h
      · next hm =>
        cases h
        refine ⟨?_, ?_⟩
        · funext i j
          rw [pairDistance_comm]
          unfold pairDistance
          rw [if_neg hc, dif_pos hm, ← greatCircle_eq]
        · funext i
          unfold pairDistance
          rw [if_neg hc, dif_pos hm, ← greatCircle_eq]
      · cases h
    · cases h

theorem noDrift_eq {ι : Type} : (noDrift : Fin 0 → ι → ℝ) = noF := rfl

open Classical in
/-- The code's right-hand side. -/
def firstRhs {n : ℕ} (γ : ℝ → ℝ) (dd : Fin n → ℝ) : Fin (n + 1) → ℝ :=
  setAt (if ∃ i, |dd i| ≤ eps then
      (match ((List.finRange n).filter fun i => dd i ≤ eps).head? with
        | some k => setAt (setHead (fun _ => 0) n fun i => -γ (dd i)) k.val 0
        | none => setHead (fun _ => 0) n fun i => -γ (dd i))
      else setHead (fun _ => 0) n fun i => -γ (dd i)) n 1

open Classical in
theorem head_near {n : ℕ} (dd : Fin n → ℝ) (k : Fin n) :
    ((List.finRange n).filter fun i => dd i ≤ eps).head? = some k ↔ dd k ≤ eps ∧ ∀ j < k, eps < dd j := by
  set zi : List (Fin n) := (List.finRange n).filter fun i => dd i ≤ eps with hzi
  have hsorted : zi.Pairwise (· < ·) := (List.pairwise_lt_finRange n).filter _
  have hmem : ∀ j, j ∈ zi ↔ dd j ≤ eps := by intro j; simp [hzi]
  clear_value zi
  cases zi with
  | nil =>
    simp only [List.head?_nil, reduceCtorEq, false_iff, not_and]
    intro h
    exact absurd ((hmem k).2 h) (by simp)
  | cons a t =>
    rw [List.head?_cons]
    have hs := (List.pairwise_cons.1 hsorted).1
    constructor
    · intro e
      cases e
      refine ⟨(hmem _).1 (by simp), fun j hj => ?_⟩
      by_contra hc
      have := (hmem j).2 (not_lt.1 hc)
      rcases List.mem_cons.1 this with rfl | h
      · exact lt_irrefl _ hj
      · exact lt_asymm hj (hs j h)
    · rintro ⟨h1, h2⟩
      have hk := (hmem k).2 h1
      rcases List.mem_cons.1 hk with rfl | h
      · rfl
      · exact absurd ((hmem a).1 (by simp)) (not_le.2 (h2 a (hs k h)))

theorem firstRhs_comp {n : ℕ} (γ : ℝ → ℝ) (dd : Fin n → ℝ) (hd0 : ∀ i, 0 ≤ dd i) :
    firstRhs γ dd ∘ idx n 0 (n + 1) rfl = krigRhs (semivarToFirst γ dd) (0 : Fin 0 → ℝ) 1 := by
  classical
  funext r
  rcases r with i | l | ⟨⟩
  · have h1 : i.val ≠ n := by omega
    simp only [Function.comp, idx_inl, firstRhs, setAt, h1, if_false, krigRhs]
    unfold semivarToFirst
    have e1 : setHead (fun _ : Fin (n + 1) => (0 : ℝ)) n (fun i => -γ (dd i)) ⟨i.val, by omega⟩ = -γ (dd i) := by
      simp [setHead]
    by_cases hf : dd i ≤ 1 / 10 ^ 10 ∧ ∀ k < i, 1 / 10 ^ 10 < dd k
    · rw [if_pos hf, if_pos ⟨i, by rw [abs_of_nonneg (hd0 i)]; exact hf.1⟩, (head_near dd i).2 hf]
      simp [setAt]
    · rw [if_neg hf]
      split
      · cases hz : ((List.finRange n).filter fun i => dd i ≤ eps).head? with
        | some k =>
          have hk := (head_near dd k).1 hz
          have hne : i.val ≠ k.val := by
            intro e
            have : i = k := Fin.ext e
            subst this
            exact hf hk
          simp only [setAt, hne, if_false]
          exact e1
        | none => exact e1
      · exact e1
  · exact l.elim0
  · simp [firstRhs, setAt, krigRhs]

/-- What `_krige` computes. -/
theorem krige_spec {n m : ℕ} {X : Fin n → Fin m → ℝ} {y : Fin n → ℝ} {q : Fin m → ℝ} {f : VFun} {ps : List ℝ}
    {ct : String} {pseudo : Bool} {z ss : ℝ} (h : krige X y q f ps ct pseudo = .ok (z, ss)) :
    ∃ γ, f ps = .ok γ ∧ Solvable pseudo (semivar γ fun i j => pairDistance ct (X i) (X j)) noDrift ∧
      (z, ss) = krigAnswer pseudo (semivar γ fun i j => pairDistance ct (X i) (X j)) noDrift y
        (semivarToFirst γ fun i => pairDistance ct (X i) q) 0 := by
  unfold krige at h
  obtain ⟨⟨d, bd⟩, h1, h'⟩ := py_bind_eq_ok.1 h
  obtain ⟨rfl, rfl⟩ := krigeDistances_spec h1
  clear h h1
  dsimp only at h'
  obtain ⟨γ, h2, h⟩ := py_bind_eq_ok.1 h'
  clear h'
  refine ⟨γ, h2, ?_⟩
  clear h2
  set D : Fin n → Fin n → ℝ := fun i j => pairDistance ct (X i) (X j) with hD
  have ha := coreKrigingMatrix_submatrix n γ D
  have hb := firstRhs_comp γ (fun i => pairDistance ct (X i) q) fun i => pairDistance_nonneg _ _ _
  have hcode := code_answer (L := 0) rfl pseudo ha hb y
  unfold Solvable
  rw [noDrift_eq]
  cases pseudo with
  | true =>
    refine ⟨.inl rfl, ?_⟩
    rw [← hcode]
    exact (Except.ok.inj h).symm
  | false =>
    obtain ⟨res, h3, h4⟩ := py_bind_eq_ok.1 h
    have h3 : scipySolve (coreKrigingMatrix n γ D) (firstRhs γ fun i => pairDistance ct (X i) q) = .ok res := h3
    unfold scipySolve at h3
    split at h3
    · cases h3
    · next hdet =>
      refine ⟨.inr ?_, ?_⟩
      · rw [regular_iff_det, ← det_eq_of_submatrix rfl ha]
        exact hdet
      · rw [← hcode]
        have h3 := Except.ok.inj h3
        subst h3
        exact (Except.ok.inj h4).symm

/-- One pass of the loop. -/
theorem statEntry_spec {n m : ℕ} {X : Fin n → Fin m → ℝ} {y : Fin n → ℝ} {f : VFun} {ps : List ℝ}
    {ct : String} {pseudo : Bool} {i : Fin n} {o : Option (ℝ × ℝ)} {γ : ℝ → ℝ} (hγ : f ps = .ok γ)
    (h : statEntry X y f ps ct pseudo i = .ok o)
    (hp : pseudo = false ∨ Regular (semivar γ fun a b : Fin i.val =>
      pairDistance ct (X (before i a)) (X (before i b))) (noDrift : Fin 0 → Fin i.val → ℝ)) :
    ∃ est var, PredictedFromBefore (fun i j => pairDistance ct (X i) (X j)) y γ i est var ∧
      o = open Classical in if 1 / 10 ^ 10 ≤ var then some (y i - est, √var) else none := by
  unfold statEntry at h
  obtain ⟨⟨est, var⟩, h1, h⟩ := py_bind_eq_ok.1 h
  obtain ⟨γ', hγ', hs, he⟩ := krige_spec h1
  obtain rfl : γ = γ' := by rw [hγ] at hγ'; exact Except.ok.inj hγ'
  have hr : Regular (semivar γ fun a b : Fin i.val =>
      pairDistance ct (X (before i a)) (X (before i b))) (noDrift : Fin 0 → Fin i.val → ℝ) := by
    rcases hs with hs | hs
    · rcases hp with hp | hp
      · rw [hp] at hs; cases hs
      · exact hp
    · exact hs
  refine ⟨est, var, ?_, ?_⟩
  · have e := krigAnswer_of_regular hr pseudo (fun a => y (before i a))
      (semivarToFirst γ fun a : Fin i.val => pairDistance ct (X (before i a)) (X i)) 0
    obtain ⟨w, ν, μ, e1, e2⟩ := krigAnswer_spec hr (fun a => y (before i a))
      (semivarToFirst γ fun a : Fin i.val => pairDistance ct (X (before i a)) (X i)) 0
    have he' := he.trans (e.trans e2)
    exact ⟨w, ν, μ, e1, congrArg Prod.fst he', congrArg Prod.snd he'⟩
  · dsimp only at h
    have e10 : eps = 1 / 10 ^ 10 := rfl
    split at h
    · next h1 =>
      rw [if_neg (fun hc => by
        rw [abs_of_nonneg ((by positivity : (0 : ℝ) ≤ 1 / 10 ^ 10).trans hc), e10] at h1
        exact absurd hc (not_le.2 h1))]
      exact (Except.ok.inj h).symm
    · next h1 =>
      split at h
      · next h2 =>
        rw [if_neg (fun hc => absurd h2 (not_lt.2 ((by positivity : (0 : ℝ) ≤ 1 / 10 ^ 10).trans hc)))]
        exact (Except.ok.inj h).symm
      · next h2 =>
        rw [abs_of_nonneg (not_lt.1 h2), e10, not_lt] at h1
        rw [if_pos h1]
        split at h
        · exact (Except.ok.inj h).symm
        · next h3 =>
          exfalso
          apply h3
          rw [e10, gt_iff_lt, Real.lt_sqrt (by positivity)]
          refine lt_of_lt_of_le ?_ h1
          norm_num

/-- The statistics are the standardised residuals of predicting each datum from those before it. -/
theorem C20_statistics {n m : ℕ} {X : Fin n → Fin m → ℝ} {y : Fin n → ℝ} {f : VFun} {ps : List ℝ}
    {ct : String} {pseudo : Bool} {st : Stats} {γ : ℝ → ℝ} (hγ : f ps = .ok γ)
    (h : findStatistics X y f ps ct pseudo = .ok st)
    (hp : pseudo = false ∨ ∀ i : Fin n, Regular (semivar γ fun a b : Fin i.val =>
      pairDistance ct (X (before i a)) (X (before i b))) (noDrift : Fin 0 → Fin i.val → ℝ)) :
    IsStatistics (fun i j => pairDistance ct (X i) (X j)) y γ st := by
  classical
  unfold findStatistics at h
  obtain ⟨entries, h1, h2⟩ := py_bind_eq_ok.1 h
  have h2 := (Except.ok.inj h2).symm
  subst h2
  have hall : ∀ i : Fin n, i.val ≠ 0 → ∃ est var,
      PredictedFromBefore (fun i j => pairDistance ct (X i) (X j)) y γ i est var ∧
      statEntry X y f ps ct pseudo i = .ok (if 1 / 10 ^ 10 ≤ var then some (y i - est, √var) else none) := by
    intro i hi
    have hmem : i ∈ (List.finRange n).filter fun i => decide (i.val ≠ 0) := by simp [hi]
    obtain ⟨k, hk, hke⟩ := List.mem_iff_getElem.1 hmem
    have hF := py_mapM_eq_ok.1 h1
    obtain ⟨o, ho⟩ : ∃ o, statEntry X y f ps ct pseudo i = .ok o := by
      have := (List.forall₂_iff_get.1 hF).2 k hk (by rw [← hF.length_eq]; exact hk)
      rw [List.get_eq_getElem, hke] at this
      exact ⟨_, this⟩
    obtain ⟨est, var, e1, e2⟩ := statEntry_spec hγ ho (hp.imp id fun h => h i)
    exact ⟨est, var, e1, e2 ▸ ho⟩
  choose! est var hpred hent using hall
  refine ⟨est, var, hpred, ?_⟩
  have hent' : entries = ((List.finRange n).filter fun i => decide (i.val ≠ 0)).map fun i =>
      if 1 / 10 ^ 10 ≤ var i then some (y i - est i, √(var i)) else none := by
    have hF := py_mapM_eq_ok.1 h1
    refine List.ext_getElem (by rw [List.length_map, hF.length_eq]) fun k hk hk' => ?_
    rw [List.length_map] at hk'
    have := (List.forall₂_iff_get.1 hF).2 k hk' hk
    rw [List.get_eq_getElem, List.get_eq_getElem] at this
    have hm : ((List.finRange n).filter fun i => decide (i.val ≠ 0))[k] ∈
        (List.finRange n).filter fun i => decide (i.val ≠ 0) := List.getElem_mem _
    have hne := (List.mem_filter.1 hm).2
    rw [decide_eq_true_eq] at hne
    rw [hent _ hne] at this
    rw [List.getElem_map]
    exact (Except.ok.inj this).symm
  have hkept : entries.filterMap id = ((List.finRange n).filter fun i => decide (i.val ≠ 0 ∧ 1 / 10 ^ 10 ≤ var i)).map
      fun i => (y i - est i, √(var i)) := by
    rw [hent']
    generalize List.finRange n = l
    clear * -
    induction l with
    | nil => rfl
    | cons i l ih =>
      by_cases h1 : i.val = 0
      · simpa [h1] using ih
      · by_cases h2 : 1 / 10 ^ 10 ≤ var i
        · rw [List.filter_cons_of_pos (by simp [h1]), List.filter_cons_of_pos (by simp only [decide_eq_true_eq]; exact ⟨h1, h2⟩),
            List.map_cons, List.map_cons, if_pos h2, List.filterMap_cons, ih]
          rfl
        · rw [List.filter_cons_of_pos (by simp [h1]), List.filter_cons_of_neg (by simp only [decide_eq_true_eq]; exact fun h => h2 h.2),
            List.map_cons, if_neg h2, List.filterMap_cons, ih]
          rfl
  dsimp only
  rw [hkept]
  simp only [List.map_map]
  exact ⟨rfl, rfl, rfl⟩

/-- The three lists have equal length, at most one less than there are data; standard deviations are positive, in fact
at least `1e-5`; standardised residuals are the quotients. -/
theorem C20_wellformed {n m : ℕ} {X : Fin n → Fin m → ℝ} {y : Fin n → ℝ} {f : VFun} {ps : List ℝ}
    {ct : String} {pseudo : Bool} {st : Stats} (h : findStatistics X y f ps ct pseudo = .ok st) :
    st.delta.length = st.sigma.length ∧ st.epsilon.length = st.sigma.length ∧ st.sigma.length ≤ n - 1 ∧
    (∀ s ∈ st.sigma, 1 / 10 ^ 5 ≤ s) ∧ st.epsilon = List.zipWith (· / ·) st.delta st.sigma := by
  classical
  unfold findStatistics at h
  obtain ⟨entries, h1, h2⟩ := py_bind_eq_ok.1 h
  have h2 := (Except.ok.inj h2).symm
  subst h2
  have hF := py_mapM_eq_ok.1 h1
  refine ⟨by simp, by simp, ?_, ?_, ?_⟩
  · dsimp only
    rw [List.length_map]
    refine (List.length_filterMap_le _ _).trans ?_
    rw [← hF.length_eq]
    cases n with
    | zero => simp
    | succ k =>
      rw [List.finRange_succ, List.filter_cons_of_neg (by simp)]
      refine (List.length_filter_le _ _).trans ?_
      simp
  · intro s hs
    obtain ⟨p, hp, rfl⟩ := List.mem_map.1 hs
    obtain ⟨o, ho, hop⟩ := List.mem_filterMap.1 hp
    obtain ⟨k, hk, hke⟩ := List.mem_iff_getElem.1 ho
    have := (List.forall₂_iff_get.1 hF).2 k (by rw [hF.length_eq]; exact hk) hk
    rw [List.get_eq_getElem, List.get_eq_getElem, hke] at this
    generalize ((List.finRange n).filter fun i => decide (i.val ≠ 0))[k]'_ = i at this
    have e : o = some p := hop
    rw [e] at this
    unfold statEntry at this
    obtain ⟨⟨est, var⟩, h1, h⟩ := py_bind_eq_ok.1 this
    dsimp only at h
    split at h
    · cases h
    · next g1 =>
      split at h
      · cases h
      · next g2 =>
        split at h
        · have hh : (y i - est, √var) = p := Option.some.inj (Except.ok.inj h)
          rw [← hh]
          rw [abs_of_nonneg (not_lt.1 g2), not_lt] at g1
          have g1 : 1 / 10 ^ 10 ≤ var := g1
          exact Real.le_sqrt_of_sq_le (by norm_num at g1 ⊢; exact g1)
        · cases h
  · dsimp only
    rw [List.zipWith_map, List.zipWith_self]

/-- Appending data does not change the statistics of the earlier data: they are a prefix of the new ones. -/
theorem C20_causal {n N m : ℕ} (hnN : n ≤ N) {X : Fin N → Fin m → ℝ} {y : Fin N → ℝ} {f : VFun} {ps : List ℝ}
    {ct : String} {pseudo : Bool} {st : Stats} (h : findStatistics X y f ps ct pseudo = .ok st) :
    ∃ st₀, findStatistics (fun i : Fin n => X (Fin.castLE hnN i)) (fun i => y (Fin.castLE hnN i)) f ps ct pseudo =
        .ok st₀ ∧
      st₀.delta <+: st.delta ∧ st₀.sigma <+: st.sigma ∧ st₀.epsilon <+: st.epsilon := by
  obtain ⟨k, rfl⟩ := Nat.exists_eq_add_of_le hnN
  unfold findStatistics at h ⊢
  obtain ⟨entries, h1, h2⟩ := py_bind_eq_ok.1 h
  have h2 := (Except.ok.inj h2).symm
  subst h2
  have hsplit : (List.finRange (n + k)).filter (fun i => decide (i.val ≠ 0)) =
      ((List.finRange n).filter fun i => decide (i.val ≠ 0)).map (Fin.castLE hnN) ++
        (((List.finRange k).map (Fin.natAdd n)).filter fun i => decide (i.val ≠ 0)) := by
    have e : List.finRange (n + k) = (List.finRange n).map (Fin.castLE hnN) ++ (List.finRange k).map (Fin.natAdd n) := by
      refine List.ext_getElem (by simp) fun i h1 h2 => ?_
      rw [List.getElem_append]
      split
      · simp [Fin.ext_iff]
      · next hlt =>
        simp only [List.length_map, List.length_finRange, not_lt] at hlt
        apply Fin.ext
        simp [hlt]
    rw [e, List.filter_append]
    congr 1
    rw [List.filter_map]
    rfl
  rw [hsplit, List.mapM_append] at h1
  obtain ⟨e1, g1, g2⟩ := py_bind_eq_ok.1 h1
  obtain ⟨e2, -, g3⟩ := py_bind_eq_ok.1 g2
  have g3 : e1 ++ e2 = entries := Except.ok.inj g3
  subst g3
  have hF1 := py_mapM_eq_ok.1 g1
  have hF1' : List.Forall₂ (fun i o => statEntry (fun i : Fin n => X (Fin.castLE hnN i)) (fun i => y (Fin.castLE hnN i))
      f ps ct pseudo i = .ok o) ((List.finRange n).filter fun i => decide (i.val ≠ 0)) e1 := by
    rw [List.forall₂_map_left_iff] at hF1
    exact hF1
  refine ⟨_, py_bind_eq_ok.2 ⟨e1, py_mapM_eq_ok.2 hF1', rfl⟩, ?_, ?_, ?_⟩ <;> dsimp only <;>
    rw [List.filterMap_append, List.map_append] <;> exact List.prefix_append _ _

/-- The summary statistics: `Q1`, `Q2` and `cR` are the stated means, and non-negative. -/
theorem C20_summary {n m : ℕ} {X : Fin n → Fin m → ℝ} {y : Fin n → ℝ} {f : VFun} {ps : List ℝ}
    {ct : String} {pseudo : Bool} {st : Stats} (h : findStatistics X y f ps ct pseudo = .ok st)
    (h2 : 2 ≤ st.epsilon.length) :
    calcQ1 st.epsilon = |st.epsilon.sum| / ((st.epsilon.length : ℝ) - 1) ∧
    calcQ2 st.epsilon = (st.epsilon.map fun e => e ^ 2).sum / ((st.epsilon.length : ℝ) - 1) ∧
    calcCR (calcQ2 st.epsilon) st.sigma =
      calcQ2 st.epsilon * ((st.sigma.map fun s => s ^ 2).prod) ^ (1 / (st.sigma.length : ℝ)) ∧
    0 ≤ calcQ1 st.epsilon ∧ 0 ≤ calcQ2 st.epsilon ∧ 0 ≤ calcCR (calcQ2 st.epsilon) st.sigma := by
  obtain ⟨w1, w2, -, w4, -⟩ := C20_wellformed h
  have hlen : (0 : ℝ) < (st.epsilon.length : ℝ) - 1 := by
    have : (2 : ℝ) ≤ st.epsilon.length := by exact_mod_cast h2
    linarith
  have hQ2 : 0 ≤ calcQ2 st.epsilon := by
    refine div_nonneg (List.sum_nonneg fun v hv => ?_) hlen.le
    obtain ⟨e, -, rfl⟩ := List.mem_map.1 hv
    positivity
  refine ⟨?_, rfl, ?_, abs_nonneg _, hQ2, mul_nonneg hQ2 (Real.exp_pos _).le⟩
  · unfold calcQ1
    rw [abs_div, abs_of_pos hlen]
  · unfold calcCR
    congr 1
    have hpos : ∀ s ∈ st.sigma, 0 < s := fun s hs => (by positivity : (0 : ℝ) < 1 / 10 ^ 5).trans_le (w4 s hs)
    have key : ∀ l : List ℝ, (∀ s ∈ l, 0 < s) → (l.map fun s => Real.log (s ^ 2)).sum =
        Real.log ((l.map fun s => s ^ 2).prod) ∧ 0 < (l.map fun s => s ^ 2).prod := by
      intro l
      induction l with
      | nil => intro _; simp
      | cons a l ih =>
        intro h
        obtain ⟨i1, i2⟩ := ih fun s hs => h s (by simp [hs])
        have ha : 0 < a ^ 2 := by have := h a (by simp); positivity
        rw [List.map_cons, List.map_cons, List.sum_cons, List.prod_cons, Real.log_mul ha.ne' i2.ne', i1]
        exact ⟨rfl, mul_pos ha i2⟩
    obtain ⟨k1, k2⟩ := key st.sigma hpos
    rw [k1, Real.rpow_def_of_pos k2, mul_one_div]

/-! ### The four classes -/

/-- The statistics an object stores, in terms of the distances between its data. -/
theorem C20_object_ok {n : ℕ} {env : Env} {x y z : Fin n → ℝ} {args : OKArgs} {s : OK n}
    (h : OK.create env x y z args = .ok s) (hs : args.enableStatistics = true) {γ : ℝ → ℝ}
    (hγ : s.variogramFunction s.params = .ok γ)
    (hp : args.pseudoInv = false ∨ ∀ i : Fin n, Regular (semivar γ fun a b : Fin i.val =>
      (fun i j => okDistance args (x i, y i) (x j, y j)) (before i a) (before i b)) (noDrift : Fin 0 → Fin i.val → ℝ)) :
    ∃ st, s.stats = some st ∧ IsStatistics (fun i j => okDistance args (x i, y i) (x j, y j)) z γ st := by
  have hd := (OK.create_dist h).1
  obtain ⟨hpt, exact, name, model, fArg, pArg, sc₀, an₀, f, fname, xc, yc, sc, an, adj, vp, lags, ps, stats,
    h1, h2, h3, h4, h5, h6, h7, rfl⟩ := OK.create_ok h
  rw [if_pos hs] at h7
  obtain ⟨st, h8, h9⟩ := py_map_eq_ok.1 h7
  subst h9
  have hD : (fun i j => okDistance args (x i, y i) (x j, y j)) =
      fun i j => pairDistance args.coordinatesType (adj i) (adj j) := by
    funext i j
    rw [← hd i j]
    unfold pairDistance OK.dataDist OK.pts
    dsimp only
    split
    · rw [vec2_eta, vec2_eta]; rfl
    · rw [dif_pos rfl, ← greatCircle_eq]; rfl
  refine ⟨st, rfl, ?_⟩
  rw [hD] at hp ⊢
  exact C20_statistics hγ h8 hp

/-- The statistics an object stores, in terms of the distances between its data. -/
theorem C20_object_ok3 {n : ℕ} {env : Env} {x y z v : Fin n → ℝ} {args : OK3DArgs} {s : OK3D n}
    (h : OK3D.create env x y z v args = .ok s) {γ : ℝ → ℝ}
    (hγ : s.variogramFunction s.params = .ok γ)
    (hp : args.pseudoInv = false ∨ ∀ i : Fin n, Regular (semivar γ fun a b : Fin i.val =>
      (fun i j => ok3Distance args (x i, y i, z i) (x j, y j, z j)) (before i a) (before i b)) (noDrift : Fin 0 → Fin i.val → ℝ)) :
    ∃ st, s.stats = some st ∧ IsStatistics (fun i j => ok3Distance args (x i, y i, z i) (x j, y j, z j)) v γ st := by
  have hd := (OK3D.create_dist h).1
  obtain ⟨hpt, exact, name, model, fArg, pArg, an, f, fname, xc, yc, zc, vp, lags, ps, stats,
    h1, h2, h3, h4, h5, h6, h7, h8, h9, rfl⟩ := OK3D.create_ok h
  have hD : (fun i j => ok3Distance args (x i, y i, z i) (x j, y j, z j)) =
      fun i j => pairDistance "euclidean" ((fun i => adjustPoint3 xc yc zc an (x i) (y i) (z i)) i) ((fun i => adjustPoint3 xc yc zc an (x i) (y i) (z i)) j) := by
    funext i j
    rw [← hd i j]
    unfold pairDistance OK3D.dataDist OK3D.pts
    dsimp only
    rw [if_pos rfl, vec3_eta, vec3_eta]
    rfl
  refine ⟨stats, rfl, ?_⟩
  rw [hD] at hp ⊢
  exact C20_statistics hγ h9 hp

/-- The statistics an object stores, in terms of the distances between its data. -/
theorem C20_object_uk {n : ℕ} {env : Env} {x y z : Fin n → ℝ} {args : UKArgs} {s : UK n}
    (h : UK.create env x y z args = .ok s) {γ : ℝ → ℝ}
    (hγ : s.variogramFunction s.params = .ok γ)
    (hp : args.pseudoInv = false ∨ ∀ i : Fin n, Regular (semivar γ fun a b : Fin i.val =>
      (fun i j => ukDistance args (x i, y i) (x j, y j)) (before i a) (before i b)) (noDrift : Fin 0 → Fin i.val → ℝ)) :
    ∃ st, s.stats = some st ∧ IsStatistics (fun i j => ukDistance args (x i, y i) (x j, y j)) z γ st := by
  have hd := (UK.create_dist h).1
  obtain ⟨hpt, exact, name, model, fArg, pArg, sc, an, f, fname, xc, yc, vp, lags, ps, stats, ext, plog, spec,
    func, h1, h2, h3, h4, h5, h6, h7, h8, h9, h10, h11, h12, rfl⟩ := UK.create_ok h
  have hD : (fun i j => ukDistance args (x i, y i) (x j, y j)) =
      fun i j => pairDistance "euclidean" ((adjustData2 x y xc yc sc an) i) ((adjustData2 x y xc yc sc an) j) := by
    funext i j
    rw [← hd i j]
    unfold pairDistance UK.dataDist UK.pts
    dsimp only
    rw [if_pos rfl, vec2_eta, vec2_eta]
    rfl
  refine ⟨stats, rfl, ?_⟩
  rw [hD] at hp ⊢
  exact C20_statistics hγ h8 hp

/-- The statistics an object stores, in terms of the distances between its data. -/
theorem C20_object_uk3 {n : ℕ} {env : Env} {x y z v : Fin n → ℝ} {args : UK3DArgs} {s : UK3D n}
    (h : UK3D.create env x y z v args = .ok s) {γ : ℝ → ℝ}
    (hγ : s.variogramFunction s.params = .ok γ)
    (hp : args.pseudoInv = false ∨ ∀ i : Fin n, Regular (semivar γ fun a b : Fin i.val =>
      (fun i j => uk3Distance args (x i, y i, z i) (x j, y j, z j)) (before i a) (before i b)) (noDrift : Fin 0 → Fin i.val → ℝ)) :
    ∃ st, s.stats = some st ∧ IsStatistics (fun i j => uk3Distance args (x i, y i, z i) (x j, y j, z j)) v γ st := by
  have hd := (UK3D.create_dist h).1
  obtain ⟨hpt, exact, name, model, fArg, pArg, an, f, fname, xc, yc, zc, vp, lags, ps, stats, spec, func,
    h1, h2, h3, h4, h5, h6, h7, h8, h9, h10, h11, rfl⟩ := UK3D.create_ok h
  have hD : (fun i j => uk3Distance args (x i, y i, z i) (x j, y j, z j)) =
      fun i j => pairDistance "euclidean" ((fun i => adjustPoint3 xc yc zc an (x i) (y i) (z i)) i) ((fun i => adjustPoint3 xc yc zc an (x i) (y i) (z i)) j) := by
    funext i j
    rw [← hd i j]
    unfold pairDistance UK3D.dataDist UK3D.pts
    dsimp only
    rw [if_pos rfl, vec3_eta, vec3_eta]
    rfl
  refine ⟨stats, rfl, ?_⟩
  rw [hD] at hp ⊢
  exact C20_statistics hγ h9 hp

/-- A concrete case (two data): statistics are computed, and the hypotheses hold. -/
example : ∃ (s : OK3D 2) (st : Stats), OK3D.create stdEnv Demo.X Demo.O Demo.O ![1, 3] (Demo.args3 0 true false) = .ok s ∧
    s.stats = some st ∧ IsStatistics (fun i j => ok3Distance (Demo.args3 0 true false) (Demo.X i, Demo.O i, Demo.O i)
      (Demo.X j, Demo.O j, Demo.O j)) ![1, 3] (fun d => d + 0) st := by
  obtain ⟨s, h, hp, hf, -⟩ := Demo.ok3 ![1, 3] 0 true false
  obtain ⟨st, h1, h2⟩ := C20_object_ok3 h (γ := fun d => d + 0) (by rw [hf, hp]; exact Demo.vario 0) (.inl rfl)
  exact ⟨s, st, h, h1, h2⟩

end
end PyKrige
