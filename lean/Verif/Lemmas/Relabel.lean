import Verif.Lemmas.OnlyDist
import Verif.Lemmas.Shift

/-! Permuting the data. -/

set_option linter.unusedSectionVars false

namespace PyKrige
noncomputable section
open Matrix Spec

/-! ### Lists -/

theorem foldl_max_perm {l l' : List ℝ} (h : l.Perm l') (a : ℝ) : l.foldl max a = l'.foldl max a :=
  h.foldl_eq' (fun x _ y _ z => by rw [max_assoc, max_assoc, max_comm x y]) a

theorem foldl_min_perm {l l' : List ℝ} (h : l.Perm l') (a : ℝ) : l.foldl min a = l'.foldl min a :=
  h.foldl_eq' (fun x _ y _ z => by rw [min_assoc, min_assoc, min_comm x y]) a

theorem amax_perm {l l' : List ℝ} (h : l.Perm l') : amax l = amax l' := by
  have key : ∀ (l : List ℝ) (a : ℝ), a ∈ l → ∃ m, amax l = .ok m ∧ m = l.foldl max a := by
    intro l a ha
    cases l with
    | nil => cases ha
    | cons b t =>
      refine ⟨_, rfl, ?_⟩
      rw [List.foldl_cons, max_comm a b]
      have : ∀ (t : List ℝ) (b : ℝ), a = b ∨ a ∈ t → t.foldl max b = t.foldl max (max b a) := by
        intro t
        induction t with
        | nil =>
          intro b hb
          rcases hb with rfl | hb
          · simp
          · cases hb
        | cons c t ih =>
          intro b hb
          rw [List.foldl_cons, List.foldl_cons]
          rcases hb with rfl | hb
          · rw [max_self]
          rcases List.mem_cons.1 hb with rfl | hb
          · rw [max_assoc, max_self]
          · rw [ih (max b c) (.inr hb), max_assoc, max_comm c a, ← max_assoc]
      exact this t b (List.mem_cons.1 ha)
  cases l with
  | nil => rw [h.nil_eq]
  | cons b t =>
    obtain ⟨m, h1, h2⟩ := key (b :: t) b List.mem_cons_self
    obtain ⟨m', h1', h2'⟩ := key l' b (h.mem_iff.1 List.mem_cons_self)
    rw [h1, h1', h2, h2', foldl_max_perm h]

theorem amin_perm {l l' : List ℝ} (h : l.Perm l') : amin l = amin l' := by
  have key : ∀ (l : List ℝ) (a : ℝ), a ∈ l → ∃ m, amin l = .ok m ∧ m = l.foldl min a := by
    intro l a ha
    cases l with
    | nil => cases ha
    | cons b t =>
      refine ⟨_, rfl, ?_⟩
      rw [List.foldl_cons, min_comm a b]
      have : ∀ (t : List ℝ) (b : ℝ), a = b ∨ a ∈ t → t.foldl min b = t.foldl min (min b a) := by
        intro t
        induction t with
        | nil =>
          intro b hb
          rcases hb with rfl | hb
          · simp
          · cases hb
        | cons c t ih =>
          intro b hb
          rw [List.foldl_cons, List.foldl_cons]
          rcases hb with rfl | hb
          · rw [min_self]
          rcases List.mem_cons.1 hb with rfl | hb
          · rw [min_assoc, min_self]
          · rw [ih (min b c) (.inr hb), min_assoc, min_comm c a, ← min_assoc]
      exact this t b (List.mem_cons.1 ha)
  cases l with
  | nil => rw [h.nil_eq]
  | cons b t =>
    obtain ⟨m, h1, h2⟩ := key (b :: t) b List.mem_cons_self
    obtain ⟨m', h1', h2'⟩ := key l' b (h.mem_iff.1 List.mem_cons_self)
    rw [h1, h1', h2, h2', foldl_min_perm h]

theorem mean_perm {l l' : List ℝ} (h : l.Perm l') : mean l = mean l' := by
  unfold mean; rw [h.sum_eq, h.length_eq]

theorem binned_perm {dg dg' : List (ℝ × ℝ)} (h : dg.Perm dg') (edges : List ℝ) : binned dg edges = binned dg' edges := by
  unfold binned
  congr 1
  funext e
  have hb : (inBin dg e.1 e.2).Perm (inBin dg' e.1 e.2) := h.filter _
  dsimp only
  rw [hb.length_eq, mean_perm (hb.map Prod.fst), mean_perm (hb.map Prod.snd)]

theorem ofFn_perm {n : ℕ} (v : Fin n → ℝ) (σ : Fin n ≃ Fin n) :
    (List.ofFn fun i => v (σ i)).Perm (List.ofFn v) := by
  rw [List.ofFn_eq_map, List.ofFn_eq_map]
  have : (List.finRange n).map (fun i => v (σ i)) = ((List.finRange n).map σ).map v := by rw [List.map_map]; rfl
  rw [this]
  refine List.Perm.map v ?_
  refine (List.perm_ext_iff_of_nodup ((List.nodup_finRange n).map σ.injective) (List.nodup_finRange n)).2 fun a => ?_
  simp only [List.mem_map, List.mem_finRange, true_and, iff_true]
  exact ⟨σ.symm a, by simp⟩

theorem midrange_perm {n : ℕ} (v : Fin n → ℝ) (σ : Fin n ≃ Fin n) : midrange (fun i => v (σ i)) = midrange v := by
  unfold midrange
  rw [amax_perm (ofFn_perm v σ), amin_perm (ofFn_perm v σ)]

theorem mem_pdistPairs {n : ℕ} (p : Fin n × Fin n) : p ∈ pdistPairs n ↔ p.1 < p.2 := by
  unfold pdistPairs
  simp only [List.mem_flatMap, List.mem_map, List.mem_filter, List.mem_finRange, true_and, decide_eq_true_eq]
  constructor
  · rintro ⟨i, j, h, rfl⟩; exact h
  · intro h; exact ⟨p.1, p.2, h, rfl⟩

theorem mem_lowerPairs {n : ℕ} (p : Fin n × Fin n) : p ∈ lowerPairs n ↔ p.2 < p.1 := by
  unfold lowerPairs
  simp only [List.mem_flatMap, List.mem_map, List.mem_filter, List.mem_finRange, true_and, decide_eq_true_eq]
  constructor
  · rintro ⟨i, j, h, rfl⟩; exact h
  · intro h; exact ⟨p.1, p.2, h, rfl⟩

theorem nodup_flatPairs {n : ℕ} (P : Fin n → Fin n → Bool) :
    ((List.finRange n).flatMap fun i => ((List.finRange n).filter fun j => P i j).map fun j => (i, j)).Nodup := by
  rw [List.nodup_flatMap]
  refine ⟨fun i _ => ((List.nodup_finRange n).filter _).map fun a b h => (Prod.mk.inj h).2, ?_⟩
  refine (List.nodup_finRange n).imp fun {i j} hij => ?_
  intro p hp hq
  simp only [List.mem_map, List.mem_filter] at hp hq
  obtain ⟨a, -, rfl⟩ := hp
  obtain ⟨b, -, hb⟩ := hq
  exact hij (Prod.mk.inj hb).1.symm

theorem nodup_pdistPairs (n : ℕ) : (pdistPairs n).Nodup := nodup_flatPairs _

theorem nodup_lowerPairs (n : ℕ) : (lowerPairs n).Nodup := nodup_flatPairs _

/-- A symmetric function of pairs, over all pairs: the numbering does not matter. -/
theorem pairs_perm {n : ℕ} {β : Type} (F : Fin n → Fin n → β) (hF : ∀ i j, F i j = F j i) (σ : Fin n ≃ Fin n)
    {l : List (Fin n × Fin n)} (hl : l.Nodup) (R : Fin n → Fin n → Prop) [DecidableRel R]
    (hR : ∀ i j, i ≠ j → (R i j ∧ ¬ R j i) ∨ (R j i ∧ ¬ R i j)) (hm : ∀ p, p ∈ l ↔ R p.1 p.2)
    (hirr : ∀ i, ¬ R i i) :
    (l.map fun p => F (σ p.1) (σ p.2)).Perm (l.map fun p => F p.1 p.2) := by
  let τ : Fin n × Fin n → Fin n × Fin n := fun p => if R (σ p.1) (σ p.2) then (σ p.1, σ p.2) else (σ p.2, σ p.1)
  have e : (l.map fun p => F (σ p.1) (σ p.2)) = (l.map τ).map fun p => F p.1 p.2 := by
    rw [List.map_map]
    refine List.map_congr_left fun p _ => ?_
    simp only [Function.comp, τ]
    split
    · rfl
    · exact hF _ _
  rw [e]
  refine List.Perm.map _ ?_
  have hne : ∀ p ∈ l, p.1 ≠ p.2 := by
    intro p hp hc
    have := (hm p).1 hp
    rw [hc] at this
    exact hirr _ this
  have hinj : ∀ p ∈ l, ∀ q ∈ l, τ p = τ q → p = q := by
    intro p hp q hq h
    simp only [τ] at h
    have hp' := (hm p).1 hp
    have hq' := (hm q).1 hq
    split at h <;> split at h <;> simp only [Prod.mk.injEq, EmbeddingLike.apply_eq_iff_eq] at h
    · exact Prod.ext h.1 h.2
    · exfalso
      rw [h.1, h.2] at hp'
      rcases hR q.1 q.2 (hne q hq) with h0 | h0
      · exact h0.2 hp'
      · exact h0.2 hq'
    · exfalso
      rw [← h.1, ← h.2] at hq'
      rcases hR p.1 p.2 (hne p hp) with h0 | h0
      · exact h0.2 hq'
      · exact h0.2 hp'
    · exact Prod.ext h.2 h.1
  refine (List.perm_ext_iff_of_nodup (hl.map_on hinj) hl).2 fun p => ?_
  rw [hm]
  constructor
  · intro hp
    obtain ⟨q, hq, rfl⟩ := List.mem_map.1 hp
    simp only [τ]
    split
    · assumption
    · next hn =>
      have hne' : σ q.1 ≠ σ q.2 := fun hc => hne q hq (σ.injective hc)
      rcases hR _ _ hne' with h0 | h0
      · exact absurd h0.1 hn
      · exact h0.1
  · intro hp
    have hpne : p.1 ≠ p.2 := by intro hc; rw [hc] at hp; exact hirr _ hp
    have hs : σ.symm p.1 ≠ σ.symm p.2 := fun hc => hpne (σ.symm.injective hc)
    rw [List.mem_map]
    rcases hR _ _ hs with h0 | h0
    · refine ⟨(σ.symm p.1, σ.symm p.2), (hm _).2 h0.1, ?_⟩
      simp [τ, hp]
    · refine ⟨(σ.symm p.2, σ.symm p.1), (hm _).2 h0.1, ?_⟩
      have : ¬ R p.2 p.1 := by
        rcases hR _ _ hpne with h1 | h1
        · exact h1.2
        · exact absurd hp h1.2
      simp [τ, this]

theorem euclid_symm {m : ℕ} (p q : Fin m → ℝ) : euclid p q = euclid q p := by
  unfold euclid
  congr 1
  exact Finset.sum_congr rfl fun k _ => by ring

/-- The pairs of the experimental variogram, up to their order. -/
theorem pairDistances_perm {n m : ℕ} (X : Fin n → Fin m → ℝ) (y : Fin n → ℝ) (ct : String) (σ : Fin n ≃ Fin n) :
    (∃ l l', pairDistances X y ct = .ok l ∧ pairDistances (fun i => X (σ i)) (fun i => y (σ i)) ct = .ok l' ∧
      l'.Perm l) ∨
    (pairDistances X y ct = .error .valueError ∧
      pairDistances (fun i => X (σ i)) (fun i => y (σ i)) ct = .error .valueError) := by
  unfold pairDistances
  split
  · left
    refine ⟨_, _, rfl, rfl, ?_⟩
    refine pairs_perm (fun i j => (euclid (X i) (X j), (1 / 2) * (y i - y j) ^ 2)) (fun i j => ?_) σ
      (nodup_pdistPairs n) (· < ·) (fun i j hij => ?_) mem_pdistPairs (fun i => lt_irrefl i)
    · rw [euclid_symm]; congr 1; ring
    · rcases lt_or_gt_of_ne hij with h | h
      · exact .inl ⟨h, h.not_gt⟩
      · exact .inr ⟨h, h.not_gt⟩
  · split
    · split
      · left
        refine ⟨_, _, rfl, rfl, ?_⟩
        refine pairs_perm (fun i j => (greatCircleDistance (X j ⟨0, by omega⟩) (X j ⟨1, by omega⟩)
          (X i ⟨0, by omega⟩) (X i ⟨1, by omega⟩), (1 / 2) * (y j - y i) ^ 2)) (fun i j => ?_) σ
          (nodup_lowerPairs n) (· > ·) (fun i j hij => ?_) mem_lowerPairs (fun i => lt_irrefl i)
        · rw [greatCircleDistance_comm]; congr 1; ring
        · rcases lt_or_gt_of_ne hij with h | h
          · exact .inr ⟨h, h.not_gt⟩
          · exact .inl ⟨h, h.not_gt⟩
      · exact .inr ⟨rfl, rfl⟩
    · exact .inr ⟨rfl, rfl⟩

theorem experimentalVariogram_perm {n m : ℕ} (X : Fin n → Fin m → ℝ) (y : Fin n → ℝ) (nlags : ℕ) (ct : String)
    (σ : Fin n ≃ Fin n) :
    experimentalVariogram (fun i => X (σ i)) (fun i => y (σ i)) nlags ct = experimentalVariogram X y nlags ct := by
  unfold experimentalVariogram
  rcases pairDistances_perm X y ct σ with ⟨l, l', h1, h2, hp⟩ | ⟨h1, h2⟩
  · rw [h1, h2]
    simp only [py_ok_bind]
    rw [amax_perm (hp.map Prod.fst), amin_perm (hp.map Prod.fst)]
    simp only [binned_perm hp]
  · rw [h1, h2]

theorem initialize_perm {n m : ℕ} (env : Env) (X : Fin n → Fin m → ℝ) (y : Fin n → ℝ) (model : String)
    (params : Option (List ℝ)) (f : VFun) (nlags : ℕ) (weight : Bool) (ct : String) (σ : Fin n ≃ Fin n) :
    initializeVariogramModel env (fun i => X (σ i)) (fun i => y (σ i)) model params f nlags weight ct =
      initializeVariogramModel env X y model params f nlags weight ct := by
  unfold initializeVariogramModel
  rw [experimentalVariogram_perm]

/-! ### The constructors -/

theorem OK.setupCoordinates_perm {n : ℕ} (x y : Fin n → ℝ) (ct : String) (sc an : ℝ) (σ : Fin n ≃ Fin n) :
    OK.setupCoordinates (fun i => x (σ i)) (fun i => y (σ i)) ct sc an =
      (fun r => (r.1, r.2.1, r.2.2.1, r.2.2.2.1, fun i => r.2.2.2.2 (σ i))) <$>
        OK.setupCoordinates x y ct sc an := by
  unfold OK.setupCoordinates
  rw [midrange_perm, midrange_perm]
  split
  · cases midrange x <;> cases midrange y <;> rfl
  · split <;> rfl

/-- `OrdinaryKriging` on reordered data: everything but the statistics. -/
theorem OK.create_perm {n : ℕ} {env : Env} {x y z : Fin n → ℝ} {args : OKArgs} {s : OK n}
    (h : OK.create env x y z args = .ok s) (σ : Fin n ≃ Fin n) :
    (∀ s', OK.create env (fun i => x (σ i)) (fun i => y (σ i)) (fun i => z (σ i)) args = .ok s' →
      s' = { s with
        X_ORIG := fun i => x (σ i), Y_ORIG := fun i => y (σ i), Z := fun i => z (σ i)
        X_ADJUSTED := fun i => s.X_ADJUSTED (σ i), Y_ADJUSTED := fun i => s.Y_ADJUSTED (σ i)
        stats := s'.stats }) ∧
    (args.enableStatistics = false →
      ∃ s', OK.create env (fun i => x (σ i)) (fun i => y (σ i)) (fun i => z (σ i)) args = .ok s') := by
  obtain ⟨hp, exact, name, model, fArg, pArg, sc₀, an₀, f, fname, xc, yc, sc, an, adj, vp, lags, ps, stats,
    h1, h2, h3, h4, h5, h6, h7, rfl⟩ := OK.create_ok h
  have h4' : OK.setupCoordinates (fun i => x (σ i)) (fun i => y (σ i)) args.coordinatesType sc₀ an₀ =
      .ok (xc, yc, sc, an, fun i => adj (σ i)) := by rw [OK.setupCoordinates_perm, h4]; rfl
  have h6' := h6
  rw [← initialize_perm _ _ _ _ _ _ _ _ _ σ] at h6'
  constructor
  · intro s' h'
    obtain ⟨hp', exact', name', model', fArg', pArg', sc₀', an₀', f', fname', xc', yc', sc', an', adj', vp', lags',
      ps', stats', g1, g2, g3, g4, g5, g6, g7, rfl⟩ := OK.create_ok h'
    rw [h1] at g1; cases g1
    rw [h2] at g2; cases g2
    rw [h3] at g3; cases g3
    rw [h4'] at g4; cases g4
    rw [h5] at g5; cases g5
    rw [h6'] at g6; cases g6
    rfl
  · intro hst
    unfold OK.create
    rw [if_neg (not_not.2 hp)]
    simp only [py_pure, py_ok_bind, h1, h2, h3, h4', h5, h6', hst]
    exact ⟨_, rfl⟩

theorem OK3D.create_perm {n : ℕ} {env : Env} {x y z v : Fin n → ℝ} {args : OK3DArgs} {s : OK3D n}
    (h : OK3D.create env x y z v args = .ok s) (σ : Fin n ≃ Fin n) {s' : OK3D n}
    (h' : OK3D.create env (fun i => x (σ i)) (fun i => y (σ i)) (fun i => z (σ i)) (fun i => v (σ i)) args = .ok s') :
      s' = { s with
        X_ORIG := fun i => x (σ i), Y_ORIG := fun i => y (σ i), Z_ORIG := fun i => z (σ i)
        VALUES := fun i => v (σ i)
        X_ADJUSTED := fun i => s.X_ADJUSTED (σ i), Y_ADJUSTED := fun i => s.Y_ADJUSTED (σ i)
        Z_ADJUSTED := fun i => s.Z_ADJUSTED (σ i)
        stats := s'.stats } := by
  obtain ⟨hp, exact, name, model, fArg, pArg, an, f, fname, xc, yc, zc, vp, lags, ps, stats,
    h1, h2, h3, h4, h5, h6, h7, h8, h9, rfl⟩ := OK3D.create_ok h
  obtain ⟨hp', exact', name', model', fArg', pArg', an', f', fname', xc', yc', zc', vp', lags', ps', stats',
    g1, g2, g3, g4, g5, g6, g7, g8, g9, rfl⟩ := OK3D.create_ok h'
  rw [midrange_perm] at g4 g5 g6
  rw [h1] at g1; cases g1
  rw [h2] at g2; cases g2
  rw [h3] at g3; cases g3
  rw [h4] at g4; cases g4
  rw [h5] at g5; cases g5
  rw [h6] at g6; cases g6
  rw [h7] at g7; cases g7
  rw [initialize_perm _ (fun i => adjustPoint3 xc yc zc an (x i) (y i) (z i)) v _ _ _ _ _ _ σ, h8] at g8; cases g8
  rfl

theorem atData_perm {n : ℕ} {e : ExtDrift} {x y zs zs' : Fin n → ℝ} (σ : Fin n ≃ Fin n) (h : e.atData x y = .ok zs)
    (h' : e.atData (fun i => x (σ i)) (fun i => y (σ i)) = .ok zs') : zs' = fun i => zs (σ i) := by
  funext i
  have h1 := atData_ok h (σ i)
  have h2 := atData_ok h' i
  rw [h1] at h2
  exact (Except.ok.inj h2).symm

theorem setupSpecified_perm {n : ℕ} {dt : List String} {arg arg' : ListArg (List ℝ)}
    {spec spec' : Option (List (Fin n → ℝ))} (σ : Fin n ≃ Fin n)
    (ha : arg' = match arg with
      | .list ls => .list (ls.map fun l => List.ofFn fun i => l.getD (σ i).val 0)
      | .notList => .notList)
    (h : setupSpecifiedTerm n dt arg = .ok spec) (h' : setupSpecifiedTerm n dt arg' = .ok spec') :
    spec' = spec.map fun D => D.map fun F i => F (σ i) := by
  subst ha
  unfold setupSpecifiedTerm at h h'
  split at h
  · next hd =>
    rw [if_pos hd] at h'
    obtain ⟨D, k, rfl⟩ := py_map_eq_ok.1 h
    obtain ⟨D', k', rfl⟩ := py_map_eq_ok.1 h'
    clear h h'
    rename' k => h, k' => h'
    rw [Option.map_some]
    congr 1
    unfold setupSpecified at h h'
    rcases arg with _ | (_ | ⟨t, ts⟩)
    · cases h
    · cases h
    · dsimp only at h h'
      rw [py_mapM_eq_ok] at h
      rw [List.map_cons] at h'
      dsimp only at h'
      rw [py_mapM_eq_ok] at h'
      have key : ∀ (l : List (List ℝ)) (D D' : List (Fin n → ℝ)), List.Forall₂ (fun a b => (if h : a.length = n then
          Except.ok fun i : Fin n => a.get (i.cast h.symm) else Except.error PyErr.valueError : Py _) = .ok b) l D →
          List.Forall₂ (fun a b => (if h : a.length = n then
          Except.ok fun i : Fin n => a.get (i.cast h.symm) else Except.error PyErr.valueError : Py _) = .ok b)
            (l.map fun l => List.ofFn fun i : Fin n => l.getD (σ i).val 0) D' → D' = D.map fun F i => F (σ i) := by
        intro l
        induction l with
        | nil =>
          intro D D' h h'
          cases h; cases h'; rfl
        | cons a l ih =>
          intro D D' h h'
          rw [List.map_cons] at h'
          cases h with
          | cons q1 q2 =>
            cases h' with
            | cons r1 r2 =>
              rw [List.map_cons, ih _ _ q2 r2]
              congr 1
              split at q1
              · next hl =>
                rw [dif_pos (by simp)] at r1
                cases q1; cases r1
                funext i
                have : (σ i).val < a.length := by rw [hl]; exact (σ i).isLt
                simp [List.getElem?_eq_getElem this]
              · cases q1
      exact key (t :: ts) D D' h h'
  · next hd =>
    rw [if_neg hd] at h'
    cases h; cases h'; rfl

theorem UK.create_perm {n : ℕ} {env : Env} {x y z : Fin n → ℝ} {args : UKArgs} {s : UK n}
    (h : UK.create env x y z args = .ok s) (σ : Fin n ≃ Fin n) {s' : UK n}
    (h' : UK.create env (fun i => x (σ i)) (fun i => y (σ i)) (fun i => z (σ i)) (reorderedUK args σ) = .ok s') :
      s' = { s with
        X_ORIG := fun i => x (σ i), Y_ORIG := fun i => y (σ i), Z := fun i => z (σ i)
        X_ADJUSTED := fun i => s.X_ADJUSTED (σ i), Y_ADJUSTED := fun i => s.Y_ADJUSTED (σ i)
        externalZ := s.externalZ.map fun e => (e.1, fun i => e.2 (σ i))
        specified := s.specified.map fun D => D.map fun F i => F (σ i)
        stats := s'.stats } := by
  obtain ⟨hp, exact, name, model, fArg, pArg, sc, an, f, fname, xc, yc, vp, lags, ps, stats, ext, plog, spec,
    func, h1, h2, h3, h4, h5, h6, h7, h8, h9, h10, h11, h12, rfl⟩ := UK.create_ok h
  obtain ⟨hp', exact', name', model', fArg', pArg', sc', an', f', fname', xc', yc', vp', lags', ps', stats', ext',
    plog', spec', func', g1, g2, g3, g4, g5, g6, g7, g8, g9, g10, g11, g12, rfl⟩ := UK.create_ok h'
  rw [midrange_perm] at g4 g5
  have g1 : args.exactValues = _ := g1
  rw [h1] at g1; cases g1
  have g2 : UK.resolveModel env args.variogramModel args.variogramFunction args.params
        args.anisotropyScaling args.anisotropyAngle = _ := g2
  rw [h2] at g2; cases g2
  rw [h3] at g3; cases g3
  rw [h4] at g4; cases g4
  rw [h5] at g5; cases g5
  rw [h6] at g6; cases g6
  have g7 : initializeVariogramModel env (fun i => adjustData2 x y xc yc sc an (σ i)) (fun i => z (σ i)) name vp f
        args.nlags args.weight "euclidean" = _ := g7
  rw [initialize_perm _ (adjustData2 x y xc yc sc an) z _ _ _ _ _ _ σ, h7] at g7; cases g7
  have g10 : setupPointLog xc yc sc an args = _ := g10
  rw [h10] at g10; cases g10
  have g12 : setupFunctionalTerm args.driftTerms args.functionalDrift = _ := g12
  rw [h12] at g12; cases g12
  have g11' := setupSpecified_perm σ rfl h11 g11
  subst g11'
  have g9 : (if "external_Z" ∈ args.driftTerms then do
      let e ← setupExternal args
      let zs ← e.atData (fun i => x (σ i)) (fun i => y (σ i))
      return some (e, zs)
    else .ok none : Py _) = .ok ext' := g9
  have e9 : ext' = ext.map fun e => (e.1, fun i => e.2 (σ i)) := by
    unfold setupExternalZ at h9
    split at h9
    · next hd =>
      rw [if_pos hd] at g9
      obtain ⟨e, q1, h9⟩ := py_bind_eq_ok.1 h9
      obtain ⟨zs, q2, h9⟩ := py_bind_eq_ok.1 h9
      rw [q1] at g9
      simp only [py_ok_bind] at g9
      obtain ⟨zs', q2', g9⟩ := py_bind_eq_ok.1 g9
      cases h9; cases g9
      rw [atData_perm σ q2 q2']
      rfl
    · next hd =>
      rw [if_neg hd] at g9
      cases h9; cases g9; rfl
  subst e9
  rfl

theorem UK3D.create_perm {n : ℕ} {env : Env} {x y z v : Fin n → ℝ} {args : UK3DArgs} {s : UK3D n}
    (h : UK3D.create env x y z v args = .ok s) (σ : Fin n ≃ Fin n) {s' : UK3D n}
    (h' : UK3D.create env (fun i => x (σ i)) (fun i => y (σ i)) (fun i => z (σ i)) (fun i => v (σ i))
      (reorderedUK3 args σ) = .ok s') :
      s' = { s with
        X_ORIG := fun i => x (σ i), Y_ORIG := fun i => y (σ i), Z_ORIG := fun i => z (σ i)
        VALUES := fun i => v (σ i)
        X_ADJUSTED := fun i => s.X_ADJUSTED (σ i), Y_ADJUSTED := fun i => s.Y_ADJUSTED (σ i)
        Z_ADJUSTED := fun i => s.Z_ADJUSTED (σ i)
        specified := s.specified.map fun D => D.map fun F i => F (σ i)
        stats := s'.stats } := by
  obtain ⟨hp, exact, name, model, fArg, pArg, an, f, fname, xc, yc, zc, vp, lags, ps, stats, spec, func,
    h1, h2, h3, h4, h5, h6, h7, h8, h9, h10, h11, rfl⟩ := UK3D.create_ok h
  obtain ⟨hp', exact', name', model', fArg', pArg', an', f', fname', xc', yc', zc', vp', lags', ps', stats', spec',
    func', g1, g2, g3, g4, g5, g6, g7, g8, g9, g10, g11, rfl⟩ := UK3D.create_ok h'
  rw [midrange_perm] at g4 g5 g6
  have g1 : args.exactValues = _ := g1
  rw [h1] at g1; cases g1
  have g2 : OK3D.resolveModel env args.variogramModel args.variogramFunction args.params args.aniso = _ := g2
  rw [h2] at g2; cases g2
  rw [h3] at g3; cases g3
  rw [h4] at g4; cases g4
  rw [h5] at g5; cases g5
  rw [h6] at g6; cases g6
  rw [h7] at g7; cases g7
  have g8 : initializeVariogramModel env (fun i => adjustPoint3 xc yc zc an (x (σ i)) (y (σ i)) (z (σ i)))
    (fun i => v (σ i)) name vp f args.nlags args.weight "euclidean" = _ := g8
  rw [initialize_perm _ (fun i => adjustPoint3 xc yc zc an (x i) (y i) (z i)) v _ _ _ _ _ _ σ, h8] at g8; cases g8
  have g11 : setupFunctionalTerm args.driftTerms args.functionalDrift = _ := g11
  rw [h11] at g11; cases g11
  have g10' := setupSpecified_perm σ rfl h10 g10
  subst g10'
  rfl

/-! ### Universal kriging -/

theorem krigAnswer_relabel_drift {n L L' : ℕ} (σ : Fin n ≃ Fin n) (hL : L' = L) (pseudo : Bool) (γ : ℝ → ℝ)
    (D : Fin n → Fin n → ℝ) (F : Fin L → Fin n → ℝ) {F' : Fin L' → Fin n → ℝ} (hF : ∀ l i, F' l i = F (l.cast hL) (σ i))
    (Z g : Fin n → ℝ) (fl : List ℝ) :
    krigAnswer pseudo (semivar γ fun i j => D (σ i) (σ j)) F' (fun i => Z (σ i)) (fun i => g (σ i))
      (fun l => fl.getD l.val 0) =
    krigAnswer pseudo (semivar γ D) F Z g (fun l => fl.getD l.val 0) := by
  subst hL
  refine Eq.trans ?_ (krigAnswer_reindex pseudo σ (semivar γ D) F Z g _)
  rw [← semivar_reindex σ.injective]
  have : F' = fun l i => F l (σ i) := funext fun l => funext fun i => hF l i
  rw [this]

theorem solvable_relabel_drift {n L L' : ℕ} (σ : Fin n ≃ Fin n) (hL : L' = L) (pseudo : Bool) (γ : ℝ → ℝ)
    (D : Fin n → Fin n → ℝ) (F : Fin L → Fin n → ℝ) {F' : Fin L' → Fin n → ℝ} (hF : ∀ l i, F' l i = F (l.cast hL) (σ i))
    (h : Solvable pseudo (semivar γ D) F) : Solvable pseudo (semivar γ fun i j => D (σ i) (σ j)) F' := by
  subst hL
  have : F' = fun l i => F l (σ i) := funext fun l => funext fun i => hF l i
  subst this
  unfold Solvable at h ⊢
  rw [semivar_reindex σ.injective, regular_reindex σ]
  exact h

theorem UK.relabel_execute {n : ℕ} {s s' : UK n} (σ : Fin n ≃ Fin n) (ht : s.pseudoInvType ∈ ["pinv", "pinvh"])
    (e1 : s'.variogramFunction = s.variogramFunction) (e2 : s'.params = s.params)
    (e3 : s'.specified.map List.length = s.specified.map List.length) (e4 : s'.specStart = s.specStart)
    (e5 : s'.pseudoInvType = s.pseudoInvType) (e6 : s'.pseudoInv = s.pseudoInv) (e7 : s'.exactValues = s.exactValues)
    (eV : s'.Z = fun i => s.Z (σ i)) (eP : ∀ i, s'.pts i = s.pts (σ i)) (eA : ∀ p, s'.adjustPoint p = s.adjustPoint p)
    (eD : s'.driftData = s.driftData.map fun F i => F (σ i))
    (eAt : ∀ sv zext p, s'.driftAt sv zext p = s.driftAt sv zext p)
    (eX : ∀ p, s'.extP p = s.extP p) (eW : ∀ p, s'.atWell p ↔ s.atWell p)
    {ea : UKExecArgs} {r : ExecResult} (hr : s.execute ea = .ok r) : s'.execute ea = .ok r := by
  have hL : s'.driftData.length = s.driftData.length := by rw [eD, List.length_map]
  have hD : s'.dataDist = fun i j => s.dataDist (σ i) (σ j) := by
    funext i j; unfold UK.dataDist; rw [eP, eP]
  have hQ : ∀ p, s'.queryDist p = fun i => s.queryDist p (σ i) := by
    intro p; funext i; unfold UK.queryDist; rw [eP, eA]
  have hF : ∀ l i, s'.F l i = s.F (l.cast hL) (σ i) := by
    intro l i
    unfold UK.F
    have key : ∀ (a b : List (Fin n → ℝ)) (hb : b.length = a.length) (l : Fin b.length),
        b = a.map (fun F i => F (σ i)) → b.get l i = a.get (l.cast hb) (σ i) := by
      rintro a b hb l rfl
      simp
    exact key _ _ hL l eD
  refine UK.transfer (ea := ea) (ea' := ea) ht (by rw [e5]; exact ht) (moved_id ea.toExec) rfl e1 e2 e3 e4 eX eW ?_ ?_ hr
  · intro h
    unfold UK.G at h ⊢
    rw [hD, e6]
    exact solvable_relabel_drift σ hL _ _ _ _ hF h
  · intro sv zext p _ _
    have hg : s'.g s.gam p = fun i => s.g s.gam p (σ i) := by
      unfold UK.g; rw [hQ, e7]; rfl
    have hf : s'.f sv zext p = fun l => (s.driftAt sv zext p).getD l.val 0 := by
      unfold UK.f; rw [eAt]
    unfold UK.answer UK.G
    rw [id, hD, e6, eV, hf, hg]
    exact krigAnswer_relabel_drift σ hL _ _ _ _ hF _ _ _

theorem UK3D.relabel_execute {n : ℕ} {s s' : UK3D n} (σ : Fin n ≃ Fin n) (ht : s.pseudoInvType ∈ ["pinv", "pinvh"])
    (e1 : s'.variogramFunction = s.variogramFunction) (e2 : s'.params = s.params)
    (e3 : s'.specified.map List.length = s.specified.map List.length) (e4 : s'.specStart = s.specStart)
    (e5 : s'.pseudoInvType = s.pseudoInvType) (e6 : s'.pseudoInv = s.pseudoInv) (e7 : s'.exactValues = s.exactValues)
    (eV : s'.VALUES = fun i => s.VALUES (σ i)) (eP : ∀ i, s'.pts i = s.pts (σ i)) (eA : ∀ p, s'.adjustPoint p = s.adjustPoint p)
    (eD : s'.driftData = s.driftData.map fun F i => F (σ i))
    (eAt : ∀ sv p, s'.driftAt sv p = s.driftAt sv p)
    {ea : UK3DExecArgs} {r : ExecResult} (hr : s.execute ea = .ok r) : s'.execute ea = .ok r := by
  have hL : s'.driftData.length = s.driftData.length := by rw [eD, List.length_map]
  have hD : s'.dataDist = fun i j => s.dataDist (σ i) (σ j) := by
    funext i j; unfold UK3D.dataDist; rw [eP, eP]
  have hQ : ∀ p, s'.queryDist p = fun i => s.queryDist p (σ i) := by
    intro p; funext i; unfold UK3D.queryDist; rw [eP, eA]
  have hF : ∀ l i, s'.F l i = s.F (l.cast hL) (σ i) := by
    intro l i
    unfold UK3D.F
    have key : ∀ (a b : List (Fin n → ℝ)) (hb : b.length = a.length) (l : Fin b.length),
        b = a.map (fun F i => F (σ i)) → b.get l i = a.get (l.cast hb) (σ i) := by
      rintro a b hb l rfl
      simp
    exact key _ _ hL l eD
  refine UK3D.transfer (ea := ea) (ea' := ea) ht (by rw [e5]; exact ht) (moved_id3 ea.toExec) rfl e1 e2 e3 e4  ?_ ?_ hr
  · intro h
    unfold UK3D.G at h ⊢
    rw [hD, e6]
    exact solvable_relabel_drift σ hL _ _ _ _ hF h
  · intro sv p _ _
    have hg : s'.g s.gam p = fun i => s.g s.gam p (σ i) := by
      unfold UK3D.g; rw [hQ, e7]; rfl
    have hf : s'.f sv p = fun l => (s.driftAt sv p).getD l.val 0 := by
      unfold UK3D.f; rw [eAt]
    unfold UK3D.answer UK3D.G
    rw [id, hD, e6, eV, hf, hg]
    exact krigAnswer_relabel_drift σ hL _ _ _ _ hF _ _ _

/-- The object with its data renumbered. -/
def UK.relabel {n : ℕ} (s : UK n) (σ : Fin n ≃ Fin n) (st : Option Stats) : UK n :=
  { s with
        X_ORIG := fun i => s.X_ORIG (σ i), Y_ORIG := fun i => s.Y_ORIG (σ i), Z := fun i => s.Z (σ i)
        X_ADJUSTED := fun i => s.X_ADJUSTED (σ i), Y_ADJUSTED := fun i => s.Y_ADJUSTED (σ i)
        externalZ := s.externalZ.map fun e => (e.1, fun i => e.2 (σ i))
        specified := s.specified.map fun D => D.map fun F i => F (σ i)
        stats := st }

theorem UK.relabel_symm {n : ℕ} (s : UK n) (σ : Fin n ≃ Fin n) (st : Option Stats) :
    (s.relabel σ st).relabel σ.symm s.stats = s := by
  unfold UK.relabel
  obtain ⟨⟩ := s
  simp only [Equiv.apply_symm_apply, Option.map_map, List.map_map, Function.comp_def, List.map_id', Option.map_id', id]

theorem UK.execute_relabel {n : ℕ} {s : UK n} (ht : s.pseudoInvType ∈ ["pinv", "pinvh"]) (σ : Fin n ≃ Fin n)
    (st : Option Stats) {ea : UKExecArgs} {r : ExecResult} (hr : s.execute ea = .ok r) :
    (s.relabel σ st).execute ea = .ok r := by
  unfold UK.relabel
  refine UK.relabel_execute (s := s) σ ht ?_ ?_ ?_ ?_ ?_ ?_ ?_ ?_ ?_ ?_ ?_ ?_ ?_ ?_ hr
  · rfl
  · rfl
  · dsimp only; cases s.specified <;> simp
  · unfold UK.specStart; dsimp only; cases s.externalZ <;> rfl
  · rfl
  · rfl
  · rfl
  · rfl
  · exact fun i => rfl
  · exact fun p => rfl
  · unfold UK.driftData
    dsimp only
    simp only [List.map_append, List.map_map]
    congr 1
    · congr 1
      · congr 1
        · congr 1
          cases s.regionalLinear <;> rfl
        · cases s.externalZ <;> rfl
      · cases s.specified <;> rfl
  · intro sv zext p
    unfold UK.driftAt
    dsimp only
    cases s.externalZ <;> cases s.specified <;> rfl
  · intro p
    unfold UK.extP
    dsimp only
    cases s.externalZ <;> rfl
  · exact fun p => Iff.rfl

/-- The object for reordered data. -/
theorem UK.perm_relabel {n : ℕ} {env : Env} {x y z : Fin n → ℝ} {args : UKArgs} {s : UK n}
    (h : UK.create env x y z args = .ok s) (σ : Fin n ≃ Fin n) {s' : UK n}
    (h' : UK.create env (fun i => x (σ i)) (fun i => y (σ i)) (fun i => z (σ i)) (reorderedUK args σ) = .ok s') :
    s' = s.relabel σ s'.stats := by
  have e := UK.create_perm h σ h'
  obtain ⟨hx, hy, hz⟩ := (UK.create_fields h).2.2.2.2
  subst hx hy hz
  exact e

theorem UK.perm_execute {n : ℕ} {env : Env} {x y z : Fin n → ℝ} {args : UKArgs} {s : UK n}
    (h : UK.create env x y z args = .ok s) (σ : Fin n ≃ Fin n) {s' : UK n}
    (h' : UK.create env (fun i => x (σ i)) (fun i => y (σ i)) (fun i => z (σ i)) (reorderedUK args σ) = .ok s')
    (ea : UKExecArgs) (r : ExecResult) : s.execute ea = .ok r ↔ s'.execute ea = .ok r := by
  have hfl := UK.create_fields h
  have ht : s.pseudoInvType ∈ ["pinv", "pinvh"] := by rw [hfl.2.2.2.1]; exact hfl.1
  rw [UK.perm_relabel h σ h']
  generalize s'.stats = st
  constructor
  · exact UK.execute_relabel ht σ st
  · intro hr
    have := UK.execute_relabel (s := s.relabel σ st) ht σ.symm s.stats hr
    rwa [UK.relabel_symm] at this

/-- The object with its data renumbered. -/
def UK3D.relabel {n : ℕ} (s : UK3D n) (σ : Fin n ≃ Fin n) (st : Option Stats) : UK3D n :=
  { s with
        X_ORIG := fun i => s.X_ORIG (σ i), Y_ORIG := fun i => s.Y_ORIG (σ i), Z_ORIG := fun i => s.Z_ORIG (σ i)
        VALUES := fun i => s.VALUES (σ i)
        X_ADJUSTED := fun i => s.X_ADJUSTED (σ i), Y_ADJUSTED := fun i => s.Y_ADJUSTED (σ i)
        Z_ADJUSTED := fun i => s.Z_ADJUSTED (σ i)
        specified := s.specified.map fun D => D.map fun F i => F (σ i)
        stats := st }

theorem UK3D.relabel_symm {n : ℕ} (s : UK3D n) (σ : Fin n ≃ Fin n) (st : Option Stats) :
    (s.relabel σ st).relabel σ.symm s.stats = s := by
  unfold UK3D.relabel
  obtain ⟨⟩ := s
  simp only [Equiv.apply_symm_apply, Option.map_map, List.map_map, Function.comp_def, List.map_id', Option.map_id', id]

theorem UK3D.execute_relabel {n : ℕ} {s : UK3D n} (ht : s.pseudoInvType ∈ ["pinv", "pinvh"]) (σ : Fin n ≃ Fin n)
    (st : Option Stats) {ea : UK3DExecArgs} {r : ExecResult} (hr : s.execute ea = .ok r) :
    (s.relabel σ st).execute ea = .ok r := by
  unfold UK3D.relabel
  refine UK3D.relabel_execute (s := s) σ ht ?_ ?_ ?_ ?_ ?_ ?_ ?_ ?_ ?_ ?_ ?_ ?_ hr
  · rfl
  · rfl
  · dsimp only; cases s.specified <;> simp
  · rfl
  · rfl
  · rfl
  · rfl
  · rfl
  · exact fun i => rfl
  · exact fun p => rfl
  · unfold UK3D.driftData
    dsimp only
    simp only [List.map_append, List.map_map]
    congr 1
    · congr 1
      · cases s.regionalLinear <;> rfl
      · cases s.specified <;> rfl
  · intro sv p
    unfold UK3D.driftAt
    dsimp only
    cases s.specified <;> rfl

/-- The object for reordered data. -/
theorem UK3D.perm_relabel {n : ℕ} {env : Env} {x y z v : Fin n → ℝ} {args : UK3DArgs} {s : UK3D n}
    (h : UK3D.create env x y z v args = .ok s) (σ : Fin n ≃ Fin n) {s' : UK3D n}
    (h' : UK3D.create env (fun i => x (σ i)) (fun i => y (σ i)) (fun i => z (σ i)) (fun i => v (σ i))
      (reorderedUK3 args σ) = .ok s') :
    s' = s.relabel σ s'.stats := by
  have e := UK3D.create_perm h σ h'
  obtain ⟨hx, hy, hz, hv⟩ := (UK3D.create_fields h).2.2.2.2
  subst hx hy hz hv
  exact e

theorem UK3D.perm_execute {n : ℕ} {env : Env} {x y z v : Fin n → ℝ} {args : UK3DArgs} {s : UK3D n}
    (h : UK3D.create env x y z v args = .ok s) (σ : Fin n ≃ Fin n) {s' : UK3D n}
    (h' : UK3D.create env (fun i => x (σ i)) (fun i => y (σ i)) (fun i => z (σ i)) (fun i => v (σ i))
      (reorderedUK3 args σ) = .ok s')
    (ea : UK3DExecArgs) (r : ExecResult) : s.execute ea = .ok r ↔ s'.execute ea = .ok r := by
  have hfl := UK3D.create_fields h
  have ht : s.pseudoInvType ∈ ["pinv", "pinvh"] := by rw [hfl.2.2.2.1]; exact hfl.1
  rw [UK3D.perm_relabel h σ h']
  generalize s'.stats = st
  constructor
  · exact UK3D.execute_relabel ht σ st
  · intro hr
    have := UK3D.execute_relabel (s := s.relabel σ st) ht σ.symm s.stats hr
    rwa [UK3D.relabel_symm] at this

end
end PyKrige
