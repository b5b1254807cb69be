import Verif.Lemmas.Amax
import Verif.Lemmas.Relabel
import Verif.Lemmas.ArgDist
import Verif.Spec.Distance

/-!
# C18: the experimental variogram bins every pair exactly once
-/

namespace PyKrige
noncomputable section

/-- The distance of two data: Euclidean, or along the great circle. -/
def Spec.pairDistance {m : ℕ} (ct : String) (p q : Fin m → ℝ) : ℝ :=
  if ct = "euclidean" then Real.sqrt (∑ k, (p k - q k) ^ 2)
  else if h : m = 2 then Spec.sphereDist (p ⟨0, by omega⟩, p ⟨1, by omega⟩) (q ⟨0, by omega⟩, q ⟨1, by omega⟩)
  else 0

/-- All pairs of data: distance and half the squared difference of the values. -/
def Spec.pairsBy {n : ℕ} (D : Fin n → Fin n → ℝ) (y : Fin n → ℝ) : Multiset (ℝ × ℝ) :=
  (Finset.univ.filter fun p : Fin n × Fin n => p.1 < p.2).val.map fun p =>
    (D p.1 p.2, (y p.1 - y p.2) ^ 2 / 2)

/-- The same for given coordinates. -/
def Spec.pairs {n m : ℕ} (X : Fin n → Fin m → ℝ) (y : Fin n → ℝ) (ct : String) : Multiset (ℝ × ℝ) :=
  Spec.pairsBy (fun i j => Spec.pairDistance ct (X i) (X j)) y

open Spec

theorem pairDistances_spec {n m : ℕ} {X : Fin n → Fin m → ℝ} {y : Fin n → ℝ} {ct : String} {dg : List (ℝ × ℝ)}
    (h : pairDistances X y ct = .ok dg) : (dg : Multiset (ℝ × ℝ)) = pairs X y ct := by
  unfold pairDistances at h
  unfold pairs pairsBy pairDistance
  split at h
  · next hc =>
    cases h
    rw [← Multiset.map_coe]
    have e : ((pdistPairs n : List _) : Multiset (Fin n × Fin n)) = (Finset.univ.filter fun p => p.1 < p.2).val := by
      refine (Multiset.Nodup.ext (by simpa using nodup_pdistPairs n) (Finset.nodup _)).2 fun p => ?_
      simp [mem_pdistPairs]
    rw [e]
    refine Multiset.map_congr rfl fun p _ => ?_
    beta_reduce; rw [if_pos hc]
    unfold euclid
    congr 1; ring
  · next hc =>
    split at h
    · split at h
      · next hm =>
        cases h
        rw [← Multiset.map_coe]
        have e : ((lowerPairs n : List _) : Multiset (Fin n × Fin n)) =
            (Finset.univ.filter fun p : Fin n × Fin n => p.1 < p.2).val.map Prod.swap := by
          refine (Multiset.Nodup.ext (by simpa using nodup_lowerPairs n)
            ((Finset.nodup _).map Prod.swap_injective)).2 fun p => ?_
          simp only [Multiset.mem_coe, mem_lowerPairs, Multiset.mem_map, Finset.mem_val, Finset.mem_filter,
            Finset.mem_univ, true_and]
          exact ⟨fun h => ⟨p.swap, h, by simp⟩, fun ⟨q, h, e⟩ => by rw [← e]; exact h⟩
        rw [e, Multiset.map_map]
        refine Multiset.map_congr rfl fun p _ => ?_
        beta_reduce; rw [if_neg hc, dif_pos hm, ← greatCircle_eq]
        simp only [Function.comp, Prod.fst_swap, Prod.snd_swap]
        congr 1; ring
      · cases h
    · cases h

/-! ### Bins -/

theorem mem_inBin {dg : List (ℝ × ℝ)} {lo hi : ℝ} {p : ℝ × ℝ} : p ∈ inBin dg lo hi ↔ p ∈ dg ∧ lo ≤ p.1 ∧ p.1 < hi := by
  unfold inBin; simp

theorem bins_flatten : ∀ (edges : List ℝ) (a : ℝ) (dg : List (ℝ × ℝ)), (a :: edges).Pairwise (· ≤ ·) →
    (∀ p ∈ dg, a ≤ p.1 ∧ p.1 < (a :: edges).getLast (by simp)) →
    ((((a :: edges).zip edges).map fun e => inBin dg e.1 e.2).flatten).Perm dg := by
  classical
  intro edges
  induction edges with
  | nil =>
    intro a dg _ h
    cases dg with
    | nil => simp
    | cons p dg =>
      have := h p (by simp)
      simp at this
      linarith
  | cons b rest ih =>
    intro a dg hs h
    rw [List.zip_cons_cons, List.map_cons, List.flatten_cons]
    have hs' := (List.pairwise_cons.1 hs).2
    have ih' := ih b (dg.filter fun p => ¬ p.1 < b) hs' (fun p hp => by
      simp only [List.mem_filter, decide_eq_true_eq] at hp
      refine ⟨not_lt.1 hp.2, ?_⟩
      have := (h p hp.1).2
      rwa [List.getLast_cons (by simp)] at this)
    have e1 : inBin dg a b = dg.filter fun p => p.1 < b := by
      unfold inBin
      refine List.filter_congr fun p hp => ?_
      simp [(h p hp).1]
    have e2 : (((b :: rest).zip rest).map fun e => inBin dg e.1 e.2) =
        (((b :: rest).zip rest).map fun e => inBin (dg.filter fun p => ¬ p.1 < b) e.1 e.2) := by
      refine List.map_congr_left fun e he => ?_
      unfold inBin
      rw [List.filter_filter]
      refine List.filter_congr fun p hp => ?_
      have hb : b ≤ e.1 := by
        have := List.of_mem_zip he
        rcases List.mem_cons.1 this.1 with h | h
        · exact h.ge
        · exact (List.pairwise_cons.1 hs').1 _ h
      have : e.1 ≤ p.1 → b ≤ p.1 := fun h => hb.trans h
      by_cases h1 : e.1 ≤ p.1
      · simp [h1, this h1]
      · simp [h1]
    rw [e2, e1]
    refine (List.Perm.append_left _ ih').trans ?_
    have := List.filter_append_perm (fun p : ℝ × ℝ => decide (p.1 < b)) dg
    have e : (dg.filter fun p => decide ¬ p.1 < b) = dg.filter fun x => !decide (x.1 < b) :=
      List.filter_congr fun p _ => by rw [decide_not]
    rw [e]
    exact this

theorem bins_ordered : ∀ (edges : List ℝ) (a : ℝ) (dg : List (ℝ × ℝ)), (a :: edges).Pairwise (· ≤ ·) →
    (((a :: edges).zip edges).map fun e => inBin dg e.1 e.2).Pairwise fun g g' => ∀ p ∈ g, ∀ q ∈ g', p.1 < q.1 := by
  intro edges
  induction edges with
  | nil => intro a dg _; simp
  | cons b rest ih =>
    intro a dg hs
    have hs' := (List.pairwise_cons.1 hs).2
    rw [List.zip_cons_cons, List.map_cons, List.pairwise_cons]
    refine ⟨fun g hg p hp q hq => ?_, ih b dg hs'⟩
    obtain ⟨e, he, rfl⟩ := List.mem_map.1 hg
    have hb : b ≤ e.1 := by
      rcases List.mem_cons.1 (List.of_mem_zip he).1 with h | h
      · exact h.ge
      · exact (List.pairwise_cons.1 hs').1 _ h
    exact ((mem_inBin.1 hp).2.2.trans_le hb).trans_le (mem_inBin.1 hq).2.1

theorem binEdges_getElem (lo hi : ℝ) (m k : ℕ) : (binEdges lo hi m)[k]? =
    if k < m then some (lo + k * ((hi - lo) / m)) else if k = m then some (hi + 1 / 1000) else none := by
  unfold binEdges
  dsimp only
  rw [List.getElem?_append]
  simp only [List.length_map, List.length_range]
  split
  · next h => simp [h]
  · next h =>
    split
    · next h2 => simp [h2]
    · next h2 =>
      have : 0 < k - m := by omega
      rw [List.getElem?_eq_none]
      simp; omega

theorem binEdges_sorted {lo hi : ℝ} (h : lo ≤ hi) {m : ℕ} (hm : 0 < m) : (binEdges lo hi m).Pairwise (· ≤ ·) := by
  have hm' : (0 : ℝ) < m := by exact_mod_cast hm
  have hw : 0 ≤ (hi - lo) / m := div_nonneg (by linarith) hm'.le
  rw [List.pairwise_iff_getElem]
  intro i j hi' hj' hij
  have e1 := binEdges_getElem lo hi m i
  have e2 := binEdges_getElem lo hi m j
  rw [List.getElem?_eq_getElem hi'] at e1
  rw [List.getElem?_eq_getElem hj'] at e2
  have hij' : (i : ℝ) ≤ j := by exact_mod_cast hij.le
  split at e2
  · next hj =>
    rw [if_pos (hij.trans hj)] at e1
    rw [Option.some.inj e1, Option.some.inj e2]
    nlinarith
  · split at e2
    · next h1 h2 =>
      rw [if_pos (h2 ▸ hij)] at e1
      rw [Option.some.inj e1, Option.some.inj e2]
      have : (i : ℝ) ≤ m := by rw [← h2]; exact hij'
      have : (i : ℝ) * ((hi - lo) / m) ≤ m * ((hi - lo) / m) := mul_le_mul_of_nonneg_right this hw
      rw [mul_div_cancel₀ _ hm'.ne'] at this
      linarith
    · cases e2

theorem binEdges_cons (lo hi : ℝ) {m : ℕ} (hm : 0 < m) : ∃ t, binEdges lo hi m = lo :: t ∧ t.length = m ∧
    (lo :: t).getLast (by simp) = hi + 1 / 1000 := by
  obtain ⟨k, rfl⟩ := Nat.exists_eq_succ_of_ne_zero hm.ne'
  unfold binEdges
  dsimp only
  rw [List.range_succ_eq_map, List.map_cons, List.cons_append]
  simp

theorem binned_groups (dg : List (ℝ × ℝ)) (l : List (ℝ × ℝ)) :
    (l.filterMap fun e =>
      let b := inBin dg e.1 e.2
      if 0 < b.length then some (mean (b.map Prod.fst), mean (b.map Prod.snd)) else none) =
    ((l.map fun e => inBin dg e.1 e.2).filter fun g => !g.isEmpty).map
      fun g => ((g.map Prod.fst).sum / (g.length : ℝ), (g.map Prod.snd).sum / (g.length : ℝ)) := by
  induction l with
  | nil => rfl
  | cons e l ih =>
    rw [List.filterMap_cons, List.map_cons, List.filter_cons]
    cases hg : inBin dg e.1 e.2 with
    | nil => simpa using ih
    | cons p g =>
      simp only [List.length_cons, Nat.zero_lt_succ, if_true, List.isEmpty_cons, Bool.not_false, List.map_cons]
      rw [← ih]
      unfold mean
      simp

/-- The pairs of data are divided into non-empty groups, at most `nlags` many, the distances in a group all smaller
than those in the next; every group lies in one of the `nlags` classes of equal width between the smallest and the
largest distance; lag and semivariance are the means over the group. -/
theorem C18_groups {n m : ℕ} {X : Fin n → Fin m → ℝ} {y : Fin n → ℝ} {nlags : ℕ} {ct : String}
    {ev : List (ℝ × ℝ)} (h : experimentalVariogram X y nlags ct = .ok ev) (hn : 0 < nlags) :
    ∃ groups : List (List (ℝ × ℝ)),
      (groups.flatten : Multiset (ℝ × ℝ)) = pairs X y ct ∧
      ev = groups.map (fun g : List (ℝ × ℝ) => ((g.map Prod.fst).sum / (g.length : ℝ), (g.map Prod.snd).sum / (g.length : ℝ))) ∧
      (∀ g ∈ groups, g ≠ []) ∧ groups.length ≤ nlags ∧
      groups.Pairwise (fun g g' => ∀ p ∈ g, ∀ q ∈ g', p.1 < q.1) ∧
      ∃ lo hi, IsLeast {d | ∃ p ∈ pairs X y ct, d = p.1} lo ∧ IsGreatest {d | ∃ p ∈ pairs X y ct, d = p.1} hi ∧
        ∀ g ∈ groups, ∃ k < nlags, ∀ p ∈ g, lo + k * ((hi - lo) / nlags) ≤ p.1 ∧
          p.1 ≤ lo + (k + 1) * ((hi - lo) / nlags) ∧ (k + 1 < nlags → p.1 < lo + (k + 1) * ((hi - lo) / nlags)) := by
  unfold experimentalVariogram at h
  obtain ⟨dg, h1, h⟩ := py_bind_eq_ok.1 h
  obtain ⟨hi, h2, h⟩ := py_bind_eq_ok.1 h
  obtain ⟨lo, h3, h⟩ := py_bind_eq_ok.1 h
  have h : ev = binned dg (binEdges lo hi nlags) := (Except.ok.inj h).symm
  subst h
  have hd := pairDistances_spec h1
  rw [← hd]
  obtain ⟨a, ha⟩ : ∃ a, a ∈ dg.map Prod.fst := by
    cases hl : dg.map Prod.fst with
    | nil => rw [hl] at h2; cases h2
    | cons a l => exact ⟨a, by simp⟩
  obtain ⟨hi', h2', ghi⟩ := amax_spec ha
  obtain ⟨lo', h3', glo⟩ := amin_spec ha
  obtain rfl : hi = hi' := by rw [h2] at h2'; exact Except.ok.inj h2'
  obtain rfl : lo = lo' := by rw [h3] at h3'; exact Except.ok.inj h3'
  have hset : {v | v ∈ dg.map Prod.fst} = {d | ∃ p ∈ (dg : Multiset (ℝ × ℝ)), d = p.1} := by
    ext d
    simp only [List.mem_map, Set.mem_ofPred_eq, Multiset.mem_coe]
    exact ⟨fun ⟨p, hp, he⟩ => ⟨p, hp, he.symm⟩, fun ⟨p, hp, he⟩ => ⟨p, hp, he.symm⟩⟩
  have hle : lo ≤ hi := (glo.2 ha).trans (ghi.2 ha)
  have hsort := binEdges_sorted hle hn
  obtain ⟨t, ht, htl, hlast⟩ := binEdges_cons lo hi hn
  rw [ht] at hsort
  have hmem : ∀ p ∈ dg, lo ≤ p.1 ∧ p.1 ≤ hi := fun p hp =>
    ⟨glo.2 (List.mem_map.2 ⟨p, hp, rfl⟩), ghi.2 (List.mem_map.2 ⟨p, hp, rfl⟩)⟩
  set bins := ((lo :: t).zip t).map fun e => inBin dg e.1 e.2 with hbins
  have hperm : bins.flatten.Perm dg := bins_flatten t lo dg hsort (fun p hp => by
    rw [hlast]
    exact ⟨(hmem p hp).1, by linarith [(hmem p hp).2]⟩)
  refine ⟨bins.filter (fun g => !g.isEmpty), ?_, ?_, ?_, ?_, ?_, lo, hi, hset ▸ glo, hset ▸ ghi, ?_⟩
  · rw [List.flatten_filter_not_isEmpty, Multiset.coe_eq_coe]
    exact hperm
  · clear h
    unfold binned
    rw [ht, List.tail_cons, hbins]
    exact binned_groups dg _
  · intro g hg
    have := (List.mem_filter.1 hg).2
    intro hc
    rw [hc] at this
    simp at this
  · refine (List.length_filter_le _ _).trans ?_
    rw [hbins, List.length_map, List.length_zip, List.length_cons, htl]
    simp
  · exact (bins_ordered t lo dg hsort).filter _
  · intro g hg
    obtain ⟨hg, hne⟩ := List.mem_filter.1 hg
    obtain ⟨e, he, rfl⟩ := List.mem_map.1 hg
    obtain ⟨k, hk, hke⟩ := List.mem_iff_getElem.1 he
    rw [List.length_zip, List.length_cons, htl, min_eq_right (by omega)] at hk
    have hm' : (0 : ℝ) < nlags := by exact_mod_cast hn
    refine ⟨k, hk, fun p hp => ?_⟩
    obtain ⟨hp1, hp2, hp3⟩ := mem_inBin.1 hp
    have e1 : (binEdges lo hi nlags)[k]? = some e.1 := by
      rw [ht, ← hke]
      simp [List.getElem_zip]
    have e2 : (binEdges lo hi nlags)[k + 1]? = some e.2 := by
      rw [ht, ← hke]
      simp [List.getElem_zip]
    rw [binEdges_getElem, if_pos hk] at e1
    rw [binEdges_getElem] at e2
    rw [← Option.some.inj e1] at hp2
    refine ⟨hp2, ?_⟩
    split at e2
    · next h4 =>
      have e2 := Option.some.inj e2
      push_cast at e2
      rw [← e2] at hp3
      exact ⟨hp3.le, fun _ => hp3⟩
    · next h4 =>
      have h5 : k + 1 = nlags := by omega
      refine ⟨?_, fun hc => absurd hc h4⟩
      have : ((k : ℝ) + 1) = nlags := by exact_mod_cast h5
      rw [this, mul_div_cancel₀ _ hm'.ne']
      linarith [(hmem p hp1).2]

/-- There are `n (n - 1) / 2` pairs. -/
theorem C18_number_of_pairs {n m : ℕ} (X : Fin n → Fin m → ℝ) (y : Fin n → ℝ) (ct : String) :
    (pairs X y ct).card = n * (n - 1) / 2 := by
  unfold pairs pairsBy
  rw [Multiset.card_map, Finset.card_val]
  have h1 : (Finset.univ.filter fun p : Fin n × Fin n => p.1 < p.2).card =
      (Finset.univ.filter fun p : Fin n × Fin n => p.2 < p.1).card := by
    refine Finset.card_bij (fun p _ => p.swap) (by simp) (by simp) (fun p hp => ⟨p.swap, ?_, by simp⟩)
    simpa using hp
  have h2 : (Finset.univ.filter fun p : Fin n × Fin n => p.1 < p.2).card +
      (Finset.univ.filter fun p : Fin n × Fin n => p.2 < p.1).card + n = n * n := by
    have e3 : (Finset.univ.filter fun p : Fin n × Fin n => p.1 = p.2).card = n := by
      have : (Finset.univ.filter fun p : Fin n × Fin n => p.1 = p.2) = Finset.univ.image fun i : Fin n => (i, i) := by
        ext ⟨a, b⟩; simp [eq_comm]
      rw [this, Finset.card_image_of_injective _ (fun a b h => (Prod.mk.inj h).1)]
      simp
    have e4 : (Finset.univ : Finset (Fin n × Fin n)).card = n * n := by simp
    have e5 := Finset.card_filter_add_card_filter_not (s := (Finset.univ : Finset (Fin n × Fin n)))
      (fun p : Fin n × Fin n => p.1 < p.2)
    have e6 := Finset.card_filter_add_card_filter_not (s := Finset.univ.filter fun p : Fin n × Fin n => ¬ p.1 < p.2)
      (fun p : Fin n × Fin n => p.2 < p.1)
    rw [Finset.filter_filter, Finset.filter_filter] at e6
    have e7 : (Finset.univ.filter fun p : Fin n × Fin n => ¬ p.1 < p.2 ∧ p.2 < p.1) =
        Finset.univ.filter fun p : Fin n × Fin n => p.2 < p.1 := by
      ext p
      simp only [Finset.mem_filter, Finset.mem_univ, true_and]
      omega
    have e8 : (Finset.univ.filter fun p : Fin n × Fin n => ¬ p.1 < p.2 ∧ ¬ p.2 < p.1) =
        Finset.univ.filter fun p : Fin n × Fin n => p.1 = p.2 := by
      ext p
      simp only [Finset.mem_filter, Finset.mem_univ, true_and]
      omega
    rw [e7, e8, e3] at e6
    rw [e4] at e5
    omega
  rw [← h1] at h2
  cases n with
  | zero => simp at h2 ⊢
  | succ k =>
    have : (k + 1) * (k + 1 - 1) = (k + 1) * (k + 1) - (k + 1) := by
      rw [Nat.add_sub_cancel, Nat.mul_succ]; omega
    rw [this]; omega

theorem mean_bounds {l : List ℝ} (hl : l ≠ []) {a b : ℝ} (h : ∀ v ∈ l, a ≤ v ∧ v ≤ b) :
    a ≤ l.sum / (l.length : ℝ) ∧ l.sum / (l.length : ℝ) ≤ b := by
  have hp : (0 : ℝ) < l.length := by exact_mod_cast List.length_pos_iff.2 hl
  have key : ∀ l : List ℝ, (∀ v ∈ l, a ≤ v ∧ v ≤ b) → a * l.length ≤ l.sum ∧ l.sum ≤ b * l.length := by
    intro l
    induction l with
    | nil => simp
    | cons v l ih =>
      intro h
      have h1 := h v (by simp)
      have h2 := ih fun u hu => h u (by simp [hu])
      rw [List.sum_cons, List.length_cons]
      push_cast
      constructor <;> linarith [h1.1, h1.2, h2.1, h2.2]
  obtain ⟨h1, h2⟩ := key l h
  exact ⟨(le_div_iff₀ hp).2 h1, (div_le_iff₀ hp).2 h2⟩

theorem mean_lt_mean {l l' : List ℝ} (hl : l ≠ []) (hl' : l' ≠ []) (h : ∀ v ∈ l, ∀ u ∈ l', v < u) :
    l.sum / (l.length : ℝ) < l'.sum / (l'.length : ℝ) := by
  obtain ⟨a, ha⟩ := List.exists_mem_of_ne_nil l hl
  obtain ⟨b, hb⟩ := List.exists_mem_of_ne_nil l' hl'
  obtain ⟨m, -, hm⟩ := amax_spec ha
  obtain ⟨m', -, hm'⟩ := amin_spec hb
  have h1 := (mean_bounds hl (a := min a (l.foldl min a)) (b := m) fun v hv => ⟨by
    have : ∀ (l : List ℝ) (c : ℝ), ∀ v ∈ l, l.foldl min c ≤ v := by
      intro l
      induction l with
      | nil => intro c v hv; cases hv
      | cons w l ih =>
        intro c v hv
        rw [List.foldl_cons]
        rcases List.mem_cons.1 hv with rfl | hv
        · have : ∀ (l : List ℝ) (c : ℝ), l.foldl min c ≤ c := by
            intro l
            induction l with
            | nil => intro c; exact le_rfl
            | cons w l ih => intro c; exact (ih _).trans (min_le_left _ _)
          exact (this _ _).trans (min_le_right _ _)
        · exact ih _ _ hv
    exact (min_le_right _ _).trans (this l a v hv), hm.2 hv⟩).2
  obtain ⟨c, hc⟩ : ∃ c, ∀ v ∈ l', v ≤ c := by
    obtain ⟨M, -, hM⟩ := amax_spec hb
    exact ⟨M, fun v hv => hM.2 hv⟩
  have h2 := (mean_bounds hl' (a := m') (b := c) fun v hv => ⟨hm'.2 hv, hc v hv⟩).1
  exact (h1.trans_lt (h _ hm.1 _ hm'.1)).trans_le h2

/-- The lags are strictly increasing. -/
theorem C18_lags_increase {n m : ℕ} {X : Fin n → Fin m → ℝ} {y : Fin n → ℝ} {nlags : ℕ} {ct : String}
    {ev : List (ℝ × ℝ)} (h : experimentalVariogram X y nlags ct = .ok ev) (hn : 0 < nlags) :
    (ev.map Prod.fst).Pairwise (· < ·) ∧ ev.length ≤ nlags ∧ ev ≠ [] := by
  obtain ⟨gs, h1, rfl, h3, h4, h5, lo, hi, h6, -⟩ := C18_groups h hn
  refine ⟨?_, by simpa using h4, ?_⟩
  · rw [List.map_map, List.pairwise_map]
    refine (List.Pairwise.imp_of_mem ?_ h5)
    intro g g' hg hg' hgg
    simp only [Function.comp]
    have := mean_lt_mean (l := g.map Prod.fst) (l' := g'.map Prod.fst) (by simpa using h3 g hg)
      (by simpa using h3 g' hg') (fun v hv u hu => by
        obtain ⟨p, hp, rfl⟩ := List.mem_map.1 hv
        obtain ⟨q, hq, rfl⟩ := List.mem_map.1 hu
        exact hgg p hp q hq)
    simpa using this
  · intro hc
    obtain ⟨p, hp, -⟩ := h6.1
    rw [← h1, List.map_eq_nil_iff.1 hc] at hp
    simp at hp

/-- Every lag lies between the smallest and the largest distance of two data, every semivariance is between the
smallest and the largest half squared difference, hence non-negative. -/
theorem C18_ranges {n m : ℕ} {X : Fin n → Fin m → ℝ} {y : Fin n → ℝ} {nlags : ℕ} {ct : String}
    {ev : List (ℝ × ℝ)} (h : experimentalVariogram X y nlags ct = .ok ev) (hn : 0 < nlags) {a b c d : ℝ}
    (hd : ∀ p ∈ pairs X y ct, a ≤ p.1 ∧ p.1 ≤ b) (hv : ∀ p ∈ pairs X y ct, c ≤ p.2 ∧ p.2 ≤ d) :
    ∀ e ∈ ev, (a ≤ e.1 ∧ e.1 ≤ b) ∧ (c ≤ e.2 ∧ e.2 ≤ d) ∧ 0 ≤ e.1 ∧ 0 ≤ e.2 := by
  obtain ⟨gs, h1, rfl, h3, -⟩ := C18_groups h hn
  intro e he
  obtain ⟨g, hg, rfl⟩ := List.mem_map.1 he
  have hne := h3 g hg
  have hmem : ∀ p ∈ g, p ∈ pairs X y ct := by
    intro p hp
    rw [← h1, Multiset.mem_coe]
    exact List.mem_flatten.2 ⟨g, hg, hp⟩
  have key : ∀ (F : ℝ × ℝ → ℝ) (a b : ℝ), (∀ p ∈ pairs X y ct, a ≤ F p ∧ F p ≤ b) →
      a ≤ (g.map F).sum / (g.length : ℝ) ∧ (g.map F).sum / (g.length : ℝ) ≤ b := by
    intro F a b hF
    have := mean_bounds (l := g.map F) (a := a) (b := b) (by simpa using hne) (fun v hv => by
      obtain ⟨p, hp, rfl⟩ := List.mem_map.1 hv
      exact hF p (hmem p hp))
    simpa using this
  have hpos : ∀ p ∈ pairs X y ct, 0 ≤ p.1 ∧ 0 ≤ p.2 := by
    intro p hp
    obtain ⟨q, -, rfl⟩ := Multiset.mem_map.1 hp
    refine ⟨?_, by positivity⟩
    unfold pairDistance
    dsimp only
    split
    · positivity
    · split
      · rw [← greatCircle_eq]; exact greatCircleDistance_nonneg _ _ _ _
      · exact le_rfl
  have hlen : (0 : ℝ) < g.length := by exact_mod_cast List.length_pos_iff.2 hne
  refine ⟨key Prod.fst a b hd, key Prod.snd c d hv, ?_, ?_⟩
  · refine div_nonneg (List.sum_nonneg fun v hv => ?_) hlen.le
    obtain ⟨p, hp, rfl⟩ := List.mem_map.1 hv
    exact (hpos p (hmem p hp)).1
  · refine div_nonneg (List.sum_nonneg fun v hv => ?_) hlen.le
    obtain ⟨p, hp, rfl⟩ := List.mem_map.1 hv
    exact (hpos p (hmem p hp)).2

/-- Weighted by the number of pairs, the semivariances (and the lags) average to the mean over all pairs. -/
theorem C18_weighted_mean {n m : ℕ} {X : Fin n → Fin m → ℝ} {y : Fin n → ℝ} {nlags : ℕ} {ct : String}
    {ev : List (ℝ × ℝ)} (h : experimentalVariogram X y nlags ct = .ok ev) (hn : 0 < nlags) :
    ∃ counts : List ℕ, counts.length = ev.length ∧ (∀ c ∈ counts, 0 < c) ∧ counts.sum = n * (n - 1) / 2 ∧
      (List.zipWith (fun (c : ℕ) (e : ℝ × ℝ) => (c : ℝ) * e.2) counts ev).sum =
        ∑ p : Fin n × Fin n with p.1 < p.2, (y p.1 - y p.2) ^ 2 / 2 ∧
      (List.zipWith (fun (c : ℕ) (e : ℝ × ℝ) => (c : ℝ) * e.1) counts ev).sum =
        ∑ p : Fin n × Fin n with p.1 < p.2, pairDistance ct (X p.1) (X p.2) := by
  have hcard := C18_number_of_pairs X y ct
  obtain ⟨gs, h1, rfl, h3, -⟩ := C18_groups h hn
  have key : ∀ (F : ℝ × ℝ → ℝ), (gs.map fun g => (g.length : ℝ) * ((g.map F).sum / (g.length : ℝ))).sum =
      ((pairs X y ct).map F).sum := by
    intro F
    rw [← h1, Multiset.map_coe, Multiset.sum_coe]
    clear h1 hcard h
    induction gs with
    | nil => simp
    | cons g gs ih =>
      rw [List.map_cons, List.sum_cons, ih fun g' hg' => h3 g' (by simp [hg']), List.flatten_cons, List.map_append,
        List.sum_append]
      have hlen : (0 : ℝ) < g.length := by exact_mod_cast List.length_pos_iff.2 (h3 g (by simp))
      rw [mul_div_cancel₀ _ hlen.ne']
  refine ⟨gs.map List.length, by simp, ?_, ?_, ?_, ?_⟩
  · intro c hc
    obtain ⟨g, hg, rfl⟩ := List.mem_map.1 hc
    exact List.length_pos_iff.2 (h3 g hg)
  · rw [← hcard, ← h1, Multiset.coe_card, List.length_flatten]
  · rw [List.zipWith_map, List.zipWith_self, key Prod.snd]
    unfold pairs pairsBy
    rw [Multiset.map_map]
    rfl
  · rw [List.zipWith_map, List.zipWith_self, key Prod.fst]
    unfold pairs pairsBy
    rw [Multiset.map_map]
    rfl

/-- Fewer than two data are refused with a `ValueError`. -/
theorem C18_too_few {n m : ℕ} (hn : n < 2) (X : Fin n → Fin m → ℝ) (y : Fin n → ℝ) (nlags : ℕ) (ct : String) :
    experimentalVariogram X y nlags ct = .error .valueError := by
  have h1 : pdistPairs n = [] := by
    rw [List.eq_nil_iff_forall_not_mem]
    intro p hp
    have := (mem_pdistPairs p).1 hp
    omega
  have h2 : lowerPairs n = [] := by
    rw [List.eq_nil_iff_forall_not_mem]
    intro p hp
    have := (mem_lowerPairs p).1 hp
    omega
  unfold experimentalVariogram pairDistances
  rw [h1, h2]
  split
  · rfl
  · split
    · split <;> rfl
    · rfl

/-- Two or more data are accepted, for Euclidean coordinates of any dimension and for geographic coordinates. -/
theorem C18_accepted {n m : ℕ} (hn : 2 ≤ n) (X : Fin n → Fin m → ℝ) (y : Fin n → ℝ) (nlags : ℕ) {ct : String}
    (hct : ct = "euclidean" ∨ ct = "geographic" ∧ m = 2) :
    ∃ ev, experimentalVariogram X y nlags ct = .ok ev := by
  have h1 : pdistPairs n ≠ [] :=
    List.ne_nil_of_mem ((mem_pdistPairs (⟨0, by omega⟩, ⟨1, by omega⟩)).2 (by simp [Fin.lt_def]))
  have h2 : lowerPairs n ≠ [] :=
    List.ne_nil_of_mem ((mem_lowerPairs (⟨1, by omega⟩, ⟨0, by omega⟩)).2 (by simp [Fin.lt_def]))
  obtain ⟨dg, hd, hne⟩ : ∃ dg, pairDistances X y ct = .ok dg ∧ dg ≠ [] := by
    unfold pairDistances
    rcases hct with rfl | ⟨rfl, rfl⟩
    · exact ⟨_, if_pos rfl, by simpa using h1⟩
    · exact ⟨_, by rw [if_neg (by decide), if_pos rfl, dif_pos rfl], by simpa using h2⟩
  obtain ⟨p, hp⟩ := List.exists_mem_of_ne_nil dg hne
  obtain ⟨hi, e1, -⟩ := amax_spec (List.mem_map.2 ⟨p, hp, rfl⟩ : p.1 ∈ dg.map Prod.fst)
  obtain ⟨lo, e2, -⟩ := amin_spec (List.mem_map.2 ⟨p, hp, rfl⟩ : p.1 ∈ dg.map Prod.fst)
  unfold experimentalVariogram
  rw [hd]
  simp only [py_ok_bind, e1, e2]
  exact ⟨_, rfl⟩

/-! ### The variogram of an object -/

theorem initialize_ev {n m : ℕ} {env : Env} {X : Fin n → Fin m → ℝ} {y : Fin n → ℝ} {model : String}
    {params : Option (List ℝ)} {f : VFun} {nlags : ℕ} {weight : Bool} {ct : String} {ev : List (ℝ × ℝ)} {ps : List ℝ}
    (h : initializeVariogramModel env X y model params f nlags weight ct = .ok (ev, ps)) :
    experimentalVariogram X y nlags ct = .ok ev := by
  unfold initializeVariogramModel at h
  obtain ⟨ev', h1, h⟩ := py_bind_eq_ok.1 h
  rw [h1]
  cases params with
  | some ps' =>
    dsimp only at h
    split at h
    · cases h
    · split at h
      · cases h
      · cases h; rfl
  | none =>
    dsimp only at h
    split at h
    · cases h
    · obtain ⟨q, -, h⟩ := py_bind_eq_ok.1 h
      cases h; rfl

/-- The lags and semivariances an object stores are the experimental variogram for the (anisotropic or great circle)
distances between the data; everything above applies to them. -/
theorem C18_object_ok {n : ℕ} {env : Env} {x y z : Fin n → ℝ} {args : OKArgs} {s : OK n}
    (h : OK.create env x y z args = .ok s) :
    ∃ X : Fin n → Fin 2 → ℝ, experimentalVariogram X z args.nlags args.coordinatesType = .ok s.lags ∧
      pairs X z args.coordinatesType = pairsBy (fun i j => okDistance args (x i, y i) (x j, y j)) z := by
  have hd := (OK.create_dist h).1
  have hct := (OK.create_placed h).1.ctype
  obtain ⟨hp, exact, name, model, fArg, pArg, sc₀, an₀, f, fname, xc, yc, sc, an, adj, vp, lags, ps, stats,
    h1, h2, h3, h4, h5, h6, h7, rfl⟩ := OK.create_ok h
  refine ⟨adj, initialize_ev h6, ?_⟩
  unfold pairs
  congr 1
  funext i j
  rw [← hd i j]
  unfold pairDistance OK.dataDist OK.pts
  dsimp only
  split
  · rw [vec2_eta, vec2_eta]; rfl
  · rw [dif_pos rfl, ← greatCircle_eq]
    rfl

theorem C18_object_ok3 {n : ℕ} {env : Env} {x y z v : Fin n → ℝ} {args : OK3DArgs} {s : OK3D n}
    (h : OK3D.create env x y z v args = .ok s) :
    ∃ X : Fin n → Fin 3 → ℝ, experimentalVariogram X v args.nlags "euclidean" = .ok s.lags ∧
      pairs X v "euclidean" = pairsBy (fun i j => ok3Distance args (x i, y i, z i) (x j, y j, z j)) v := by
  have hd := (OK3D.create_dist h).1
  obtain ⟨hp, exact, name, model, fArg, pArg, an, f, fname, xc, yc, zc, vp, lags, ps, stats,
    h1, h2, h3, h4, h5, h6, h7, h8, h9, rfl⟩ := OK3D.create_ok h
  refine ⟨_, initialize_ev h8, ?_⟩
  unfold pairs
  congr 1
  funext i j
  rw [← hd i j]
  unfold pairDistance OK3D.dataDist OK3D.pts
  dsimp only
  rw [if_pos rfl, vec3_eta, vec3_eta]
  rfl

theorem C18_object_uk {n : ℕ} {env : Env} {x y z : Fin n → ℝ} {args : UKArgs} {s : UK n}
    (h : UK.create env x y z args = .ok s) :
    ∃ X : Fin n → Fin 2 → ℝ, experimentalVariogram X z args.nlags "euclidean" = .ok s.lags ∧
      pairs X z "euclidean" = pairsBy (fun i j => ukDistance args (x i, y i) (x j, y j)) z := by
  have hd := (UK.create_dist h).1
  obtain ⟨hp, exact, name, model, fArg, pArg, sc, an, f, fname, xc, yc, vp, lags, ps, stats, ext, plog, spec,
    func, h1, h2, h3, h4, h5, h6, h7, h8, h9, h10, h11, h12, rfl⟩ := UK.create_ok h
  refine ⟨_, initialize_ev h7, ?_⟩
  unfold pairs
  congr 1
  funext i j
  rw [← hd i j]
  unfold pairDistance UK.dataDist UK.pts
  dsimp only
  rw [if_pos rfl, vec2_eta, vec2_eta]
  rfl

theorem C18_object_uk3 {n : ℕ} {env : Env} {x y z v : Fin n → ℝ} {args : UK3DArgs} {s : UK3D n}
    (h : UK3D.create env x y z v args = .ok s) :
    ∃ X : Fin n → Fin 3 → ℝ, experimentalVariogram X v args.nlags "euclidean" = .ok s.lags ∧
      pairs X v "euclidean" = pairsBy (fun i j => uk3Distance args (x i, y i, z i) (x j, y j, z j)) v := by
  have hd := (UK3D.create_dist h).1
  obtain ⟨hp, exact, name, model, fArg, pArg, an, f, fname, xc, yc, zc, vp, lags, ps, stats, spec, func,
    h1, h2, h3, h4, h5, h6, h7, h8, h9, h10, h11, rfl⟩ := UK3D.create_ok h
  refine ⟨_, initialize_ev h8, ?_⟩
  unfold pairs
  congr 1
  funext i j
  rw [← hd i j]
  unfold pairDistance UK3D.dataDist UK3D.pts
  dsimp only
  rw [if_pos rfl, vec3_eta, vec3_eta]
  rfl

/-- A concrete case: three data, four lag classes. -/
example : ∃ ev, experimentalVariogram (fun i : Fin 3 => ![(i : ℝ), 0]) ![1, 2, 4] 4 "euclidean" = .ok ev ∧ ev ≠ [] ∧
    ev.length ≤ 4 := by
  obtain ⟨ev, h⟩ := C18_accepted (n := 3) (by norm_num) (fun i : Fin 3 => ![(i : ℝ), 0]) ![1, 2, 4] 4 (.inl rfl)
  exact ⟨ev, h, (C18_lags_increase h (by norm_num)).2.2, (C18_lags_increase h (by norm_num)).2.1⟩

end
end PyKrige
