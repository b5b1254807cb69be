import Verif.Props.C18
import Verif.Lemmas.NanAll

/-! The experimental variogram of values that may be nan. -/

namespace PyKrige
noncomputable section
open Spec

open Classical in
/-- The pairs with distance in a class. -/
def inBinG {β : Type} (dg : List (ℝ × β)) (lo hi : ℝ) : List (ℝ × β) := dg.filter fun p => lo ≤ p.1 ∧ p.1 < hi

theorem mem_inBinG {β : Type} {dg : List (ℝ × β)} {lo hi : ℝ} {p : ℝ × β} : p ∈ inBinG dg lo hi ↔ p ∈ dg ∧ lo ≤ p.1 ∧ p.1 < hi := by
  unfold inBinG; simp

theorem binsG_flatten {β : Type} : ∀ (edges : List ℝ) (a : ℝ) (dg : List (ℝ × β)), (a :: edges).Pairwise (· ≤ ·) →
    (∀ p ∈ dg, a ≤ p.1 ∧ p.1 < (a :: edges).getLast (by simp)) →
    ((((a :: edges).zip edges).map fun e => inBinG dg e.1 e.2).flatten).Perm dg := by
  classical
  intro edges
  induction edges with
  | nil =>
    intro a dg _ h
    cases dg with
    | nil => simp
    | cons p dg =>
      have := h p (by simp)
      simp at this
      linarith
  | cons b rest ih =>
    intro a dg hs h
    rw [List.zip_cons_cons, List.map_cons, List.flatten_cons]
    have hs' := (List.pairwise_cons.1 hs).2
    have ih' := ih b (dg.filter fun p => ¬ p.1 < b) hs' (fun p hp => by
      simp only [List.mem_filter, decide_eq_true_eq] at hp
      refine ⟨not_lt.1 hp.2, ?_⟩
      have := (h p hp.1).2
      rwa [List.getLast_cons (by simp)] at this)
    have e1 : inBinG dg a b = dg.filter fun p => p.1 < b := by
      unfold inBinG
      refine List.filter_congr fun p hp => ?_
      simp [(h p hp).1]
    have e2 : (((b :: rest).zip rest).map fun e => inBinG dg e.1 e.2) =
        (((b :: rest).zip rest).map fun e => inBinG (dg.filter fun p => ¬ p.1 < b) e.1 e.2) := by
      refine List.map_congr_left fun e he => ?_
      unfold inBinG
      rw [List.filter_filter]
      refine List.filter_congr fun p hp => ?_
      have hb : b ≤ e.1 := by
        have := List.of_mem_zip he
        rcases List.mem_cons.1 this.1 with h | h
        · exact h.ge
        · exact (List.pairwise_cons.1 hs').1 _ h
      have : e.1 ≤ p.1 → b ≤ p.1 := fun h => hb.trans h
      by_cases h1 : e.1 ≤ p.1
      · simp [h1, this h1]
      · simp [h1]
    rw [e2, e1]
    refine (List.Perm.append_left _ ih').trans ?_
    have := List.filter_append_perm (fun p : ℝ × β => decide (p.1 < b)) dg
    have e : (dg.filter fun p => decide ¬ p.1 < b) = dg.filter fun x => !decide (x.1 < b) :=
      List.filter_congr fun p _ => by rw [decide_not]
    rw [e]
    exact this

theorem binsG_ordered {β : Type} : ∀ (edges : List ℝ) (a : ℝ) (dg : List (ℝ × β)), (a :: edges).Pairwise (· ≤ ·) →
    (((a :: edges).zip edges).map fun e => inBinG dg e.1 e.2).Pairwise fun g g' => ∀ p ∈ g, ∀ q ∈ g', p.1 < q.1 := by
  intro edges
  induction edges with
  | nil => intro a dg _; simp
  | cons b rest ih =>
    intro a dg hs
    have hs' := (List.pairwise_cons.1 hs).2
    rw [List.zip_cons_cons, List.map_cons, List.pairwise_cons]
    refine ⟨fun g hg p hp q hq => ?_, ih b dg hs'⟩
    obtain ⟨e, he, rfl⟩ := List.mem_map.1 hg
    have hb : b ≤ e.1 := by
      rcases List.mem_cons.1 (List.of_mem_zip he).1 with h | h
      · exact h.ge
      · exact (List.pairwise_cons.1 hs').1 _ h
    exact ((mem_inBinG.1 hp).2.2.trans_le hb).trans_le (mem_inBinG.1 hq).2.1


theorem nanHalfSq_eq (a b : Option ℝ) : nanHalfSq a b = (match a, b with
      | some a, some b => some ((a - b) ^ 2 / 2)
      | _, _ => none) := by
  cases a <;> cases b <;> simp [nanHalfSq]
  ring

theorem nanHalfSq_comm (a b : Option ℝ) : nanHalfSq a b = nanHalfSq b a := by
  cases a <;> cases b <;> simp [nanHalfSq]
  ring

theorem pairDistancesNan_spec {n m : ℕ} {X : Fin n → Fin m → ℝ} {y : Fin n → Option ℝ} {ct : String} {dg : List (ℝ × Option ℝ)}
    (h : pairDistancesNan X y ct = .ok dg) : (dg : Multiset (ℝ × Option ℝ)) = nanPairsBy (fun i j => pairDistance ct (X i) (X j)) y := by
  unfold pairDistancesNan at h
  unfold nanPairsBy pairDistance
  split at h
  · next hc =>
    cases h
    rw [← Multiset.map_coe]
    have e : ((pdistPairs n : List _) : Multiset (Fin n × Fin n)) = (Finset.univ.filter fun p => p.1 < p.2).val := by
      refine (Multiset.Nodup.ext (by simpa using nodup_pdistPairs n) (Finset.nodup _)).2 fun p => ?_
      simp [mem_pdistPairs]
    rw [e]
    refine Multiset.map_congr rfl fun p _ => ?_
    beta_reduce; rw [if_pos hc]
    unfold euclid
    congr 1; exact nanHalfSq_eq _ _
  · next hc =>
    split at h
    · split at h
      · next hm =>
        cases h
        rw [← Multiset.map_coe]
        have e : ((lowerPairs n : List _) : Multiset (Fin n × Fin n)) =
            (Finset.univ.filter fun p : Fin n × Fin n => p.1 < p.2).val.map Prod.swap := by
          refine (Multiset.Nodup.ext (by simpa using nodup_lowerPairs n)
            ((Finset.nodup _).map Prod.swap_injective)).2 fun p => ?_
          simp only [Multiset.mem_coe, mem_lowerPairs, Multiset.mem_map, Finset.mem_val, Finset.mem_filter,
            Finset.mem_univ, true_and]
          exact ⟨fun h => ⟨p.swap, h, by simp⟩, fun ⟨q, h, e⟩ => by rw [← e]; exact h⟩
        rw [e, Multiset.map_map]
        refine Multiset.map_congr rfl fun p _ => ?_
        beta_reduce; rw [if_neg hc, dif_pos hm, ← greatCircle_eq]
        simp only [Function.comp, Prod.fst_swap, Prod.snd_swap]
        congr 1; exact nanHalfSq_eq _ _
      · cases h
    · cases h


theorem nanMean_eq (l : List (Option ℝ)) :
    nanMean l = if none ∈ l then none else some (average (l.map fun v => v.getD 0)) := by
  unfold nanMean average
  have key : ∀ (l : List (Option ℝ)) (acc : Option ℝ),
      l.foldl (fun (acc : Option ℝ) (v : Option ℝ) => acc.bind fun t => v.map fun u => t + u) acc =
        if none ∈ l then none else acc.map (· + (l.map fun v => v.getD 0).sum) := by
    intro l
    induction l with
    | nil => intro acc; cases acc <;> simp
    | cons a l ih =>
      intro acc
      rw [List.foldl_cons, ih]
      cases a with
      | none =>
        have : (acc.bind fun t => Option.map (fun u => t + u) (none : Option ℝ)) = none := by cases acc <;> rfl
        rw [this]; simp
      | some a =>
        cases acc <;> simp [add_assoc]
  rw [key]
  by_cases h : none ∈ l
  · simp [h]
  · simp [h]

/-- Lag and semivariance of a class. -/
def classMean (b : List (ℝ × Option ℝ)) : Option (ℝ × ℝ) :=
  if 0 < b.length then (nanMean (b.map Prod.snd)).map fun g => (mean (b.map Prod.fst), g) else none

theorem classMean_eq {b : List (ℝ × Option ℝ)} (h : 0 < b.length) : classMean b = groupMean b := by
  classical
  unfold classMean groupMean
  rw [if_pos h, nanMean_eq]
  have hiff : none ∈ b.map Prod.snd ↔ ∃ p ∈ b, p.2 = none := by rw [List.mem_map]
  by_cases h2 : ∃ p ∈ b, p.2 = none
  · rw [if_pos (hiff.2 h2), if_pos h2]; rfl
  · rw [if_neg (fun h => h2 (hiff.1 h)), if_neg h2, List.map_map]
    rfl

theorem classMean_groups (L : List (List (ℝ × Option ℝ))) :
    L.filterMap classMean = (L.filter fun g => !g.isEmpty).filterMap groupMean := by
  induction L with
  | nil => rfl
  | cons g L ih =>
    cases g with
    | nil => simpa [classMean] using ih
    | cons p g =>
      have h : 0 < (p :: g).length := by simp
      rw [List.filter_cons_of_pos (by rfl), List.filterMap_cons, List.filterMap_cons, ih, classMean_eq h]

theorem binnedNan_groups (dg : List (ℝ × Option ℝ)) (l : List (ℝ × ℝ)) :
    (l.filterMap fun e =>
      let b := dg.filter fun p => e.1 ≤ p.1 ∧ p.1 < e.2
      if 0 < b.length then (nanMean (b.map Prod.snd)).map fun g => (mean (b.map Prod.fst), g) else none) =
    ((l.map fun e => inBinG dg e.1 e.2).filter fun g => !g.isEmpty).filterMap groupMean := by
  rw [← classMean_groups, List.filterMap_map]
  rfl

/-- The groups of C18; those that contain a nan are left out of the experimental variogram. -/
theorem nan_groups {n m : ℕ} {X : Fin n → Fin m → ℝ} {y : Fin n → Option ℝ} {nlags : ℕ} {ct : String}
    {ev : List (ℝ × ℝ)} (h : experimentalVariogramNan X y nlags ct = .ok ev) (hn : 0 < nlags) :
    ∃ groups : List (List (ℝ × Option ℝ)),
      (groups.flatten : Multiset (ℝ × Option ℝ)) = nanPairsBy (fun i j => pairDistance ct (X i) (X j)) y ∧
      ev = groups.filterMap groupMean ∧
      (∀ g ∈ groups, g ≠ []) ∧ groups.length ≤ nlags ∧
      groups.Pairwise (fun g g' => ∀ p ∈ g, ∀ q ∈ g', p.1 < q.1) ∧
      ∃ lo hi, IsLeast {d | ∃ p ∈ nanPairsBy (fun i j => pairDistance ct (X i) (X j)) y, d = p.1} lo ∧
        IsGreatest {d | ∃ p ∈ nanPairsBy (fun i j => pairDistance ct (X i) (X j)) y, d = p.1} hi ∧
        ∀ g ∈ groups, ∃ k < nlags, ∀ p ∈ g, lo + k * ((hi - lo) / nlags) ≤ p.1 ∧
          p.1 ≤ lo + (k + 1) * ((hi - lo) / nlags) ∧ (k + 1 < nlags → p.1 < lo + (k + 1) * ((hi - lo) / nlags)) := by
  unfold experimentalVariogramNan at h
  obtain ⟨dg, h1, h⟩ := py_bind_eq_ok.1 h
  obtain ⟨hi, h2, h⟩ := py_bind_eq_ok.1 h
  obtain ⟨lo, h3, h⟩ := py_bind_eq_ok.1 h
  have h : ev = binnedNan dg (binEdges lo hi nlags) := (Except.ok.inj h).symm
  subst h
  have hd := pairDistancesNan_spec h1
  rw [← hd]
  obtain ⟨a, ha⟩ : ∃ a, a ∈ dg.map Prod.fst := by
    cases hl : dg.map Prod.fst with
    | nil => rw [hl] at h2; cases h2
    | cons a l => exact ⟨a, by simp⟩
  obtain ⟨hi', h2', ghi⟩ := amax_spec ha
  obtain ⟨lo', h3', glo⟩ := amin_spec ha
  obtain rfl : hi = hi' := by rw [h2] at h2'; exact Except.ok.inj h2'
  obtain rfl : lo = lo' := by rw [h3] at h3'; exact Except.ok.inj h3'
  have hset : {v | v ∈ dg.map Prod.fst} = {d | ∃ p ∈ (dg : Multiset (ℝ × Option ℝ)), d = p.1} := by
    ext d
    simp only [List.mem_map, Set.mem_ofPred_eq, Multiset.mem_coe]
    exact ⟨fun ⟨p, hp, he⟩ => ⟨p, hp, he.symm⟩, fun ⟨p, hp, he⟩ => ⟨p, hp, he.symm⟩⟩
  have hle : lo ≤ hi := (glo.2 ha).trans (ghi.2 ha)
  have hsort := binEdges_sorted hle hn
  obtain ⟨t, ht, htl, hlast⟩ := binEdges_cons lo hi hn
  rw [ht] at hsort
  have hmem : ∀ p ∈ dg, lo ≤ p.1 ∧ p.1 ≤ hi := fun p hp =>
    ⟨glo.2 (List.mem_map.2 ⟨p, hp, rfl⟩), ghi.2 (List.mem_map.2 ⟨p, hp, rfl⟩)⟩
  set bins := ((lo :: t).zip t).map fun e => inBinG dg e.1 e.2 with hbins
  have hperm : bins.flatten.Perm dg := binsG_flatten t lo dg hsort (fun p hp => by
    rw [hlast]
    exact ⟨(hmem p hp).1, by linarith [(hmem p hp).2]⟩)
  refine ⟨bins.filter (fun g => !g.isEmpty), ?_, ?_, ?_, ?_, ?_, lo, hi, hset ▸ glo, hset ▸ ghi, ?_⟩
  · rw [List.flatten_filter_not_isEmpty, Multiset.coe_eq_coe]
    exact hperm
  · clear h
    unfold binnedNan
    rw [ht, List.tail_cons, hbins]
    exact binnedNan_groups dg _
  · intro g hg
    have := (List.mem_filter.1 hg).2
    intro hc
    rw [hc] at this
    simp at this
  · refine (List.length_filter_le _ _).trans ?_
    rw [hbins, List.length_map, List.length_zip, List.length_cons, htl]
    simp
  · exact (binsG_ordered t lo dg hsort).filter _
  · intro g hg
    obtain ⟨hg, hne⟩ := List.mem_filter.1 hg
    obtain ⟨e, he, rfl⟩ := List.mem_map.1 hg
    obtain ⟨k, hk, hke⟩ := List.mem_iff_getElem.1 he
    rw [List.length_zip, List.length_cons, htl, min_eq_right (by omega)] at hk
    have hm' : (0 : ℝ) < nlags := by exact_mod_cast hn
    refine ⟨k, hk, fun p hp => ?_⟩
    obtain ⟨hp1, hp2, hp3⟩ := mem_inBinG.1 hp
    have e1 : (binEdges lo hi nlags)[k]? = some e.1 := by
      rw [ht, ← hke]
      simp [List.getElem_zip]
    have e2 : (binEdges lo hi nlags)[k + 1]? = some e.2 := by
      rw [ht, ← hke]
      simp [List.getElem_zip]
    rw [binEdges_getElem, if_pos hk] at e1
    rw [binEdges_getElem] at e2
    rw [← Option.some.inj e1] at hp2
    refine ⟨hp2, ?_⟩
    split at e2
    · next h4 =>
      have e2 := Option.some.inj e2
      push_cast at e2
      rw [← e2] at hp3
      exact ⟨hp3.le, fun _ => hp3⟩
    · next h4 =>
      have h5 : k + 1 = nlags := by omega
      refine ⟨?_, fun hc => absurd hc h4⟩
      have : ((k : ℝ) + 1) = nlags := by exact_mod_cast h5
      rw [this, mul_div_cancel₀ _ hm'.ne']
      linarith [(hmem p hp1).2]


end
end PyKrige
