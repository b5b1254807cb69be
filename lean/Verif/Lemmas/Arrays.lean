import Verif.Model.Arrays
import Verif.Props.C18
import Verif.Lemmas.Py

/-! Facts about the constructors on arrays of any length. -/

set_option linter.unusedSectionVars false

namespace PyKrige
noncomputable section
open Spec

theorem boolIndex_map {α : Type} (l : List α) (D G : α → ℝ) (P : ℝ → Bool) :
    boolIndex (l.map G) ((l.map D).map P) = .ok ((l.filter fun a => P (D a)).map G) := by
  unfold boolIndex
  rw [if_pos (by simp)]
  congr 1
  induction l with
  | nil => rfl
  | cons a l ih =>
    simp only [List.map_cons, List.zip_cons_cons, List.filterMap_cons, List.filter_cons]
    by_cases h : P (D a) = true
    · rw [if_pos h, if_pos h, List.map_cons, ← ih]
    · rw [if_neg h, if_neg h, ← ih]

open Classical in
/-- One bin. -/
theorem bin_row {α : Type} (l : List α) (D G : α → ℝ) (e : ℝ × ℝ) :
    (do
      let mask := (l.map D).map fun v => decide (e.1 ≤ v ∧ v < e.2)
      let db ← boolIndex (l.map D) mask
      if 0 < db.length then
        let gb ← boolIndex (l.map G) mask
        return some (mean db, mean gb)
      else return none : Py (Option (ℝ × ℝ))) =
    .ok (let b := inBin (l.map fun a => (D a, G a)) e.1 e.2
      if 0 < b.length then some (mean (b.map Prod.fst), mean (b.map Prod.snd)) else none) := by
  have hb : inBin (l.map fun a => (D a, G a)) e.1 e.2 = (l.filter fun a => decide (e.1 ≤ D a ∧ D a < e.2)).map fun a => (D a, G a) := by
    unfold inBin
    rw [List.filter_map]
    rfl
  dsimp only
  rw [boolIndex_map, boolIndex_map, hb]
  simp only [List.length_map, List.map_map]
  by_cases h : 0 < (l.filter fun a => decide (e.1 ≤ D a ∧ D a < e.2)).length
  · rw [if_pos h, py_ok_bind, if_pos (by rw [List.length_map]; exact h), py_ok_bind]
    rfl
  · rw [if_neg h, py_ok_bind, if_neg (by rw [List.length_map]; exact h)]
    rfl

open Classical in
theorem variogramArr_of_pairs {α : Type} {n m : ℕ} {X : Fin n → Fin m → ℝ} {y : NdArray} {nlags : ℕ} {ct : String} {l : List α} {D G : α → ℝ}
    (h : pairDistancesArr X y ct = .ok (l.map D, l.map G)) {y₀ : Fin n → ℝ} (h₀ : pairDistances X y₀ ct = .ok (l.map fun a => (D a, G a))) :
    experimentalVariogramArr X y nlags ct = experimentalVariogram X y₀ nlags ct := by
  have hf : (l.map fun a => (D a, G a)).map Prod.fst = l.map D := by simp
  unfold experimentalVariogramArr experimentalVariogram
  rw [h, h₀]
  simp only [py_ok_bind, hf]
  cases amax (l.map D) with
  | error e => rfl
  | ok mx =>
    cases amin (l.map D) with
    | error e => rfl
    | ok mn =>
      simp only [py_ok_bind]
      rw [show (fun e : ℝ × ℝ => (do
          let db ← boolIndex (l.map D) ((l.map D).map fun v => decide (e.1 ≤ v ∧ v < e.2))
          if 0 < db.length then do
            let gb ← boolIndex (l.map G) ((l.map D).map fun v => decide (e.1 ≤ v ∧ v < e.2))
            pure (some (mean db, mean gb))
          else pure none : Py (Option (ℝ × ℝ)))) = _ from funext fun e => bin_row l D G e, py_mapM_pure]
      simp only [py_ok_bind, binned, List.filterMap_map]
      rfl

/-- Arrays of one length: the experimental variogram of C18. -/
theorem variogramArr_eq {n m : ℕ} (X : Fin n → Fin m → ℝ) (y : Fin n → ℝ) (nlags : ℕ) (ct : String) :
    experimentalVariogramArr X ⟨n, y⟩ nlags ct = experimentalVariogram X y nlags ct := by
  by_cases h1 : ct = "euclidean"
  · exact variogramArr_of_pairs (by unfold pairDistancesArr; rw [if_pos h1]) (by unfold pairDistances; rw [if_pos h1])
  · by_cases h2 : ct = "geographic"
    · by_cases h3 : m = 2
      · exact variogramArr_of_pairs (by unfold pairDistancesArr; rw [if_neg h1, if_pos h2, dif_pos h3, if_pos rfl])
          (by unfold pairDistances; rw [if_neg h1, if_pos h2, dif_pos h3])
      · unfold experimentalVariogramArr experimentalVariogram pairDistancesArr pairDistances
        rw [if_neg h1, if_pos h2, dif_neg h3, if_neg h1, if_pos h2, dif_neg h3]; rfl
    · unfold experimentalVariogramArr experimentalVariogram pairDistancesArr pairDistances
      rw [if_neg h1, if_neg h2, if_neg h1, if_neg h2]; rfl

theorem length_pdistPairs (n : ℕ) : (pdistPairs n).length = n * (n - 1) / 2 := by
  have := C18_number_of_pairs (fun (_ : Fin n) (_ : Fin 1) => 0) (fun _ => 0) "euclidean"
  rw [← this]
  unfold pairs pairsBy
  rw [Multiset.card_map, ← Multiset.coe_card, show ((pdistPairs n : List _) : Multiset (Fin n × Fin n)) =
    (Finset.univ.filter fun p : Fin n × Fin n => p.1 < p.2).val from
      (Multiset.Nodup.ext (by simpa using nodup_pdistPairs n) (Finset.nodup _)).2 fun p => by simp [mem_pdistPairs]]

theorem pairs_inj {n k : ℕ} (hn : 2 ≤ n) (h : k * (k - 1) / 2 = n * (n - 1) / 2) : k = n := by
  rw [← Nat.choose_two_right, ← Nat.choose_two_right] at h
  by_contra hne
  rcases lt_or_gt_of_ne hne with hlt | hlt
  · have h1 : k.choose 2 ≤ (n - 1).choose 2 := Nat.choose_le_choose 2 (by omega)
    have h2 : n.choose 2 = (n - 1).choose 1 + (n - 1).choose 2 := by
      obtain ⟨m, rfl⟩ : ∃ m, n = m + 1 := ⟨n - 1, by omega⟩
      simp [Nat.choose_succ_succ]
    rw [Nat.choose_one_right] at h2
    omega
  · have h1 : n.choose 2 ≤ (k - 1).choose 2 := Nat.choose_le_choose 2 (by omega)
    have h2 : k.choose 2 = (k - 1).choose 1 + (k - 1).choose 2 := by
      obtain ⟨m, rfl⟩ : ∃ m, k = m + 1 := ⟨k - 1, by omega⟩
      simp [Nat.choose_succ_succ]
    rw [Nat.choose_one_right] at h2
    omega

theorem mapM_mem {α β : Type} {f : α → Py β} {l : List α} {r : List β} (h : l.mapM f = .ok r) {a : α} (ha : a ∈ l) :
    ∃ b, f a = .ok b := by
  replace h := py_mapM_eq_ok.1 h
  induction h with
  | nil => cases ha
  | cons h1 _ ih =>
    rcases List.mem_cons.1 ha with rfl | ha
    · exact ⟨_, h1⟩
    · exact ih ha

open Classical in
/-- Values of another number than coordinates: an error. -/
theorem variogramArr_ne {n m : ℕ} (X : Fin n → Fin m → ℝ) {y : NdArray} (hy : y.1 ≠ n) {nlags : ℕ} (hn : 0 < nlags) (ct : String) :
    ∃ e, experimentalVariogramArr X y nlags ct = .error e := by
  cases hev : experimentalVariogramArr X y nlags ct with
  | error e => exact ⟨e, rfl⟩
  | ok rows =>
    exfalso
    unfold experimentalVariogramArr at hev
    obtain ⟨⟨d, g⟩, h1, hev⟩ := py_bind_eq_ok.1 hev
    obtain ⟨mx, h2, hev⟩ := py_bind_eq_ok.1 hev
    obtain ⟨mn, h3, hev⟩ := py_bind_eq_ok.1 hev
    obtain ⟨rows', h4, -⟩ := py_bind_eq_ok.1 hev
    have hct : ct = "euclidean" := by
      by_contra hc
      unfold pairDistancesArr at h1
      rw [if_neg hc] at h1
      by_cases hg : ct = "geographic"
      · rw [if_pos hg] at h1
        by_cases hm : m = 2
        · rw [dif_pos hm, if_neg hy] at h1; cases h1
        · rw [dif_neg hm] at h1; cases h1
      · rw [if_neg hg] at h1; cases h1
    unfold pairDistancesArr at h1
    rw [if_pos hct] at h1
    obtain ⟨rfl, rfl⟩ : d = _ ∧ g = _ := by
      have := Except.ok.inj h1
      exact ⟨(Prod.ext_iff.1 this).1.symm, (Prod.ext_iff.1 this).2.symm⟩
    have h2n : 2 ≤ n := by
      by_contra hlt
      have hl := length_pdistPairs n
      have : n * (n - 1) / 2 = 0 := by
        have : n = 0 ∨ n = 1 := by omega
        rcases this with rfl | rfl <;> rfl
      rw [this] at hl
      rw [List.length_eq_zero_iff.1 hl] at h2
      cases h2
    -- a bin that is not empty
    obtain ⟨ev, hev0⟩ := C18_accepted h2n X (fun _ => 0) nlags (.inl hct)
    have hne := (C18_lags_increase hev0 hn).2.2
    unfold experimentalVariogram pairDistances at hev0
    rw [if_pos hct] at hev0
    have hfst : ((pdistPairs n).map fun p => (euclid (X p.1) (X p.2), (1 / 2 : ℝ) * ((fun _ => 0 : Fin n → ℝ) p.1 - (fun _ => 0 : Fin n → ℝ) p.2) ^ 2)).map
        Prod.fst = (pdistPairs n).map fun p => euclid (X p.1) (X p.2) := by simp
    rw [py_ok_bind, hfst, h2, py_ok_bind, h3, py_ok_bind] at hev0
    rw [← Except.ok.inj hev0] at hne
    unfold binned at hne
    obtain ⟨e, he, hpos⟩ : ∃ e ∈ (binEdges mn mx nlags).zip (binEdges mn mx nlags).tail,
        0 < (inBin ((pdistPairs n).map fun p => (euclid (X p.1) (X p.2), (1 / 2 : ℝ) * ((fun _ => 0 : Fin n → ℝ) p.1 - (fun _ => 0 : Fin n → ℝ) p.2) ^ 2))
          e.1 e.2).length := by
      by_contra hc
      push Not at hc
      refine hne (List.filterMap_eq_nil_iff.2 fun e he => ?_)
      exact if_neg (Nat.not_lt.2 (hc e he))
    obtain ⟨b, hb⟩ := mapM_mem h4 he
    dsimp only at hb
    rw [boolIndex_map, py_ok_bind] at hb
    have hlen : 0 < ((pdistPairs n).filter fun a => decide (e.1 ≤ euclid (X a.1) (X a.2) ∧ euclid (X a.1) (X a.2) < e.2)).length := by
      unfold inBin at hpos
      rw [List.filter_map, List.length_map] at hpos
      exact hpos
    rw [if_pos (by rw [List.length_map]; exact hlen)] at hb
    obtain ⟨gb, h5, -⟩ := py_bind_eq_ok.1 hb
    unfold boolIndex at h5
    split at h5
    · next hl =>
      simp only [List.length_map, length_pdistPairs] at hl
      exact hy (pairs_inj h2n hl)
    · cases h5

end
end PyKrige
