import Verif.Spec.Request
import Verif.Lemmas.ModelValid
import Verif.Lemmas.OnlyDist
import Verif.Lemmas.UKValid

/-! When `execute` succeeds. -/

set_option linter.unusedSectionVars false

namespace PyKrige
noncomputable section
open Spec

theorem wellPosed_style {ea : ExecArgs} (h : WellPosed ea) : ea.style ∈ ["grid", "masked", "points"] := by
  rcases h with h | ⟨h, -⟩ | ⟨h, -⟩ <;> simp [h]

theorem wellPosed_style3 {ea : ExecArgs3} (h : WellPosed3 ea) : ea.style ∈ ["grid", "masked", "points"] := by
  rcases h with h | ⟨h, -⟩ | ⟨h, -⟩ <;> simp [h]

theorem OK.accept {n : ℕ} {env : Env} {x y z : Fin n → ℝ} {args : OKArgs} {s : OK n}
    (h : OK.create env x y z args = .ok s) {ea : ExecArgs} (ha : Admissible env args s ea.nClosest)
    {γ : ℝ → ℝ} (hγ : s.variogramFunction s.params = .ok γ) (hq : WellPosed ea) (hw : WindowOk ea.nClosest)
    (hi : args.coordinatesType = "euclidean" → HasFloats ea) (hb : Supports env args ea.nClosest ea.backend)
    (hG : ea.nClosest = none → Solvable args.pseudoInv (semivar γ fun i j => okDistance args (x i, y i) (x j, y j)) noF)
    (hG' : ∀ k : ℕ, ea.nClosest = some (k : ℤ) → ∀ l : List (Fin n), l.Nodup → l.length = k →
      SelRegular l γ fun i j => okDistance args (x i, y i) (x j, y j)) :
    ∃ r, s.execute env ea = .ok r := by
  obtain ⟨hD, -⟩ := OK.create_dist h
  have hD' : s.dataDist = fun i i' => okDistance args (x i, y i) (x i', y i') := by funext i i'; exact hD i i'
  obtain ⟨-, -, hP, -, hC⟩ := OK.create_fields h
  rw [(OK.create_pw h ha).ok_iff]
  refine ⟨⟨wellPosed_style hq, hw, ⟨γ, hγ⟩, (queryPoints_ok_iff ea).2 hq, fun hc => hi (hC.1 ▸ hc.1) hc.2,
    (OK.check_iff h ha.noClash ⟨γ, hγ⟩ ea).2 hb, fun hn => ?_⟩, fun j p _ _ k hk => ?_⟩
  · rw [hP, OK.gam_eq hγ, hD']; exact hG hn
  · rw [OK.gam_eq hγ, hD']
    have h1 := hw k hk
    have h2 := ha.window k hk
    obtain ⟨hl, hnd⟩ := OK.sel_spec ha.knn s (k := k.toNat) (by omega) p
    exact hG' k.toNat (by rw [hk]; congr 1; omega) _ hnd hl

theorem OK3D.accept {n : ℕ} {env : Env} {x y z v : Fin n → ℝ} {args : OK3DArgs} {s : OK3D n}
    (h : OK3D.create env x y z v args = .ok s) {ea : ExecArgs3} (hk : KnnSpec env) (hwf : WindowFits n ea.nClosest)
    {γ : ℝ → ℝ} (hγ : s.variogramFunction s.params = .ok γ) (hq : WellPosed3 ea) (hw : WindowOk ea.nClosest)
    (hi : HasFloats3 ea) (hb : ea.backend = "loop" ∨ (ea.nClosest = none ∧ ea.backend = "vectorized"))
    (hG : ea.nClosest = none → Solvable args.pseudoInv (semivar γ fun i j => ok3Distance args (x i, y i, z i) (x j, y j, z j)) noF)
    (hG' : ∀ k : ℕ, ea.nClosest = some (k : ℤ) → ∀ l : List (Fin n), l.Nodup → l.length = k →
      SelRegular l γ fun i j => ok3Distance args (x i, y i, z i) (x j, y j, z j)) :
    ∃ r, s.execute env ea = .ok r := by
  obtain ⟨hD, -⟩ := OK3D.create_dist h
  have hD' : s.dataDist = fun i i' => ok3Distance args (x i, y i, z i) (x i', y i', z i') := by funext i i'; exact hD i i'
  obtain ⟨-, -, hP, -⟩ := OK3D.create_fields h
  rw [(OK3D.create_pw h hk hwf).ok_iff]
  refine ⟨⟨wellPosed_style3 hq, hw, ⟨γ, hγ⟩, (queryPoints3_ok_iff ea).2 hq, hi, hb, fun hn => ?_⟩, fun j p _ _ k hk' => ?_⟩
  · rw [hP, OK3D.gam_eq hγ, hD']; exact hG hn
  · rw [OK3D.gam_eq hγ, hD']
    have h1 := hw k hk'
    have h2 := hwf k hk'
    obtain ⟨hl, hnd⟩ := OK3D.sel_spec hk s (k := k.toNat) (by omega) p
    exact hG' k.toNat (by rw [hk']; congr 1; omega) _ hnd hl

theorem mapM_length_py {α β : Type} {f : α → Py β} {l : List α} {r : List β} (h : l.mapM f = .ok r) : r.length = l.length :=
  ((py_mapM_eq_ok.1 h).length_eq).symm

theorem UK.specGrids_ok {n : ℕ} {env : Env} {x y z : Fin n → ℝ} {args : UKArgs} {s : UK n}
    (h : UK.create env x y z args = .ok s) {ea : UKExecArgs} (hst : ea.toExec.style ∈ ["grid", "masked", "points"])
    (hs : SpecFits args ea) : ∃ g, s.specGrids ea = .ok g := by
  obtain ⟨h1, h2, h3, h4, h5⟩ := UK.create_drift h
  by_cases ht : "specified" ∈ args.driftTerms
  swap
  · exact ⟨[], UK.specGrids_none (UK.specified_none h ht) ea⟩
  obtain ⟨l, l₀, hl, hl₀, hlen, hfit⟩ := hs ht
  unfold setupSpecifiedTerm at h4
  rw [if_pos ht, hl₀] at h4
  obtain ⟨arrs, ha, he⟩ := py_map_eq_ok.1 h4
  cases l₀ with
  | nil => cases ha
  | cons t ts =>
    have hal := mapM_length_py ha
    cases l with
    | nil => simp at hlen
    | cons a l =>
      have key : ∀ b ∈ a :: l, ∃ g, checkSpec ea.toExec.style ea.toExec.xpoints.vals.length
          ea.toExec.ypoints.vals.length b = .ok g := by
        intro b hb
        have := hfit b hb
        unfold checkSpec
        cases b with
        | d1 l => obtain ⟨e, e'⟩ := this; simp [e, e']
        | d2 r c get =>
          obtain ⟨e, e'⟩ := this
          have : ea.toExec.style ∈ ["grid", "masked"] := by
            simp only [List.mem_cons, List.not_mem_nil, or_false] at hst ⊢; tauto
          dsimp only
          rw [if_pos this]
          rcases e' with ⟨rfl, rfl⟩ | ⟨rfl, rfl⟩
          · rw [if_neg (by simp)]; exact ⟨_, rfl⟩
          · split
            · rw [if_pos ⟨rfl, rfl⟩]; exact ⟨_, rfl⟩
            · exact ⟨_, rfl⟩
      obtain ⟨g, hg⟩ := (py_mapM_ok_iff _ _).2 key
      refine ⟨g, ?_⟩
      unfold UK.specGrids
      rw [← he, hl]
      simp only [hg, py_ok_bind]
      rw [if_neg]
      · rfl
      · rw [mapM_length_py hg, hal]; simp [hlen]

theorem UK3D.specGrids_ok {n : ℕ} {env : Env} {x y z v : Fin n → ℝ} {args : UK3DArgs} {s : UK3D n}
    (h : UK3D.create env x y z v args = .ok s) {ea : UK3DExecArgs} (hst : ea.toExec.style ∈ ["grid", "masked", "points"])
    (hs : SpecFits3 args ea) : ∃ g, s.specGrids ea = .ok g := by
  obtain ⟨h1, h4, h5⟩ := UK3D.create_drift h
  by_cases ht : "specified" ∈ args.driftTerms
  swap
  · exact ⟨[], UK3D.specGrids_none (UK3D.specified_none h ht) ea⟩
  obtain ⟨l, l₀, hl, hl₀, hlen, hfit⟩ := hs ht
  unfold setupSpecifiedTerm at h4
  rw [if_pos ht, hl₀] at h4
  obtain ⟨arrs, ha, he⟩ := py_map_eq_ok.1 h4
  cases l₀ with
  | nil => cases ha
  | cons t ts =>
    have hal := mapM_length_py ha
    cases l with
    | nil => simp at hlen
    | cons a l =>
      have key : ∀ b ∈ a :: l, ∃ g, checkSpec3 ea.toExec.style ea.toExec.xpoints.vals.length
          ea.toExec.ypoints.vals.length ea.toExec.zpoints.vals.length b = .ok g := by
        intro b hb
        have := hfit b hb
        unfold checkSpec3
        cases b with
        | d1 l => obtain ⟨e, e'⟩ := this; simp [e, e']
        | d2 => exact this.elim
        | d3 r c d get =>
          obtain ⟨e, e'⟩ := this
          have : ea.toExec.style ∈ ["grid", "masked"] := by
            simp only [List.mem_cons, List.not_mem_nil, or_false] at hst ⊢; tauto
          dsimp only
          rw [if_pos this]
          rcases e' with ⟨rfl, rfl, rfl⟩ | ⟨rfl, rfl, rfl⟩
          · rw [if_neg (by simp)]; exact ⟨_, rfl⟩
          · split
            · rw [if_pos ⟨rfl, rfl, rfl⟩]; exact ⟨_, rfl⟩
            · exact ⟨_, rfl⟩
      obtain ⟨g, hg⟩ := (py_mapM_ok_iff _ _).2 key
      refine ⟨g, ?_⟩
      unfold UK3D.specGrids
      rw [← he, hl]
      simp only [hg, py_ok_bind]
      rw [if_neg]
      · rfl
      · rw [mapM_length_py hg, hal]; simp [hlen]

theorem UK.accept {n : ℕ} {env : Env} {x y z : Fin n → ℝ} {args : UKArgs} {s : UK n}
    (h : UK.create env x y z args = .ok s) {ea : UKExecArgs}
    {γ : ℝ → ℝ} (hγ : s.variogramFunction s.params = .ok γ) (hq : WellPosed ea.toExec)
    (hi : HasFloats ea.toExec) (hs : SpecFits args ea)
    (hb : ea.toExec.backend = "vectorized" ∨ ea.toExec.backend = "loop" ∧ "specified" ∉ args.driftTerms ∧
      ∀ j p, queryAt ea.toExec j = some p → maskedAt ea.toExec j = false →
        ¬ AtWell args s.anisotropyScaling s.anisotropyAngle p)
    (he : ∀ j p, queryAt ea.toExec j = some p → (maskedAt ea.toExec j = false ∨ ea.toExec.backend = "vectorized") →
      ExternalCovers args p)
    (hG : Solvable args.pseudoInv (semivar γ fun i j => ukDistance args (x i, y i) (x j, y j)) s.F) :
    ∃ r, s.execute ea = .ok r := by
  obtain ⟨hD, -⟩ := UK.create_dist h
  have hD' : s.dataDist = fun i i' => ukDistance args (x i, y i) (x i', y i') := by funext i i'; exact hD i i'
  obtain ⟨-, -, hP, -⟩ := UK.create_fields h
  rw [(UK.create_pw h ea).ok_iff]
  refine ⟨⟨wellPosed_style hq, ⟨γ, hγ⟩, (queryPoints_ok_iff _).2 hq, UK.specGrids_ok h (wellPosed_style hq) hs,
    by simpa [HasFloats] using hi, hb.imp id And.left, ?_⟩, fun j p hj hn => ?_⟩
  · rw [hP, UK.gam_eq hγ, hD']; exact hG
  · refine ⟨(UK.extP_ok_iff h p).2 (he j p hj hn), fun hl => ?_⟩
    rcases hb with hb | ⟨-, hsp, hb⟩
    · rw [hl] at hb; simp at hb
    · refine ⟨fun hc => hb j p hj ?_ ((UK.atWell_iff h p).1 hc), _, UK.loopSpec_none (UK.specified_none h hsp) _⟩
      rw [hl] at hn; simpa using hn

theorem UK3D.accept {n : ℕ} {env : Env} {x y z v : Fin n → ℝ} {args : UK3DArgs} {s : UK3D n}
    (h : UK3D.create env x y z v args = .ok s) {ea : UK3DExecArgs}
    {γ : ℝ → ℝ} (hγ : s.variogramFunction s.params = .ok γ) (hq : WellPosed3 ea.toExec)
    (hi : HasFloats3 ea.toExec) (hs : SpecFits3 args ea)
    (hb : ea.toExec.backend = "vectorized" ∨ ea.toExec.backend = "loop" ∧ "specified" ∉ args.driftTerms)
    (hG : Solvable args.pseudoInv (semivar γ fun i j => uk3Distance args (x i, y i, z i) (x j, y j, z j)) s.F) :
    ∃ r, s.execute ea = .ok r := by
  obtain ⟨hD, -⟩ := UK3D.create_dist h
  have hD' : s.dataDist = fun i i' => uk3Distance args (x i, y i, z i) (x i', y i', z i') := by funext i i'; exact hD i i'
  obtain ⟨-, -, hP, -⟩ := UK3D.create_fields h
  rw [(UK3D.create_pw h ea).ok_iff]
  refine ⟨⟨wellPosed_style3 hq, ⟨γ, hγ⟩, (queryPoints3_ok_iff _).2 hq, UK3D.specGrids_ok h (wellPosed_style3 hq) hs,
    by simpa [HasFloats3] using hi, hb.imp id And.left, ?_⟩, fun j p hj hn hl => ?_⟩
  · rw [hP, UK3D.gam_eq hγ, hD']; exact hG
  · rcases hb with hb | ⟨-, hsp⟩
    · rw [hl] at hb; simp at hb
    · exact ⟨_, UK3D.loopSpec_none (UK3D.specified_none h hsp) _⟩

/-! ### Independent drift terms -/

theorem independent_get {n : ℕ} (i₀ : Fin n) {M : List (Fin n → ℝ)} {D : Fin n → List ℝ} (hD : ∀ i, M.map (· i) = D i)
    (h : Independent D) (a : Fin M.length → ℝ) (b : ℝ) (hi : ∀ i, ∑ l, M.get l i * a l + b = 0) : a = 0 ∧ b = 0 := by
  have hl : ∀ i, (D i).length = M.length := fun i => by rw [← hD]; simp
  obtain ⟨h1, h2⟩ := h (fun l => if hl : l < M.length then a ⟨l, hl⟩ else 0) b fun i => by
    rw [hl, ← hi i, Finset.sum_range]
    congr 1
    refine Finset.sum_congr rfl fun l _ => ?_
    rw [← hD]
    simp [mul_comm]
  refine ⟨funext fun l => ?_, h2⟩
  have := h1 i₀ l.val (by rw [hl]; exact l.isLt)
  simpa using this

theorem UK.regular_of {n : ℕ} {env : Env} {x y z : Fin n → ℝ} {args : UKArgs} {s : UK n}
    (h : UK.create env x y z args = .ok s) {G : Fin n → Fin n → ℝ} (hG : StrictCondNeg G)
    (hI : Independent fun i => driftTerms2 args s.adjustPoint (specAtDatum args.specifiedDrift i) (x i, y i)) :
    Regular G s.F := by
  have h2 := UK.create_two_le h
  have : Nonempty (Fin n) := ⟨⟨0, by omega⟩⟩
  exact hG.regular fun a b hi => independent_get ⟨0, by omega⟩ (fun i => (UK.driftData_eq h i).1) hI a b hi

theorem UK3D.regular_of {n : ℕ} {env : Env} {x y z v : Fin n → ℝ} {args : UK3DArgs} {s : UK3D n}
    (h : UK3D.create env x y z v args = .ok s) {G : Fin n → Fin n → ℝ} (hG : StrictCondNeg G)
    (hI : Independent fun i => driftTerms3 args s.adjustPoint (specAtDatum args.specifiedDrift i) (x i, y i, z i)) :
    Regular G s.F := by
  have h2 := UK3D.create_two_le h
  have : Nonempty (Fin n) := ⟨⟨0, by omega⟩⟩
  exact hG.regular fun a b hi => independent_get ⟨0, by omega⟩ (fun i => UK3D.driftData_eq h i) hI a b hi

theorem selRegular_strict {n : ℕ} {γ : ℝ → ℝ} {D : Fin n → Fin n → ℝ} (h : StrictCondNeg (semivar γ D))
    {l : List (Fin n)} (hl : l.Nodup) (h0 : l ≠ []) : SelRegular l γ D := by
  have : Nonempty (Fin l.length) := ⟨⟨0, List.length_pos_iff.2 h0⟩⟩
  exact (h.sub (sel := l.get) (List.nodup_iff_injective_get.1 hl)).regular_ok

/-! ### Drift setups that are accepted -/

theorem setupSpecifiedTerm_ok {n : ℕ} {dt : List String} {arg : ListArg (List ℝ)}
    (h : "specified" ∈ dt → ∃ l, arg = .list l ∧ l ≠ [] ∧ ∀ t ∈ l, t.length = n) :
    ∃ e, setupSpecifiedTerm n dt arg = .ok e := by
  unfold setupSpecifiedTerm
  split
  · next ht =>
    obtain ⟨l, rfl, h0, hl⟩ := h ht
    cases l with
    | nil => exact absurd rfl h0
    | cons t ts =>
      obtain ⟨r, hr⟩ := (py_mapM_ok_iff (fun term : List ℝ => if h : term.length = n then
        (.ok fun i => term.get (i.cast h.symm) : Py (Fin n → ℝ)) else .error .valueError) (t :: ts)).2
          fun a ha => ⟨_, dif_pos (hl a ha)⟩
      exact ⟨some r, py_map_eq_ok.2 ⟨r, hr, rfl⟩⟩
  · exact ⟨_, rfl⟩

theorem setupFunctionalTerm_ok {α : Type} {dt : List String} {arg : ListArg α}
    (h : "functional" ∈ dt → ∃ l, arg = .list l ∧ l ≠ []) : ∃ e, setupFunctionalTerm dt arg = .ok e := by
  unfold setupFunctionalTerm
  split
  · next ht =>
    obtain ⟨l, rfl, h0⟩ := h ht
    cases l with
    | nil => exact absurd rfl h0
    | cons t ts => exact ⟨_, rfl⟩
  · exact ⟨_, rfl⟩

theorem setupExternalZ_ok {n : ℕ} (hn : 0 < n) {x y : Fin n → ℝ} {args : UKArgs} (h : ∀ i, ExternalCovers args (x i, y i)) :
    ∃ e, setupExternalZ x y args = .ok e := by
  unfold setupExternalZ
  split
  · next ht =>
    obtain ⟨v, hv⟩ := h ⟨0, hn⟩ ht
    obtain ⟨e, he, -⟩ := py_bind_eq_ok.1 hv
    rw [he]
    have key : ∀ i, ∃ w, e.zScalar (x i) (y i) = .ok w := fun i => by
      obtain ⟨w, hw⟩ := h i ht
      obtain ⟨e', he', hw⟩ := py_bind_eq_ok.1 hw
      rw [he] at he'
      cases he'
      exact ⟨w, hw⟩
    obtain ⟨l, hl⟩ := (py_mapM_ok_iff (fun i => e.zScalar (x i) (y i)) (List.finRange n)).2 fun i _ => key i
    simp only [py_ok_bind, ExtDrift.atData, hl]
    exact ⟨_, rfl⟩
  · exact ⟨_, rfl⟩

end
end PyKrige
