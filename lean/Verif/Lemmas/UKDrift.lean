import Verif.Lemmas.Laws
import Verif.Spec.Drift

/-! The drift terms of a constructed object, in terms of the constructor arguments. -/

set_option linter.unusedSectionVars false
set_option linter.unusedSimpArgs false

namespace PyKrige
noncomputable section
open Matrix Spec

theorem logDist_eq (x y wx wy : ℝ) : logDist x y wx wy = logDistance (euclid ![x, y] ![wx, wy]) := by
  unfold logDist logDistance euclid
  simp

theorem flat_getD {β : Type} (r c : ℕ) (get : ℕ → ℕ → β) {j : ℕ} (h : j < r * c) (d : β) :
    ((List.range r).flatMap fun i => (List.range c).map fun j => get i j).getD j d =
      get (j / c) (j % c) := by
  have hc : 0 < c := by
    rcases Nat.eq_zero_or_pos c with h0 | h0
    · rw [h0] at h; simp at h
    · exact h0
  have h1 : j / c < r := (Nat.div_lt_iff_lt_mul hc).2 h
  rw [List.getD_eq_getElem?_getD, flatMap_const_getElem? c _ (by simp)]
  simp [h1, Nat.mod_lt j hc]

theorem flat3_getD {β : Type} (d0 d1 d2 : ℕ) (get : ℕ → ℕ → ℕ → β) {j : ℕ} (h : j < d0 * d1 * d2) (d : β) :
    ((List.range d0).flatMap fun i => (List.range d1).flatMap fun j =>
      (List.range d2).map fun k => get i j k).getD j d = get (j / d2 / d1) (j / d2 % d1) (j % d2) := by
  have hc : 0 < d2 := by
    rcases Nat.eq_zero_or_pos d2 with h0 | h0
    · rw [h0] at h; simp at h
    · exact h0
  have hb : 0 < d1 := by
    rcases Nat.eq_zero_or_pos d1 with h0 | h0
    · rw [h0] at h; simp at h
    · exact h0
  have h1 : j / d2 < d0 * d1 := (Nat.div_lt_iff_lt_mul hc).2 h
  have h2 : j / d2 / d1 < d0 := (Nat.div_lt_iff_lt_mul hb).2 h1
  rw [List.getD_eq_getElem?_getD, flatMap_const_getElem? (d1 * d2) _
    (by intro a; simp [List.length_flatMap])]
  have e1 : j / (d1 * d2) = j / d2 / d1 := by rw [mul_comm, Nat.div_div_eq_div_mul]
  have e2 : j % (d1 * d2) / d2 = j / d2 % d1 := by
    rw [mul_comm, Nat.mod_mul_right_div_self]
  have e3 : j % (d1 * d2) % d2 = j % d2 := by
    rw [mul_comm]; exact Nat.mod_mul_right_mod j d2 d1
  rw [e1]
  simp only [range_getElem?_of_lt h2, Option.bind_some]
  rw [flatMap_const_getElem? d2 _ (by simp), e2, e3]
  simp [Nat.mod_lt _ hb, Nat.mod_lt _ hc]

/-! ### UniversalKriging -/

theorem setupSpecified_get {n : ℕ} {arg : ListArg (List ℝ)} {l : List (Fin n → ℝ)}
    (h : setupSpecified n arg = .ok l) (i : Fin n) : l.map (· i) = specAtDatum arg i.val := by
  unfold setupSpecified at h
  cases arg with
  | notList => simp at h
  | list ts =>
    cases ts with
    | nil => simp at h
    | cons t ts =>
      dsimp only at h
      rw [py_mapM_eq_ok] at h
      unfold specAtDatum
      generalize t :: ts = T at h
      clear t ts
      induction h with
      | nil => rfl
      | cons h1 h2 ih =>
        simp only [List.map_cons]
        rw [ih]
        congr 1
        split at h1
        · next hl =>
          cases h1
          simp [List.getD_eq_getElem?_getD, hl]
        · simp at h1

/-- What the arguments say about the drift attributes. -/
theorem UK.create_drift {n : ℕ} {env : Env} {x y z : Fin n → ℝ} {args : UKArgs} {s : UK n}
    (h : UK.create env x y z args = .ok s) :
    s.regionalLinear = decide ("regional_linear" ∈ args.driftTerms) ∧
    setupExternalZ x y args = .ok s.externalZ ∧
    setupPointLog s.XCENTER s.YCENTER s.anisotropyScaling s.anisotropyAngle args = .ok s.pointLog ∧
    setupSpecifiedTerm n args.driftTerms args.specifiedDrift = .ok s.specified ∧
    setupFunctionalTerm args.driftTerms args.functionalDrift = .ok s.functional := by
  obtain ⟨hp, exact, name, model, fArg, pArg, sc, an, f, fname, xc, yc, vp, lags, ps, stats, ext, plog, spec,
    func, h1, h2, h3, h4, h5, h6, h7, h8, h9, h10, h11, h12, rfl⟩ := UK.create_ok h
  exact ⟨rfl, h9, h10, h11, h12⟩

theorem UK.extP_eq {n : ℕ} {x y : Fin n → ℝ} {args : UKArgs} {s : UK n}
    (h : setupExternalZ x y args = .ok s.externalZ) (ht : "external_Z" ∈ args.driftTerms) :
    s.extP = externalAt args := by
  unfold setupExternalZ at h
  rw [if_pos ht] at h
  obtain ⟨e, he, h⟩ := py_bind_eq_ok.1 h
  obtain ⟨zs, hz, h⟩ := py_bind_eq_ok.1 h
  simp only [py_pure, Except.ok.injEq] at h
  funext p
  simp [UK.extP, ← h, externalAt, he]

theorem UK.externalZ_none {n : ℕ} {x y : Fin n → ℝ} {args : UKArgs} {s : UK n}
    (h : setupExternalZ x y args = .ok s.externalZ) (ht : "external_Z" ∉ args.driftTerms) :
    s.externalZ = none := by
  unfold setupExternalZ at h
  rw [if_neg ht] at h
  exact (Except.ok.inj h).symm

theorem atData_ok {n : ℕ} {e : ExtDrift} {x y : Fin n → ℝ} {zs : Fin n → ℝ} (h : e.atData x y = .ok zs)
    (i : Fin n) : e.zScalar (x i) (y i) = .ok (zs i) := by
  unfold ExtDrift.atData at h
  obtain ⟨l, hl, h⟩ := py_bind_eq_ok.1 h
  simp only [py_pure, Except.ok.injEq] at h
  subst h
  rw [py_mapM_eq_ok] at hl
  have hlen := hl.length_eq
  have h3 := (List.forall₂_iff_get.1 hl).2 i.val (by simp) (by simp at hlen; omega)
  simp only [List.get_eq_getElem, List.getElem_finRange] at h3
  have : i.val < l.length := by simp at hlen; omega
  beta_reduce
  rw [List.getD_eq_getElem?_getD, List.getElem?_eq_getElem this]
  exact h3

/-- The drift terms used at a query point. -/
theorem UK.driftAt_eq {n : ℕ} {env : Env} {x y z : Fin n → ℝ} {args : UKArgs} {s : UK n}
    (h : UK.create env x y z args = .ok s) {p : ℝ × ℝ} {zext : ℝ} (hz : s.extP p = .ok zext)
    (sv : List ℝ) : s.driftAt sv zext p = driftTerms2 args s.adjustPoint sv p := by
  obtain ⟨h1, h2, h3, h4, h5⟩ := UK.create_drift h
  unfold UK.driftAt driftTerms2
  congr 1
  · congr 1
    · congr 1
      · congr 1
        · rw [h1]; simp
        · unfold setupPointLog at h3
          split at h3
          · next ht =>
            cases hw : args.pointDrift with
            | none => rw [hw] at h3; simp at h3
            | some wells =>
              rw [hw] at h3
              replace h3 := (ok_of_ite h3).2
              rw [← h3]
              rw [if_pos ht]
              simp only [Option.getD_some, List.map_map]
              refine List.map_congr_left fun w _ => ?_
              simp only [Function.comp]
              rw [logDist_eq, vec2_eta (s.adjustPoint p)]
              congr 3
              exact vec2_eta (s.adjustPoint (w.1, w.2.1))
          · next ht =>
            simp only [Except.ok.injEq] at h3
            rw [← h3, if_neg ht]
            rfl
      · by_cases ht : "external_Z" ∈ args.driftTerms
        · have he := UK.extP_eq h2 ht
          rw [he] at hz
          rw [if_pos ht]
          unfold setupExternalZ at h2
          rw [if_pos ht] at h2
          obtain ⟨e, he, h2⟩ := py_bind_eq_ok.1 h2
          obtain ⟨zs, hzs, h2⟩ := py_bind_eq_ok.1 h2
          simp only [py_pure, Except.ok.injEq] at h2
          rw [← h2]
          simp [externalValue, hz]
        · rw [UK.externalZ_none h2 ht, if_neg ht]
    · unfold setupSpecifiedTerm at h4
      split at h4
      · next ht =>
        obtain ⟨l, hl, hs⟩ := py_map_eq_ok.1 h4
        rw [← hs, if_pos ht]
      · next ht =>
        simp only [Except.ok.injEq] at h4
        rw [← h4, if_neg ht]
  · unfold setupFunctionalTerm at h5
    split at h5
    · next ht =>
      obtain ⟨l, hl, hs⟩ := py_map_eq_ok.1 h5
      rw [← hs, if_pos ht]
      unfold setupFunctional at hl
      cases hd : args.functionalDrift with
      | notList => rw [hd] at hl; simp at hl
      | list fs =>
        rw [hd] at hl
        cases fs with
        | nil => simp at hl
        | cons a fs => simp at hl; subst hl; rfl
    · next ht =>
      simp only [Except.ok.injEq] at h5
      rw [← h5, if_neg ht]
      rfl

/-- The drift terms at the data. -/
theorem UK.driftData_eq {n : ℕ} {env : Env} {x y z : Fin n → ℝ} {args : UKArgs} {s : UK n}
    (h : UK.create env x y z args = .ok s) (i : Fin n) :
    s.driftData.map (· i) = driftTerms2 args s.adjustPoint (specAtDatum args.specifiedDrift i) (x i, y i) ∧
      ∃ v, s.extP (x i, y i) = .ok v := by
  obtain ⟨h1, h2, h3, h4, h5⟩ := UK.create_drift h
  obtain ⟨hpl, hx, hy, -⟩ := UK.create_placed h
  have hi := hpl.euclidean i
  rw [hx, hy] at hi
  have hX : s.X_ADJUSTED i = s.adjustPoint (x i, y i) 0 := congrFun hi 0
  have hY : s.Y_ADJUSTED i = s.adjustPoint (x i, y i) 1 := congrFun hi 1
  have hext : ∃ v, s.extP (x i, y i) = .ok v ∧
      ∀ e, s.externalZ = some e → e.2 i = v := by
    unfold setupExternalZ at h2
    split at h2
    · obtain ⟨e, he, h2⟩ := py_bind_eq_ok.1 h2
      obtain ⟨zs, hzs, h2⟩ := py_bind_eq_ok.1 h2
      simp only [py_pure, Except.ok.injEq] at h2
      refine ⟨zs i, ?_, ?_⟩
      · simp [UK.extP, ← h2, atData_ok hzs i]
      · rw [← h2]; rintro e' he'; cases he'; rfl
    · simp only [Except.ok.injEq] at h2
      exact ⟨0, by simp [UK.extP, ← h2], by rw [← h2]; simp⟩
  obtain ⟨v, hv, he⟩ := hext
  refine ⟨?_, v, hv⟩
  rw [← UK.driftAt_eq h hv]
  unfold UK.driftData UK.driftAt
  simp only [List.map_append, List.map_map]
  congr 1
  · congr 1
    · congr 1
      · congr 1
        · cases s.regionalLinear <;> simp [hX, hY]
        · refine List.map_congr_left fun w _ => ?_
          simp [hX, hY]
      · cases hz : s.externalZ with
        | none => rfl
        | some e => simp [he e hz]
    · unfold setupSpecifiedTerm at h4
      split at h4
      · obtain ⟨l, hl, hs⟩ := py_map_eq_ok.1 h4
        rw [← hs]
        exact setupSpecified_get hl i
      · simp only [Except.ok.injEq] at h4
        rw [← h4]
        rfl
  · refine List.map_congr_left fun g _ => ?_
    simp [hX, hY]

theorem checkSpec_getD {args : ExecArgs} {a : SpecArray} {l : List ℝ} (j : ℕ) {p : ℝ × ℝ}
    (hq : queryAt args j = some p)
    (h : checkSpec args.style args.xpoints.vals.length args.ypoints.vals.length a = .ok l) :
    l.getD j 0 = specEntry args j a := by
  unfold checkSpec at h
  cases a with
  | d1 v =>
    dsimp only at h
    split at h
    · simp at h
    · split at h
      · simp at h
      · cases h; rfl
  | d2 r c get =>
    dsimp only at h
    split at h
    swap
    · simp at h
    next hs =>
    have hnp : args.style ≠ "points" := by rintro hp; rw [hp] at hs; simp at hs
    have hj : j < args.ypoints.vals.length * args.xpoints.vals.length := by
      unfold queryAt at hq
      rw [if_neg hnp] at hq
      have hy : j / args.xpoints.vals.length < args.ypoints.vals.length := by
        by_contra hcon
        rw [List.getElem?_eq_none (not_lt.1 hcon)] at hq
        cases hh : args.xpoints.vals[j % args.xpoints.vals.length]? <;> rw [hh] at hq <;> simp at hq
      have hx : j % args.xpoints.vals.length < args.xpoints.vals.length := by
        by_contra hcon
        rw [List.getElem?_eq_none (not_lt.1 hcon)] at hq
        simp at hq
      have hpos : 0 < args.xpoints.vals.length := by omega
      exact (Nat.div_lt_iff_lt_mul hpos).1 hy
    unfold specEntry
    split at h
    · next hne =>
      split at h
      · simp only [Except.ok.injEq] at h
        rw [← h, flat_getD _ _ (fun i j => get j i) hj]
        have : ¬ (r = args.ypoints.vals.length ∧ c = args.xpoints.vals.length) := by tauto
        simp only [if_neg this]
      · simp at h
    · next hne =>
      simp only [Except.ok.injEq] at h
      rw [← h, flat_getD _ _ get hj]
      have : r = args.ypoints.vals.length ∧ c = args.xpoints.vals.length := by
        push Not at hne; exact hne
      simp only [if_pos this]

theorem UK.specAt_eq {n : ℕ} {s : UK n} {ea : UKExecArgs} {spec : List (List ℝ)}
    (h : s.specGrids ea = .ok spec) (hs : s.specified ≠ none) {j : ℕ} {p : ℝ × ℝ}
    (hq : queryAt ea.toExec j = some p) : specAt spec j = specAtQuery ea j := by
  unfold UK.specGrids at h
  cases hsp : s.specified with
  | none => exact absurd hsp hs
  | some arrs =>
    rw [hsp] at h
    unfold specAtQuery
    cases he : ea.spec with
    | none => rw [he] at h; simp at h
    | notList => rw [he] at h; simp at h
    | list l =>
      rw [he] at h
      cases l with
      | nil => simp at h
      | cons a l =>
        dsimp only at h
        obtain ⟨g, hg, h⟩ := py_bind_eq_ok.1 h
        split at h
        · simp at h
        · simp only [py_pure, Except.ok.injEq] at h
          subst h
          rw [py_mapM_eq_ok] at hg
          unfold specAt
          dsimp only
          generalize a :: l = T at hg
          clear * - hg hq
          induction hg with
          | nil => rfl
          | cons h1 h2 ih => simp only [List.map_cons]; rw [ih, checkSpec_getD j hq h1]

/-- What the weights at an entry are, in terms of the arguments. -/
theorem UK.Fact.args {n : ℕ} {env : Env} {x y z : Fin n → ℝ} {args : UKArgs} {s : UK n}
    (h : UK.create env x y z args = .ok s) {ea : UKExecArgs} {j : ℕ} {p : ℝ × ℝ} {row : WRow n}
    (hF : s.Fact ea j p row) (hq : queryAt ea.toExec j = some p)
    (hs : "specified" ∈ args.driftTerms → ea.toExec.backend = "vectorized") :
    ∃ γ L, ∃ F : Fin L → Fin n → ℝ, ∃ f : Fin L → ℝ, s.variogramFunction s.params = .ok γ ∧
      KrigedBy id s.pseudoInv s.exactValues γ s.dataDist F (s.queryDist p) f row ∧
      (∀ i, List.ofFn (fun l => F l i) =
        driftTerms2 args s.adjustPoint (specAtDatum args.specifiedDrift i) (x i, y i)) ∧
      List.ofFn f = driftTerms2 args s.adjustPoint (specAtQuery ea j) p := by
  obtain ⟨γ, spec, hγ, hspec, -, zext, sv, hz, hsv, hlen, hk⟩ := hF
  refine ⟨γ, _, _, _, hγ, hk, fun i => ?_, ?_⟩
  · rw [← (UK.driftData_eq h i).1]
    unfold UK.F
    have := List.ofFn_getElem (xs := s.driftData.map (· i))
    conv_rhs => rw [← this]
    apply List.ext_getElem <;> simp
  · have e : s.driftAt sv zext p = driftTerms2 args s.adjustPoint (specAtQuery ea j) p := by
      rw [UK.driftAt_eq h hz]
      unfold driftTerms2
      congr 2
      split
      · next ht =>
        rcases hsv with ⟨hb, rfl⟩ | ⟨hb, -⟩
        · refine UK.specAt_eq hspec ?_ hq
          obtain ⟨-, -, -, h4, -⟩ := UK.create_drift h
          unfold setupSpecifiedTerm at h4
          rw [if_pos ht] at h4
          obtain ⟨l, hl, hs⟩ := py_map_eq_ok.1 h4
          rw [← hs]; simp
        · exact absurd ((hs ht).symm.trans hb) (by decide)
      · rfl
    rw [← e]
    unfold UK.f
    have hl := s.driftAt_length hlen zext p
    apply List.ext_getElem
    · simp [hl]
    · intro k h1 h2
      simp [List.getD_eq_getElem?_getD, List.getElem?_eq_getElem h2]

/-! ### UniversalKriging3D -/

theorem UK3D.create_drift {n : ℕ} {env : Env} {x y z v : Fin n → ℝ} {args : UK3DArgs} {s : UK3D n}
    (h : UK3D.create env x y z v args = .ok s) :
    s.regionalLinear = decide ("regional_linear" ∈ args.driftTerms) ∧
    setupSpecifiedTerm n args.driftTerms args.specifiedDrift = .ok s.specified ∧
    setupFunctionalTerm args.driftTerms args.functionalDrift = .ok s.functional := by
  obtain ⟨hp, exact, name, model, fArg, pArg, an, f, fname, xc, yc, zc, vp, lags, ps, stats, spec, func,
    h1, h2, h3, h4, h5, h6, h7, h8, h9, h10, h11, rfl⟩ := UK3D.create_ok h
  exact ⟨rfl, h10, h11⟩

theorem UK3D.driftAt_eq {n : ℕ} {env : Env} {x y z v : Fin n → ℝ} {args : UK3DArgs} {s : UK3D n}
    (h : UK3D.create env x y z v args = .ok s) (p : ℝ × ℝ × ℝ)
    (sv : List ℝ) : s.driftAt sv p = driftTerms3 args s.adjustPoint sv p := by
  obtain ⟨h1, h4, h5⟩ := UK3D.create_drift h
  unfold UK3D.driftAt driftTerms3
  congr 1
  · congr 1
    · rw [h1]; simp
    · unfold setupSpecifiedTerm at h4
      split at h4
      · next ht =>
        obtain ⟨l, hl, hs⟩ := py_map_eq_ok.1 h4
        rw [← hs, if_pos ht]
      · next ht =>
        simp only [Except.ok.injEq] at h4
        rw [← h4, if_neg ht]
  · unfold setupFunctionalTerm at h5
    split at h5
    · next ht =>
      obtain ⟨l, hl, hs⟩ := py_map_eq_ok.1 h5
      rw [← hs, if_pos ht]
      unfold setupFunctional at hl
      cases hd : args.functionalDrift with
      | notList => rw [hd] at hl; simp at hl
      | list fs =>
        rw [hd] at hl
        cases fs with
        | nil => simp at hl
        | cons a fs => simp at hl; subst hl; rfl
    · next ht =>
      simp only [Except.ok.injEq] at h5
      rw [← h5, if_neg ht]
      rfl

theorem UK3D.driftData_eq {n : ℕ} {env : Env} {x y z v : Fin n → ℝ} {args : UK3DArgs} {s : UK3D n}
    (h : UK3D.create env x y z v args = .ok s) (i : Fin n) :
    s.driftData.map (· i) =
      driftTerms3 args s.adjustPoint (specAtDatum args.specifiedDrift i) (x i, y i, z i) := by
  obtain ⟨h1, h4, h5⟩ := UK3D.create_drift h
  obtain ⟨hpl, hx, hy, hz, -⟩ := UK3D.create_placed h
  have hi := hpl.euclidean i
  rw [hx, hy, hz] at hi
  have hX : s.X_ADJUSTED i = s.adjustPoint (x i, y i, z i) 0 := congrFun hi 0
  have hY : s.Y_ADJUSTED i = s.adjustPoint (x i, y i, z i) 1 := congrFun hi 1
  have hZ : s.Z_ADJUSTED i = s.adjustPoint (x i, y i, z i) 2 := congrFun hi 2
  rw [← UK3D.driftAt_eq h]
  unfold UK3D.driftData UK3D.driftAt
  simp only [List.map_append, List.map_map]
  congr 1
  · congr 1
    · cases s.regionalLinear <;> simp [hX, hY, hZ]
    · unfold setupSpecifiedTerm at h4
      split at h4
      · obtain ⟨l, hl, hs⟩ := py_map_eq_ok.1 h4
        rw [← hs]
        exact setupSpecified_get hl i
      · simp only [Except.ok.injEq] at h4
        rw [← h4]
        rfl
  · refine List.map_congr_left fun g _ => ?_
    simp [hX, hY, hZ]

theorem checkSpec3_getD {args : ExecArgs3} {a : SpecArray3} {l : List ℝ} (j : ℕ) {p : ℝ × ℝ × ℝ}
    (hq : queryAt3 args j = some p)
    (h : checkSpec3 args.style args.xpoints.vals.length args.ypoints.vals.length
      args.zpoints.vals.length a = .ok l) :
    l.getD j 0 = specEntry3 args j a := by
  unfold checkSpec3 at h
  cases a with
  | d1 v =>
    dsimp only at h
    split at h
    · simp at h
    · split at h
      · simp at h
      · cases h; rfl
  | d2 => simp at h
  | d3 d0 d1 d2 get =>
    dsimp only at h
    split at h
    swap
    · simp at h
    next hs =>
    have hnp : args.style ≠ "points" := by rintro hp; rw [hp] at hs; simp at hs
    have hj : j < args.zpoints.vals.length * args.ypoints.vals.length * args.xpoints.vals.length := by
      unfold queryAt3 at hq
      rw [if_neg hnp] at hq
      have hx : j % args.xpoints.vals.length < args.xpoints.vals.length := by
        by_contra hcon
        rw [List.getElem?_eq_none (not_lt.1 hcon)] at hq
        simp at hq
      rw [List.getElem?_eq_getElem hx] at hq
      have hy : j / args.xpoints.vals.length % args.ypoints.vals.length < args.ypoints.vals.length := by
        by_contra hcon
        rw [List.getElem?_eq_none (not_lt.1 hcon)] at hq
        simp at hq
      rw [List.getElem?_eq_getElem hy] at hq
      have hz : j / args.xpoints.vals.length / args.ypoints.vals.length < args.zpoints.vals.length := by
        by_contra hcon
        rw [List.getElem?_eq_none (not_lt.1 hcon)] at hq
        simp at hq
      have hpx : 0 < args.xpoints.vals.length := by omega
      have hpy : 0 < args.ypoints.vals.length := by omega
      exact (Nat.div_lt_iff_lt_mul hpx).1 ((Nat.div_lt_iff_lt_mul hpy).1 hz)
    unfold specEntry3
    split at h
    · next hne =>
      split at h
      · simp only [Except.ok.injEq] at h
        rw [← h, flat3_getD _ _ _ (fun i j k => get k j i) hj]
        have : ¬ (d0 = args.zpoints.vals.length ∧ d1 = args.ypoints.vals.length ∧
          d2 = args.xpoints.vals.length) := by tauto
        simp only [if_neg this]
      · simp at h
    · next hne =>
      simp only [Except.ok.injEq] at h
      rw [← h, flat3_getD _ _ _ get hj]
      have : d0 = args.zpoints.vals.length ∧ d1 = args.ypoints.vals.length ∧
          d2 = args.xpoints.vals.length := by
        push Not at hne; exact hne
      simp only [if_pos this]

theorem UK3D.specAt_eq {n : ℕ} {s : UK3D n} {ea : UK3DExecArgs} {spec : List (List ℝ)}
    (h : s.specGrids ea = .ok spec) (hs : s.specified ≠ none) {j : ℕ} {p : ℝ × ℝ × ℝ}
    (hq : queryAt3 ea.toExec j = some p) : specAt spec j = specAtQuery3 ea j := by
  unfold UK3D.specGrids at h
  cases hsp : s.specified with
  | none => exact absurd hsp hs
  | some arrs =>
    rw [hsp] at h
    unfold specAtQuery3
    cases he : ea.spec with
    | none => rw [he] at h; simp at h
    | notList => rw [he] at h; simp at h
    | list l =>
      rw [he] at h
      cases l with
      | nil => simp at h
      | cons a l =>
        dsimp only at h
        obtain ⟨g, hg, h⟩ := py_bind_eq_ok.1 h
        split at h
        · simp at h
        · simp only [py_pure, Except.ok.injEq] at h
          subst h
          rw [py_mapM_eq_ok] at hg
          unfold specAt
          dsimp only
          generalize a :: l = T at hg
          clear * - hg hq
          induction hg with
          | nil => rfl
          | cons h1 h2 ih => simp only [List.map_cons]; rw [ih, checkSpec3_getD j hq h1]

/-- What the weights at an entry are, in terms of the arguments. -/
theorem UK3D.Fact.args {n : ℕ} {env : Env} {x y z v : Fin n → ℝ} {args : UK3DArgs} {s : UK3D n}
    (h : UK3D.create env x y z v args = .ok s) {ea : UK3DExecArgs} {j : ℕ} {p : ℝ × ℝ × ℝ} {row : WRow n}
    (hF : s.Fact ea j p row) (hq : queryAt3 ea.toExec j = some p)
    (hs : "specified" ∈ args.driftTerms → ea.toExec.backend = "vectorized") :
    ∃ γ L, ∃ F : Fin L → Fin n → ℝ, ∃ f : Fin L → ℝ, s.variogramFunction s.params = .ok γ ∧
      KrigedBy id s.pseudoInv s.exactValues γ s.dataDist F (s.queryDist p) f row ∧
      (∀ i, List.ofFn (fun l => F l i) =
        driftTerms3 args s.adjustPoint (specAtDatum args.specifiedDrift i) (x i, y i, z i)) ∧
      List.ofFn f = driftTerms3 args s.adjustPoint (specAtQuery3 ea j) p := by
  obtain ⟨γ, spec, hγ, hspec, sv, hsv, hlen, hk⟩ := hF
  refine ⟨γ, _, _, _, hγ, hk, fun i => ?_, ?_⟩
  · rw [← UK3D.driftData_eq h i]
    unfold UK3D.F
    have := List.ofFn_getElem (xs := s.driftData.map (· i))
    conv_rhs => rw [← this]
    apply List.ext_getElem <;> simp
  · have e : s.driftAt sv p = driftTerms3 args s.adjustPoint (specAtQuery3 ea j) p := by
      rw [UK3D.driftAt_eq h]
      unfold driftTerms3
      congr 2
      split
      · next ht =>
        rcases hsv with ⟨hb, rfl⟩ | ⟨hb, -⟩
        · refine UK3D.specAt_eq hspec ?_ hq
          obtain ⟨-, h4, -⟩ := UK3D.create_drift h
          unfold setupSpecifiedTerm at h4
          rw [if_pos ht] at h4
          obtain ⟨l, hl, hs⟩ := py_map_eq_ok.1 h4
          rw [← hs]; simp
        · exact absurd ((hs ht).symm.trans hb) (by decide)
      · rfl
    rw [← e]
    unfold UK3D.f
    have hl := s.driftAt_length hlen p
    apply List.ext_getElem
    · simp [hl]
    · intro k h1 h2
      simp [List.getD_eq_getElem?_getD, List.getElem?_eq_getElem h2]

end
end PyKrige
