import Verif.Lemmas.PWCreate
import Verif.Lemmas.UKValid
import Verif.Lemmas.OnlyDist
import Verif.Props.C21

/-!
# C24: specified drift with backend "loop"

The claim is that "loop" and "vectorized" agree for specified drift terms.  The code violates it: the loop
reads `spec_vals.flatten()[i]` with the *row* number `i` of the system instead of the number of the point
(uk.py:1070, uk3d.py:857).  Proved here: exactly what the loop returns (`C24_loop_reads_rows_*`), the cases in
which the claim holds (`C24_constant_*_partial`), that the loop always raises when there are no more query
points than data (`C24_loop_fails_*`), and a concrete call where it silently returns a wrong number
(`C24_loop_wrong`).
-/

set_option linter.unusedSectionVars false

namespace PyKrige
noncomputable section
open Matrix Spec

/-- Row of the kriging system that holds the first specified drift term: after the `n` data come two rows for the
regional linear drift, one per well, one for the external drift. -/
def Spec.firstUKRow (args : UKArgs) (n : ℕ) : ℕ :=
  n + (if "regional_linear" ∈ args.driftTerms then 2 else 0) +
    (if "point_log" ∈ args.driftTerms then (args.pointDrift.getD []).length else 0) +
    (if "external_Z" ∈ args.driftTerms then 1 else 0)

/-- The same in three dimensions. -/
def Spec.firstUK3DRow (args : UK3DArgs) (n : ℕ) : ℕ :=
  n + (if "regional_linear" ∈ args.driftTerms then 3 else 0)

theorem UK.firstRow_eq {n : ℕ} {env : Env} {x y z : Fin n → ℝ} {args : UKArgs} {s : UK n}
    (h : UK.create env x y z args = .ok s) : firstUKRow args n = s.specStart := by
  obtain ⟨h1, h2, h3, h4, h5⟩ := UK.create_drift h
  unfold firstUKRow UK.specStart
  congr 1
  · congr 1
    · rw [h1]; simp
    · unfold setupPointLog at h3
      split at h3
      · next hp =>
        rw [if_pos hp]
        cases hpd : args.pointDrift with
        | none => rw [hpd] at h3; simp at h3
        | some w => rw [hpd] at h3; simp [← (ok_of_ite h3).2]
      · next hp => rw [if_neg hp, ← Except.ok.inj h3]; rfl
  · unfold setupExternalZ at h2
    split at h2
    · next hp =>
      obtain ⟨e, he, h2⟩ := py_bind_eq_ok.1 h2
      obtain ⟨zs, hz, h2⟩ := py_bind_eq_ok.1 h2
      simp only [py_pure, Except.ok.injEq] at h2
      rw [if_pos hp, ← h2]
    · next hp => rw [if_neg hp, ← Except.ok.inj h2]

theorem UK3D.firstRow_eq {n : ℕ} {env : Env} {x y z v : Fin n → ℝ} {args : UK3DArgs} {s : UK3D n}
    (h : UK3D.create env x y z v args = .ok s) : firstUK3DRow args n = s.specStart := by
  obtain ⟨h1, -⟩ := UK3D.create_drift h
  unfold firstUK3DRow UK3D.specStart
  rw [h1]; simp

theorem setupSpecifiedTerm_some {n : ℕ} {t : List String} {a : ListArg (List ℝ)} {o : Option (List (Fin n → ℝ))}
    (h : setupSpecifiedTerm n t a = .ok o) (hs : "specified" ∈ t) : o ≠ none := by
  unfold setupSpecifiedTerm at h
  rw [if_pos hs] at h
  obtain ⟨l, -, rfl⟩ := py_map_eq_ok.1 h
  simp

theorem UK.specified_some {n : ℕ} {env : Env} {x y z : Fin n → ℝ} {args : UKArgs} {s : UK n}
    (h : UK.create env x y z args = .ok s) (hs : "specified" ∈ args.driftTerms) : s.specified ≠ none :=
  setupSpecifiedTerm_some (UK.create_drift h).2.2.2.1 hs

theorem UK3D.specified_some {n : ℕ} {env : Env} {x y z v : Fin n → ℝ} {args : UK3DArgs} {s : UK3D n}
    (h : UK3D.create env x y z v args = .ok s) (hs : "specified" ∈ args.driftTerms) : s.specified ≠ none :=
  setupSpecifiedTerm_some (UK3D.create_drift h).2.1 hs

theorem pyGet_ok {l : List ℝ} {i : ℕ} {v : ℝ} (h : pyGet l i = .ok v) : ∃ hi : i < l.length, v = l[i] := by
  unfold pyGet at h
  cases hg : l[i]? with
  | none => rw [hg] at h; simp at h
  | some w =>
    rw [hg] at h
    obtain ⟨hi, e⟩ := List.getElem?_eq_some_iff.1 hg
    exact ⟨hi, by rw [e]; exact (Except.ok.inj h).symm⟩

theorem flat_length {β : Type} (r c : ℕ) (get : ℕ → ℕ → β) :
    ((List.range r).flatMap fun i => (List.range c).map fun j => get i j).length = r * c := by
  simp [List.length_flatMap]

theorem flat3_length {β : Type} (r c d : ℕ) (get : ℕ → ℕ → ℕ → β) :
    ((List.range r).flatMap fun i => (List.range c).flatMap fun j => (List.range d).map fun k => get i j k).length =
      r * c * d := by
  simp [List.length_flatMap, mul_assoc]

/-- An accepted array has no more entries than there are query points. -/
theorem checkSpec_query {ea : ExecArgs} (hq : ∃ pm, queryPoints ea = .ok pm) {a : SpecArray} {l : List ℝ}
    (h : checkSpec ea.style ea.xpoints.vals.length ea.ypoints.vals.length a = .ok l) {j : ℕ} (hj : j < l.length) :
    ∃ p, queryAt ea j = some p := by
  obtain ⟨⟨pts, mask⟩, hq⟩ := hq
  have hl : pts.length = l.length := by
    unfold queryPoints at hq
    unfold checkSpec at h
    cases a with
    | d1 v =>
      dsimp only at h
      split at h
      · simp at h
      next hst =>
      split at h
      · simp at h
      next hlen =>
      cases h
      dsimp only at hq
      rw [if_neg hst] at hq
      split at hq
      · split at hq
        · simp at hq
        · next he =>
          cases hq
          simp only [List.length_zip]
          push Not at hlen he
          omega
      · simp at hq
    | d2 r c get =>
      dsimp only at h
      split at h
      swap
      · simp at h
      next hst =>
      dsimp only at hq
      rw [if_pos hst] at hq
      have hm : pts = meshgridFlat ea.xpoints.vals ea.ypoints.vals := by
        split at hq
        · split at hq
          · simp at hq
          · split at hq
            · split at hq
              · cases hq; rfl
              · simp at hq
            · cases hq; rfl
        · cases hq; rfl
      have : l.length = ea.ypoints.vals.length * ea.xpoints.vals.length := by
        split at h
        · split at h
          · cases h; rw [flat_length _ _ fun i j => get j i]
          · simp at h
        · cases h; rw [flat_length]
      rw [this, hm]
      simp [meshgridFlat, List.length_flatMap]
  refine ⟨pts[j]'(by omega), ?_⟩
  rw [← queryPoints_getElem? hq, List.getElem?_eq_getElem]

theorem checkSpec3_query {ea : ExecArgs3} (hq : ∃ pm, queryPoints3 ea = .ok pm) {a : SpecArray3} {l : List ℝ}
    (h : checkSpec3 ea.style ea.xpoints.vals.length ea.ypoints.vals.length ea.zpoints.vals.length a = .ok l)
    {j : ℕ} (hj : j < l.length) : ∃ p, queryAt3 ea j = some p := by
  obtain ⟨⟨pts, mask⟩, hq⟩ := hq
  have hl : pts.length = l.length := by
    unfold queryPoints3 at hq
    unfold checkSpec3 at h
    cases a with
    | d1 v =>
      dsimp only at h
      split at h
      · simp at h
      next hst =>
      split at h
      · simp at h
      next hlen =>
      cases h
      dsimp only at hq
      rw [if_neg hst] at hq
      split at hq
      · split at hq
        · simp at hq
        · split at hq
          · simp at hq
          · cases hq
            simp only [List.length_zip]
            omega
      · simp at hq
    | d2 => simp at h
    | d3 d0 d1 d2 get =>
      dsimp only at h
      split at h
      swap
      · simp at h
      next hst =>
      dsimp only at hq
      rw [if_pos hst] at hq
      have hm : pts = meshgridFlat3 ea.xpoints.vals ea.ypoints.vals ea.zpoints.vals := by
        split at hq
        · split at hq
          · simp at hq
          · simp at hq
          · split at hq
            · split at hq
              · cases hq; rfl
              · simp at hq
            · cases hq; rfl
        · cases hq; rfl
      have : l.length = ea.zpoints.vals.length * ea.ypoints.vals.length * ea.xpoints.vals.length := by
        split at h
        · split at h
          · cases h; rw [flat3_length _ _ _ fun i j k => get k j i]
          · simp at h
        · cases h; rw [flat3_length]
      rw [this, hm, meshgridFlat3_length]
  refine ⟨pts[j]'(by omega), ?_⟩
  rw [← queryPoints3_getElem? hq, List.getElem?_eq_getElem]

/-- Every specified drift value the `loop` backend uses: term `l` is read at the flattened entry whose index is
the row of the kriging system that the term occupies. -/
theorem UK.loopSpec_values {n : ℕ} {s : UK n} {ea : UKExecArgs} (hs : s.specified ≠ none)
    (hq : ∃ pm, queryPoints ea.toExec = .ok pm) {spec : List (List ℝ)} (hg : s.specGrids ea = .ok spec) {sv : List ℝ}
    (h : s.loopSpec spec = .ok sv) : sv.length = spec.length ∧ 0 < sv.length ∧ ∀ l, l < sv.length →
      (∃ p, queryAt ea.toExec (s.specStart + l) = some p) ∧
      sv[l]? = (specAtQuery ea (s.specStart + l))[l]? := by
  unfold UK.loopSpec at h
  cases hsp : s.specified with
  | none => exact absurd hsp hs
  | some arrs =>
  rw [hsp] at h
  dsimp only at h
  rw [py_mapM_eq_ok] at h
  have hlen := h.length_eq
  rw [List.length_zipIdx] at hlen
  have hpos : 0 < spec.length ∧ ∀ l (hl : l < spec.length) j, j < spec[l].length →
      ∃ p, queryAt ea.toExec j = some p := by
    unfold UK.specGrids at hg
    rw [hsp] at hg
    cases he : ea.spec with
    | none => rw [he] at hg; simp at hg
    | notList => rw [he] at hg; simp at hg
    | list L =>
      rw [he] at hg
      cases L with
      | nil => simp at hg
      | cons a L =>
        dsimp only at hg
        obtain ⟨g, hg1, hg⟩ := py_bind_eq_ok.1 hg
        split at hg
        · simp at hg
        · simp only [py_pure, Except.ok.injEq] at hg
          subst hg
          rw [py_mapM_eq_ok] at hg1
          refine ⟨by have := hg1.length_eq; simp at this; omega, fun l hl j hj => ?_⟩
          have hl' : l < (a :: L).length := by rw [hg1.length_eq]; exact hl
          exact checkSpec_query hq (hg1.get hl' hl) hj
  refine ⟨hlen.symm, by omega, fun l hl => ?_⟩
  have hl1 : l < (spec.zipIdx s.specStart).length := by rw [List.length_zipIdx]; omega
  have hget := h.get hl1 hl
  simp only [List.get_eq_getElem, List.getElem_zipIdx] at hget
  obtain ⟨hj, hv⟩ := pyGet_ok hget
  obtain ⟨p, hp⟩ := hpos.2 l (by omega) _ hj
  refine ⟨⟨p, hp⟩, ?_⟩
  rw [← UK.specAt_eq hg (by rw [hsp]; simp) hp, List.getElem?_eq_getElem hl]
  simp only [specAt, List.getElem?_map, List.getElem?_eq_getElem (show l < spec.length by omega), Option.map_some]
  rw [hv, List.getD_eq_getElem?_getD, List.getElem?_eq_getElem hj]
  rfl

/-- `UniversalKriging`: what the "loop" backend returns with specified drift terms.  It is what "vectorized" returns for
*other* drift values: at every query point, term `l` is given the value that the caller passed for the
flattened entry number `firstUKRow args n + l`, whatever the point. -/
theorem C24_loop_reads_rows_uk {n : ℕ} {env : Env} {x y z : Fin n → ℝ} {args : UKArgs} {s : UK n}
    (h : UK.create env x y z args = .ok s) (hs : "specified" ∈ args.driftTerms) {ea ea' : UKExecArgs}
    (hb : ea.toExec.backend = "loop") (hb' : ea'.toExec = { ea.toExec with backend := "vectorized" })
    (hv : ∀ j p, queryAt ea.toExec j = some p → maskedAt ea.toExec j = false →
      ∀ l, queryAt ea.toExec (firstUKRow args n + l) ≠ none →
        (specAtQuery ea' j)[l]? = (specAtQuery ea (firstUKRow args n + l))[l]?)
    {r r' : ExecResult} (hr : s.execute ea = .ok r) (hr' : s.execute ea' = .ok r') : r = r' := by
  have h1 := UK.create_pw h ea
  have h2 := UK.create_pw h ea'
  obtain ⟨a1, v1⟩ := h1.ok_iff.1 ⟨r, hr⟩
  obtain ⟨a2, v2⟩ := h2.ok_iff.1 ⟨r', hr'⟩
  have hsn : s.specified ≠ none := UK.specified_some h hs
  have eq : queryAt ea'.toExec = queryAt ea.toExec := by rw [hb']; rfl
  have em : maskedAt ea'.toExec = maskedAt ea.toExec := by rw [hb']; rfl
  have es : resultShape ea'.toExec = resultShape ea.toExec := by rw [hb']; rfl
  have t1 := h1.table r hr
  have t2 := h2.table r' hr'
  rw [eq, em, es] at t2
  refine (t1.eq t2 (fun _ _ _ => rfl) fun j p hp hm => ?_).symm
  obtain ⟨spec, hspec⟩ := a1.spec
  obtain ⟨spec', hspec'⟩ := a2.spec
  obtain ⟨sv, hsv⟩ := (v1 j p hp (.inl hm)).2 hb |>.2
  rw [UK.specs_eq hspec] at hsv
  obtain ⟨hl, -, hval⟩ := UK.loopSpec_values hsn a1.query hspec hsv
  have e : s.sv ea' j = s.sv ea j := by
    unfold UK.sv
    rw [if_pos (by rw [hb']), if_neg (by rw [hb]; decide), UK.specs_eq hspec, UK.specs_eq hspec']
    rw [hsv]
    change specAt spec' j = sv
    have hlen' : spec'.length = spec.length := by
      cases hsp : s.specified with
      | none => exact absurd hsp hsn
      | some arrs => rw [UK.specGrids_len hspec' arrs hsp, UK.specGrids_len hspec arrs hsp]
    have hp' : queryAt ea'.toExec j = some p := by rw [eq]; exact hp
    have hsl : (specAt spec' j).length = sv.length := by simp [specAt, hlen', hl]
    refine List.ext_getElem? fun l => ?_
    by_cases hll : l < sv.length
    · rw [(hval l hll).2, UK.specAt_eq hspec' hsn hp', ← UK.firstRow_eq h]
      refine hv j p hp hm l ?_
      rw [UK.firstRow_eq h]
      obtain ⟨p', hp''⟩ := (hval l hll).1
      rw [hp'']; simp
    · rw [List.getElem?_eq_none (by omega), List.getElem?_eq_none (by omega)]
  unfold UK.ans
  rw [e]

/-- `UniversalKriging`: the backends agree if every array of specified drift values is the same at all query points. -/
theorem C24_constant_uk_partial {n : ℕ} {env : Env} {x y z : Fin n → ℝ} {args : UKArgs} {s : UK n}
    (h : UK.create env x y z args = .ok s) (hs : "specified" ∈ args.driftTerms) {ea : UKExecArgs}
    (hc : ∀ j j' p p', queryAt ea.toExec j = some p → queryAt ea.toExec j' = some p' →
      specAtQuery ea j = specAtQuery ea j')
    {r r' : ExecResult} (hr : s.execute { ea with toExec := { ea.toExec with backend := "loop" } } = .ok r)
    (hr' : s.execute { ea with toExec := { ea.toExec with backend := "vectorized" } } = .ok r') : r = r' := by
  refine C24_loop_reads_rows_uk h hs (ea := { ea with toExec := { ea.toExec with backend := "loop" } })
    (ea' := { ea with toExec := { ea.toExec with backend := "vectorized" } }) rfl rfl ?_ hr hr'
  intro j p hp hm l hl
  obtain ⟨p', hp'⟩ := Option.ne_none_iff_exists'.1 hl
  exact congrArg (fun t : List ℝ => t[l]?) (hc j (firstUKRow args n + l) p p' hp hp')

/-- `UniversalKriging`: with specified drift terms and no more query points than data the "loop" backend always raises
(as soon as one point is not masked). -/
theorem C24_loop_fails_uk {n : ℕ} {env : Env} {x y z : Fin n → ℝ} {args : UKArgs} {s : UK n}
    (h : UK.create env x y z args = .ok s) (hs : "specified" ∈ args.driftTerms) {ea : UKExecArgs}
    (hb : ea.toExec.backend = "loop") (hfew : queryAt ea.toExec n = none)
    (hone : ∃ j p, queryAt ea.toExec j = some p ∧ maskedAt ea.toExec j = false) (r : ExecResult) :
    s.execute ea ≠ .ok r := by
  intro hr
  obtain ⟨a1, v1⟩ := (UK.create_pw h ea).ok_iff.1 ⟨r, hr⟩
  obtain ⟨j, p, hp, hm⟩ := hone
  obtain ⟨spec, hspec⟩ := a1.spec
  obtain ⟨sv, hsv⟩ := (v1 j p hp (.inl hm)).2 hb |>.2
  rw [UK.specs_eq hspec] at hsv
  obtain ⟨-, hpos, hval⟩ := UK.loopSpec_values (UK.specified_some h hs) a1.query hspec hsv
  obtain ⟨p', hp'⟩ := (hval 0 hpos).1
  obtain ⟨⟨pts, mask⟩, hq⟩ := a1.query
  rw [← queryPoints_getElem? hq] at hp' hfew
  obtain ⟨hlt, -⟩ := List.getElem?_eq_some_iff.1 hp'
  rw [List.getElem?_eq_none_iff] at hfew
  have : n ≤ s.specStart := by unfold UK.specStart; omega
  omega

/-- Every specified drift value the `loop` backend uses: term `l` is read at the flattened entry whose index is
the row of the kriging system that the term occupies. -/
theorem UK3D.loopSpec_values {n : ℕ} {s : UK3D n} {ea : UK3DExecArgs} (hs : s.specified ≠ none)
    (hq : ∃ pm, queryPoints3 ea.toExec = .ok pm) {spec : List (List ℝ)} (hg : s.specGrids ea = .ok spec) {sv : List ℝ}
    (h : s.loopSpec spec = .ok sv) : sv.length = spec.length ∧ 0 < sv.length ∧ ∀ l, l < sv.length →
      (∃ p, queryAt3 ea.toExec (s.specStart + l) = some p) ∧
      sv[l]? = (specAtQuery3 ea (s.specStart + l))[l]? := by
  unfold UK3D.loopSpec at h
  cases hsp : s.specified with
  | none => exact absurd hsp hs
  | some arrs =>
  rw [hsp] at h
  dsimp only at h
  rw [py_mapM_eq_ok] at h
  have hlen := h.length_eq
  rw [List.length_zipIdx] at hlen
  have hpos : 0 < spec.length ∧ ∀ l (hl : l < spec.length) j, j < spec[l].length →
      ∃ p, queryAt3 ea.toExec j = some p := by
    unfold UK3D.specGrids at hg
    rw [hsp] at hg
    cases he : ea.spec with
    | none => rw [he] at hg; simp at hg
    | notList => rw [he] at hg; simp at hg
    | list L =>
      rw [he] at hg
      cases L with
      | nil => simp at hg
      | cons a L =>
        dsimp only at hg
        obtain ⟨g, hg1, hg⟩ := py_bind_eq_ok.1 hg
        split at hg
        · simp at hg
        · simp only [py_pure, Except.ok.injEq] at hg
          subst hg
          rw [py_mapM_eq_ok] at hg1
          refine ⟨by have := hg1.length_eq; simp at this; omega, fun l hl j hj => ?_⟩
          have hl' : l < (a :: L).length := by rw [hg1.length_eq]; exact hl
          exact checkSpec3_query hq (hg1.get hl' hl) hj
  refine ⟨hlen.symm, by omega, fun l hl => ?_⟩
  have hl1 : l < (spec.zipIdx s.specStart).length := by rw [List.length_zipIdx]; omega
  have hget := h.get hl1 hl
  simp only [List.get_eq_getElem, List.getElem_zipIdx] at hget
  obtain ⟨hj, hv⟩ := pyGet_ok hget
  obtain ⟨p, hp⟩ := hpos.2 l (by omega) _ hj
  refine ⟨⟨p, hp⟩, ?_⟩
  rw [← UK3D.specAt_eq hg (by rw [hsp]; simp) hp, List.getElem?_eq_getElem hl]
  simp only [specAt, List.getElem?_map, List.getElem?_eq_getElem (show l < spec.length by omega), Option.map_some]
  rw [hv, List.getD_eq_getElem?_getD, List.getElem?_eq_getElem hj]
  rfl

/-- `UniversalKriging3D`: what the "loop" backend returns with specified drift terms.  It is what "vectorized" returns for
*other* drift values: at every query point, term `l` is given the value that the caller passed for the
flattened entry number `firstUK3DRow args n + l`, whatever the point. -/
theorem C24_loop_reads_rows_uk3d {n : ℕ} {env : Env} {x y z v : Fin n → ℝ} {args : UK3DArgs} {s : UK3D n}
    (h : UK3D.create env x y z v args = .ok s) (hs : "specified" ∈ args.driftTerms) {ea ea' : UK3DExecArgs}
    (hb : ea.toExec.backend = "loop") (hb' : ea'.toExec = { ea.toExec with backend := "vectorized" })
    (hv : ∀ j p, queryAt3 ea.toExec j = some p → maskedAt3 ea.toExec j = false →
      ∀ l, queryAt3 ea.toExec (firstUK3DRow args n + l) ≠ none →
        (specAtQuery3 ea' j)[l]? = (specAtQuery3 ea (firstUK3DRow args n + l))[l]?)
    {r r' : ExecResult} (hr : s.execute ea = .ok r) (hr' : s.execute ea' = .ok r') : r = r' := by
  have h1 := UK3D.create_pw h ea
  have h2 := UK3D.create_pw h ea'
  obtain ⟨a1, v1⟩ := h1.ok_iff.1 ⟨r, hr⟩
  obtain ⟨a2, v2⟩ := h2.ok_iff.1 ⟨r', hr'⟩
  have hsn : s.specified ≠ none := UK3D.specified_some h hs
  have eq : queryAt3 ea'.toExec = queryAt3 ea.toExec := by rw [hb']; rfl
  have em : maskedAt3 ea'.toExec = maskedAt3 ea.toExec := by rw [hb']; rfl
  have es : resultShape3 ea'.toExec = resultShape3 ea.toExec := by rw [hb']; rfl
  have t1 := h1.table r hr
  have t2 := h2.table r' hr'
  rw [eq, em, es] at t2
  refine (t1.eq t2 (fun _ _ _ => rfl) fun j p hp hm => ?_).symm
  obtain ⟨spec, hspec⟩ := a1.spec
  obtain ⟨spec', hspec'⟩ := a2.spec
  obtain ⟨sv, hsv⟩ := (v1 j p hp (.inl hm)) hb
  rw [UK3D.specs_eq hspec] at hsv
  obtain ⟨hl, -, hval⟩ := UK3D.loopSpec_values hsn a1.query hspec hsv
  have e : s.sv ea' j = s.sv ea j := by
    unfold UK3D.sv
    rw [if_pos (by rw [hb']), if_neg (by rw [hb]; decide), UK3D.specs_eq hspec, UK3D.specs_eq hspec']
    rw [hsv]
    change specAt spec' j = sv
    have hlen' : spec'.length = spec.length := by
      cases hsp : s.specified with
      | none => exact absurd hsp hsn
      | some arrs => rw [UK3D.specGrids_len hspec' arrs hsp, UK3D.specGrids_len hspec arrs hsp]
    have hp' : queryAt3 ea'.toExec j = some p := by rw [eq]; exact hp
    have hsl : (specAt spec' j).length = sv.length := by simp [specAt, hlen', hl]
    refine List.ext_getElem? fun l => ?_
    by_cases hll : l < sv.length
    · rw [(hval l hll).2, UK3D.specAt_eq hspec' hsn hp', ← UK3D.firstRow_eq h]
      refine hv j p hp hm l ?_
      rw [UK3D.firstRow_eq h]
      obtain ⟨p', hp''⟩ := (hval l hll).1
      rw [hp'']; simp
    · rw [List.getElem?_eq_none (by omega), List.getElem?_eq_none (by omega)]
  unfold UK3D.ans
  rw [e]

/-- `UniversalKriging3D`: the backends agree if every array of specified drift values is the same at all query points. -/
theorem C24_constant_uk3d_partial {n : ℕ} {env : Env} {x y z v : Fin n → ℝ} {args : UK3DArgs} {s : UK3D n}
    (h : UK3D.create env x y z v args = .ok s) (hs : "specified" ∈ args.driftTerms) {ea : UK3DExecArgs}
    (hc : ∀ j j' p p', queryAt3 ea.toExec j = some p → queryAt3 ea.toExec j' = some p' →
      specAtQuery3 ea j = specAtQuery3 ea j')
    {r r' : ExecResult} (hr : s.execute { ea with toExec := { ea.toExec with backend := "loop" } } = .ok r)
    (hr' : s.execute { ea with toExec := { ea.toExec with backend := "vectorized" } } = .ok r') : r = r' := by
  refine C24_loop_reads_rows_uk3d h hs (ea := { ea with toExec := { ea.toExec with backend := "loop" } })
    (ea' := { ea with toExec := { ea.toExec with backend := "vectorized" } }) rfl rfl ?_ hr hr'
  intro j p hp hm l hl
  obtain ⟨p', hp'⟩ := Option.ne_none_iff_exists'.1 hl
  exact congrArg (fun t : List ℝ => t[l]?) (hc j (firstUK3DRow args n + l) p p' hp hp')

/-- `UniversalKriging3D`: with specified drift terms and no more query points than data the "loop" backend always raises
(as soon as one point is not masked). -/
theorem C24_loop_fails_uk3d {n : ℕ} {env : Env} {x y z v : Fin n → ℝ} {args : UK3DArgs} {s : UK3D n}
    (h : UK3D.create env x y z v args = .ok s) (hs : "specified" ∈ args.driftTerms) {ea : UK3DExecArgs}
    (hb : ea.toExec.backend = "loop") (hfew : queryAt3 ea.toExec n = none)
    (hone : ∃ j p, queryAt3 ea.toExec j = some p ∧ maskedAt3 ea.toExec j = false) (r : ExecResult) :
    s.execute ea ≠ .ok r := by
  intro hr
  obtain ⟨a1, v1⟩ := (UK3D.create_pw h ea).ok_iff.1 ⟨r, hr⟩
  obtain ⟨j, p, hp, hm⟩ := hone
  obtain ⟨spec, hspec⟩ := a1.spec
  obtain ⟨sv, hsv⟩ := (v1 j p hp (.inl hm)) hb
  rw [UK3D.specs_eq hspec] at hsv
  obtain ⟨-, hpos, hval⟩ := UK3D.loopSpec_values (UK3D.specified_some h hs) a1.query hspec hsv
  obtain ⟨p', hp'⟩ := (hval 0 hpos).1
  obtain ⟨⟨pts, mask⟩, hq⟩ := a1.query
  rw [← queryPoints3_getElem? hq] at hp' hfew
  obtain ⟨hlt, -⟩ := List.getElem?_eq_some_iff.1 hp'
  rw [List.getElem?_eq_none_iff] at hfew
  have : n ≤ s.specStart := by unfold UK3D.specStart; omega
  omega

/-! ### A call that silently goes wrong

Two data at `(0, 0)`, `(1, 0)`, linear variogram, specified drift equal to the data values `0, 1`; three query
points with drift values `5, 6, 7`. -/

namespace Demo

def sargs : UKArgs := { params := .list [1, 0], driftTerms := ["specified"], specifiedDrift := .list [[0, 1]] }

/-- Three query points with the given drift values. -/
def scall (v : List ℝ) (b : String) : UKExecArgs :=
  { toExec := pts [(2, 0), (3, 0), (4, 0)] b, spec := .list [.d1 v] }

theorem suk (z : Fin 2 → ℝ) : ∃ s, UK.create stdEnv X O z sargs = .ok s ∧ s.params = [1, 0] ∧
    s.variogramFunction = linearVariogramModel ∧ s.regionalLinear = false ∧ s.pointLog = none ∧
    s.externalZ = none ∧ s.specified = some [X] ∧ s.functional = none := by
  obtain ⟨ev, h2⟩ := expVar_ok (adjustData2 X O (1 / 2) 0 1 0) z 6
  obtain ⟨st, h3⟩ := stats_ok (adjustData2 X O (1 / 2) 0 1 0) z (vario 0) false
  simp only [one_div] at h2 h3
  have hX : (fun i : Fin 2 => ([0, 1] : List ℝ).get (i.cast rfl)) = X := by
    funext i; fin_cases i <;> rfl
  have hsp : setupSpecifiedTerm 2 ["specified"] (.list [[0, 1]]) = .ok (some [X]) := by
    simp only [setupSpecifiedTerm, setupSpecified, List.mem_singleton, if_true, List.mapM_cons, List.mapM_nil]
    rw [dif_pos (by rfl)]
    exact congrArg (fun f => Except.ok (some [f])) hX
  simp [UK.create, sargs, UK.resolveModel, chooseFunction, variogramDict, midrange_X,
    midrange_O, makeVariogramParameterList, initializeVariogramModel, h2, h3, variogramFunctionName,
    setupExternalZ, setupPointLog, hsp, setupFunctionalTerm]

theorem suk_run {z : Fin 2 → ℝ} {s : UK 2} (h : UK.create stdEnv X O z sargs = .ok s) {v : List ℝ}
    (hv : v.length = 3) {b : String} (hb : b = "vectorized" ∨ b = "loop") : ∃ r, s.execute (scall v b) = .ok r := by
  obtain ⟨s', h', hp, hvf, hrl, hpl, hez, hsp, hfu⟩ := suk z
  rw [h] at h'; cases h'
  have hγ : s.variogramFunction s.params = .ok fun d => d + 0 := by rw [hvf, hp, vario]
  have hdd : s.driftData = [X] := by simp [UK.driftData, hrl, hpl, hez, hsp, hfu]
  have hg : s.specGrids (scall v b) = .ok [v] := by
    simp [UK.specGrids, hsp, scall, checkSpec, pts, hv]
  refine (UK.create_pw h (scall v b)).ok_iff.2 ⟨⟨by simp [scall, pts], ⟨_, hγ⟩, ⟨_, queryPoints_pts _ _⟩, ⟨_, hg⟩,
    by simp [scall, pts], hb, Or.inr (regular_drift (by rw [hdd]; rfl) ?_)⟩, ?_⟩
  · intro l
    have : s.F l ∈ s.driftData := List.get_mem _ _
    rw [hdd] at this
    simpa using this
  · intro j p _ _
    refine ⟨⟨0, by simp [UK.extP, hez]⟩, fun _ => ⟨by simp [UK.atWell, hpl], ?_⟩⟩
    rw [UK.specs_eq hg]
    have : ∃ c, pyGet v 2 = .ok c := by
      have h2 : v[2]? = some v[2] := List.getElem?_eq_getElem (by omega)
      exact ⟨v[2], by simp [pyGet, h2]⟩
    obtain ⟨c, hc⟩ := this
    exact ⟨[c], by simp [UK.loopSpec, hsp, UK.specStart, hrl, hpl, hez, hc]⟩

theorem scall_value {s : UK 2} (h : UK.create stdEnv X O X sargs = .ok s) {v : List ℝ}
    {r : ExecResult} (hr : s.execute (scall v "vectorized") = .ok r) : r.z[0]? = some (some (v.getD 0 0)) := by
  have hq : queryAt (scall v "vectorized").toExec 0 = some (2, 0) := by simp [queryAt, scall, pts]
  have ht := ((UK.create_pw h _).table r hr).at_point hq (by simp [maskedAt, scall, pts])
  obtain ⟨p, hp, e⟩ := C21_drift_uk h rfl (fun _ => rfl) 0 [1] (fun i => by
    simp only [driftTerms2, sargs, combination, specAtDatum]
    fin_cases i <;> simp [X]) hr ht.1
  rw [ht.1, e]
  simp [driftTerms2, sargs, combination, specAtQuery, scall, specEntry]

end Demo

/-- The claim fails: all drift values and data are the caller's, both backends return without complaint, and at
the first query point "vectorized" returns the drift value given there, 5, but "loop" returns 7. -/
theorem C24_loop_wrong : ∃ (s : UK 2) (r r' : ExecResult),
    UK.create stdEnv Demo.X Demo.O Demo.X Demo.sargs = .ok s ∧
    s.execute (Demo.scall [5, 6, 7] "vectorized") = .ok r ∧ s.execute (Demo.scall [5, 6, 7] "loop") = .ok r' ∧
    r.z[0]? = some (some 5) ∧ r'.z[0]? = some (some 7) := by
  obtain ⟨s, h, -⟩ := Demo.suk Demo.X
  obtain ⟨r, hr⟩ := Demo.suk_run h (v := [5, 6, 7]) rfl (.inl rfl)
  obtain ⟨r', hr'⟩ := Demo.suk_run h (v := [5, 6, 7]) rfl (.inr rfl)
  obtain ⟨r'', hr''⟩ := Demo.suk_run h (v := [7, 7, 7]) rfl (.inl rfl)
  have e : r' = r'' := by
    refine C24_loop_reads_rows_uk h (by simp [Demo.sargs]) (ea := Demo.scall [5, 6, 7] "loop")
      (ea' := Demo.scall [7, 7, 7] "vectorized") rfl rfl ?_ hr' hr''
    intro j p hp _ l hl
    have hj : j < 3 := by
      by_contra hc
      have : queryAt (Demo.scall [5, 6, 7] "loop").toExec j = none := by
        simp only [queryAt, Demo.scall, Demo.pts, if_true]
        rw [List.getElem?_eq_none (by simp; omega)]; rfl
      rw [this] at hp; cases hp
    cases l with
    | zero =>
      have : ([7, 7, 7] : List ℝ)[j]?.getD 0 = 7 := by
        match j, hj with
        | 0, _ => rfl
        | 1, _ => rfl
        | 2, _ => rfl
      simp [specAtQuery, Demo.scall, specEntry, firstUKRow, Demo.sargs, this]
    | succ l => simp [specAtQuery, Demo.scall]
  refine ⟨s, r, r', h, hr, hr', by simpa using Demo.scall_value h hr, ?_⟩
  rw [e]
  simpa using Demo.scall_value h hr''

/-- The hypotheses of `C24_constant_uk_partial` are met. -/
example : ∃ (s : UK 2) (r r' : ExecResult),
    UK.create stdEnv Demo.X Demo.O Demo.X Demo.sargs = .ok s ∧
    s.execute (Demo.scall [7, 7, 7] "vectorized") = .ok r ∧ s.execute (Demo.scall [7, 7, 7] "loop") = .ok r' := by
  obtain ⟨s, h, -⟩ := Demo.suk Demo.X
  obtain ⟨r, hr⟩ := Demo.suk_run h (v := [7, 7, 7]) rfl (.inl rfl)
  obtain ⟨r', hr'⟩ := Demo.suk_run h (v := [7, 7, 7]) rfl (.inr rfl)
  exact ⟨s, r, r', h, hr, hr'⟩

end
end PyKrige
