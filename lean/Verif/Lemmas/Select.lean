import Verif.Lemmas.UKValid
import Verif.Lemmas.Backend

/-! Asking for some entries of another call. -/

set_option linter.unusedSectionVars false

namespace PyKrige
noncomputable section
open Matrix Spec

theorem Pointwise.select {α : Type} {run run' : ExecResult → Prop} {shape shape' : List ℕ}
    {query query' : ℕ → Option α} {masked masked' : ℕ → Bool} {acc acc' : Prop}
    {need need' : ℕ → Prop} {valid valid' : ℕ → α → Prop} {ans ans' : ℕ → α → ℝ × ℝ}
    (h : Pointwise run shape query masked acc need valid ans)
    (h' : Pointwise run' shape' query' masked' acc' need' valid' ans') {r : ExecResult} (hr : run r)
    (hacc : acc → acc')
    (hsrc : acc → ∀ j p, query' j = some p → need' j → ∃ k, query k = some p ∧ need k ∧ (valid k p → valid' j p)) :
    ∃ r', run' r' ∧ IsTable shape query masked ans r ∧ IsTable shape' query' masked' ans' r' := by
  obtain ⟨h1, h2⟩ := h.ok_iff.1 ⟨r, hr⟩
  obtain ⟨r', hr'⟩ := h'.ok_iff.2 ⟨hacc h1, fun j p hj hn => by
    obtain ⟨k, hk, hn', hv⟩ := hsrc h1 j p hj hn
    exact hv (h2 k p hk hn')⟩
  exact ⟨r', hr', h.table r hr, h'.table r' hr'⟩

/-- Reading off a selection of entries. -/
theorem IsTable.picked {α : Type} {shape shape' : List ℕ}
    {query query' : ℕ → Option α} {masked masked' : ℕ → Bool} {ans ans' : ℕ → α → ℝ × ℝ} {r r' : ExecResult}
    (h : IsTable shape query masked ans r) (h' : IsTable shape' query' masked' ans' r') (js : List ℕ)
    (hq : ∀ k : ℕ, query' k = js[k]?.bind query) (hs : ∀ j ∈ js, (query j).isSome ∧ masked j = false)
    (hm : ∀ k, masked' k = false)
    (ha : ∀ (k j : ℕ) p, js[k]? = some j → query j = some p → ans' k p = ans j p) :
    r'.z.map some = js.map (r.z[·]?) ∧ r'.ss.map some = js.map (r.ss[·]?) := by
  constructor <;> refine List.ext_getElem? fun k => ?_
  all_goals
    rw [List.getElem?_map, List.getElem?_map]
    cases hk : js[k]? with
    | none => 
      first | rw [h'.z_eq] | rw [h'.ss_eq]
      rw [hq, hk]; rfl
    | some j =>
      obtain ⟨h1, h2⟩ := hs j (List.mem_of_getElem? hk)
      obtain ⟨p, hp⟩ := Option.isSome_iff_exists.1 h1
      have e' := h'.at_point (j := k) (p := p) (by rw [hq, hk]; exact hp) (hm k)
      have e := h.at_point hp h2
      simp only [e'.1, e.1, e'.2, e.2, Option.map_some, ha k j p hk hp]

theorem queryPoints_pick (ea : ExecArgs) (js : List ℕ) : ∃ pm, queryPoints (pick ea js) = .ok pm := by
  simp [queryPoints, pick]

theorem queryPoints3_pick3 (ea : ExecArgs3) (js : List ℕ) : ∃ pm, queryPoints3 (pick3 ea js) = .ok pm := by
  simp [queryPoints3, pick3]

theorem queryAt_pick {ea : ExecArgs} {js : List ℕ} (hs : ∀ j ∈ js, (queryAt ea j).isSome) (k : ℕ) :
    queryAt (pick ea js) k = js[k]?.bind (queryAt ea) := by
  have e : queryAt (pick ea js) k = (do
      let x ← (js.map fun j => ((queryAt ea j).getD (0, 0)).1)[k]?
      let y ← (js.map fun j => ((queryAt ea j).getD (0, 0)).2)[k]?
      return (x, y)) := rfl
  rw [e]
  simp only [List.getElem?_map]
  cases hk : js[k]? with
  | none => rfl
  | some j =>
    obtain ⟨p, hp⟩ := Option.isSome_iff_exists.1 (hs j (List.mem_of_getElem? hk))
    simp only [Option.map_some, Option.bind_some, hp, Option.getD_some]
    rfl

theorem queryAt3_pick3 {ea : ExecArgs3} {js : List ℕ} (hs : ∀ j ∈ js, (queryAt3 ea j).isSome) (k : ℕ) :
    queryAt3 (pick3 ea js) k = js[k]?.bind (queryAt3 ea) := by
  have e : queryAt3 (pick3 ea js) k = (do
      let x ← (js.map fun j => ((queryAt3 ea j).getD (0, 0, 0)).1)[k]?
      let y ← (js.map fun j => ((queryAt3 ea j).getD (0, 0, 0)).2.1)[k]?
      let z ← (js.map fun j => ((queryAt3 ea j).getD (0, 0, 0)).2.2)[k]?
      return (x, y, z)) := rfl
  rw [e]
  simp only [List.getElem?_map]
  cases hk : js[k]? with
  | none => rfl
  | some j =>
    obtain ⟨p, hp⟩ := Option.isSome_iff_exists.1 (hs j (List.mem_of_getElem? hk))
    simp only [Option.map_some, Option.bind_some, hp, Option.getD_some]
    rfl

theorem maskedAt_pick (ea : ExecArgs) (js : List ℕ) (k : ℕ) : maskedAt (pick ea js) k = false := by
  simp [maskedAt, pick]

theorem maskedAt3_pick3 (ea : ExecArgs3) (js : List ℕ) (k : ℕ) : maskedAt3 (pick3 ea js) k = false := by
  simp [maskedAt3, pick3]

theorem resultShape_pick (ea : ExecArgs) (js : List ℕ) : resultShape (pick ea js) = [js.length] := by
  simp [resultShape, pick]

theorem resultShape3_pick3 (ea : ExecArgs3) (js : List ℕ) : resultShape3 (pick3 ea js) = [js.length] := by
  simp [resultShape3, pick3]

/-! ### Specified drift -/

theorem UK.specGrids_pick {n : ℕ} {s : UK n} {ea : UKExecArgs} (js : List ℕ) (h : ∃ g, s.specGrids ea = .ok g) :
    ∃ g, s.specGrids (pickUK ea js) = .ok g := by
  unfold UK.specGrids at h ⊢
  cases hsp : s.specified with
  | none => exact ⟨_, rfl⟩
  | some arrs =>
    rw [hsp] at h
    obtain ⟨g, h⟩ := h
    cases hs : ea.spec with
    | none => rw [hs] at h; simp at h
    | notList => rw [hs] at h; simp at h
    | list l =>
      rw [hs] at h
      cases l with
      | nil => simp at h
      | cons a l =>
        dsimp only at h
        obtain ⟨g', h1, h2⟩ := py_bind_eq_ok.1 h
        have hl : g'.length = (a :: l).length := (py_mapM_eq_ok.1 h1).length_eq.symm
        have hla : (a :: l).length = arrs.length := by
          split at h2
          · simp at h2
          · next hn => rw [← hl]; exact not_not.1 hn
        have key : ((a :: l).map fun a => SpecArray.d1 (js.map fun j => specEntry ea.toExec j a)).mapM
            (checkSpec "points" js.length js.length) =
            .ok ((a :: l).map fun a => js.map fun j => specEntry ea.toExec j a) := by
          rw [py_mapM_eq_ok, List.forall₂_map_left_iff, List.forall₂_map_right_iff, List.forall₂_same]
          intro b _
          simp [checkSpec]
        refine ⟨(a :: l).map fun a => js.map fun j => specEntry ea.toExec j a, ?_⟩
        have e1 : (pickUK ea js).spec =
            .list ((a :: l).map fun a => SpecArray.d1 (js.map fun j => specEntry ea.toExec j a)) := by
          simp [pickUK, hs]
        rw [e1]
        have e2 : (pickUK ea js).toExec.xpoints.vals.length = js.length := by simp [pickUK, pick]
        have e3 : (pickUK ea js).toExec.ypoints.vals.length = js.length := by simp [pickUK, pick]
        have e4 : (pickUK ea js).toExec.style = "points" := by simp [pickUK, pick]
        rw [e2, e3, e4]
        rw [List.map_cons, List.map_cons] at key
        rw [List.map_cons, List.map_cons]
        dsimp only
        rw [key, py_ok_bind, if_neg (by simp [← hla])]
        rfl

theorem UK3D.specGrids_pick {n : ℕ} {s : UK3D n} {ea : UK3DExecArgs} (js : List ℕ) (h : ∃ g, s.specGrids ea = .ok g) :
    ∃ g, s.specGrids (pickUK3 ea js) = .ok g := by
  unfold UK3D.specGrids at h ⊢
  cases hsp : s.specified with
  | none => exact ⟨_, rfl⟩
  | some arrs =>
    rw [hsp] at h
    obtain ⟨g, h⟩ := h
    cases hs : ea.spec with
    | none => rw [hs] at h; simp at h
    | notList => rw [hs] at h; simp at h
    | list l =>
      rw [hs] at h
      cases l with
      | nil => simp at h
      | cons a l =>
        dsimp only at h
        obtain ⟨g', h1, h2⟩ := py_bind_eq_ok.1 h
        have hl : g'.length = (a :: l).length := (py_mapM_eq_ok.1 h1).length_eq.symm
        have hla : (a :: l).length = arrs.length := by
          split at h2
          · simp at h2
          · next hn => rw [← hl]; exact not_not.1 hn
        have key : ((a :: l).map fun a => SpecArray3.d1 (js.map fun j => specEntry3 ea.toExec j a)).mapM
            (checkSpec3 "points" js.length js.length js.length) =
            .ok ((a :: l).map fun a => js.map fun j => specEntry3 ea.toExec j a) := by
          rw [py_mapM_eq_ok, List.forall₂_map_left_iff, List.forall₂_map_right_iff, List.forall₂_same]
          intro b _
          simp [checkSpec3]
        refine ⟨(a :: l).map fun a => js.map fun j => specEntry3 ea.toExec j a, ?_⟩
        have e1 : (pickUK3 ea js).spec =
            .list ((a :: l).map fun a => SpecArray3.d1 (js.map fun j => specEntry3 ea.toExec j a)) := by
          simp [pickUK3, hs]
        rw [e1]
        have e2 : (pickUK3 ea js).toExec.xpoints.vals.length = js.length := by simp [pickUK3, pick3]
        have e3 : (pickUK3 ea js).toExec.ypoints.vals.length = js.length := by simp [pickUK3, pick3]
        have e5 : (pickUK3 ea js).toExec.zpoints.vals.length = js.length := by simp [pickUK3, pick3]
        have e4 : (pickUK3 ea js).toExec.style = "points" := by simp [pickUK3, pick3]
        rw [e2, e3, e4, e5]
        rw [List.map_cons, List.map_cons] at key
        rw [List.map_cons, List.map_cons]
        dsimp only
        rw [key, py_ok_bind, if_neg (by simp [← hla])]
        rfl

theorem specAtQuery_pick (ea : UKExecArgs) {js : List ℕ} {k j : ℕ} (hk : js[k]? = some j) :
    specAtQuery (pickUK ea js) k = specAtQuery ea j := by
  unfold specAtQuery pickUK
  cases ea.spec with
  | none => rfl
  | notList => rfl
  | list l =>
    simp only [List.map_map]
    refine List.map_congr_left fun a _ => ?_
    simp [specEntry, hk]

theorem specAtQuery3_pick (ea : UK3DExecArgs) {js : List ℕ} {k j : ℕ} (hk : js[k]? = some j) :
    specAtQuery3 (pickUK3 ea js) k = specAtQuery3 ea j := by
  unfold specAtQuery3 pickUK3
  cases ea.spec with
  | none => rfl
  | notList => rfl
  | list l =>
    simp only [List.map_map]
    refine List.map_congr_left fun a _ => ?_
    simp [specEntry3, hk]

theorem UK.sv_query {n : ℕ} {s : UK n} {ea : UKExecArgs} (hs : s.specified = none ∨ ea.toExec.backend = "vectorized")
    (hg : ∃ g, s.specGrids ea = .ok g) {j : ℕ} {p : ℝ × ℝ} (hq : queryAt ea.toExec j = some p) :
    s.sv ea j = if s.specified = none then [] else specAtQuery ea j := by
  split
  · next h => exact UK.sv_none h ea j
  · next h =>
    obtain ⟨g, hg⟩ := hg
    unfold UK.sv
    rw [if_pos (hs.resolve_left h), UK.specs_eq hg, UK.specAt_eq hg h hq]

theorem UK3D.sv_query {n : ℕ} {s : UK3D n} {ea : UK3DExecArgs}
    (hs : s.specified = none ∨ ea.toExec.backend = "vectorized")
    (hg : ∃ g, s.specGrids ea = .ok g) {j : ℕ} {p : ℝ × ℝ × ℝ} (hq : queryAt3 ea.toExec j = some p) :
    s.sv ea j = if s.specified = none then [] else specAtQuery3 ea j := by
  split
  · next h => exact UK3D.sv_none h ea j
  · next h =>
    obtain ⟨g, hg⟩ := hg
    unfold UK3D.sv
    rw [if_pos (hs.resolve_left h), UK3D.specs_eq hg, UK3D.specAt_eq hg h hq]

theorem UK.valid_congr {n : ℕ} {s : UK n} {ea ea' : UKExecArgs} (hb : ea'.toExec.backend = ea.toExec.backend)
    (hs : s.specified = none ∨ ea.toExec.backend = "vectorized") (p : ℝ × ℝ) (h : s.Valid ea p) :
    s.Valid ea' p := by
  refine ⟨h.1, fun hl => ?_⟩
  rw [hb] at hl
  have hsn := hs.resolve_right (by rw [hl]; decide)
  exact ⟨(h.2 hl).1, [], UK.loopSpec_none hsn _⟩

theorem UK3D.valid_congr {n : ℕ} {s : UK3D n} {ea ea' : UK3DExecArgs} (hb : ea'.toExec.backend = ea.toExec.backend)
    (hs : s.specified = none ∨ ea.toExec.backend = "vectorized") (p : ℝ × ℝ × ℝ) : s.Valid ea' p := by
  intro hl
  rw [hb] at hl
  exact ⟨[], UK3D.loopSpec_none (hs.resolve_right (by rw [hl]; decide)) _⟩

/-- The variogram check does not look at the query points. -/
theorem OK.check_congr {n : ℕ} (env : Env) (s : OK n) {ea ea' : ExecArgs} (hb : ea'.backend = ea.backend)
    (hn : ea'.nClosest = ea.nClosest) : s.check env ea' = s.check env ea := by
  unfold OK.check
  rw [hb, hn]

end
end PyKrige
