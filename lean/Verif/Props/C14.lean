import Verif.Lemmas.Select
import Verif.Examples.Demo

/-!
# C14: the answer at a point does not depend on which other points are asked for

`pick ea js` is the call of style 'points' that asks for entries number `js` (any list: a part, a
permutation, with repetitions) of the call `ea`; specified drift values are carried along.  The
`append` theorems treat concatenation.  Universal kriging with *specified* drift needs
backend='vectorized' (see C24 for why).
-/

set_option linter.unusedSectionVars false

namespace PyKrige
noncomputable section
open Matrix Spec

theorem Pointwise.append {α : Type} {run₁ run₂ run₃ : ExecResult → Prop} {shape₁ shape₂ shape₃ : List ℕ}
    {query₁ query₂ query₃ : ℕ → Option α} {masked₁ masked₂ masked₃ : ℕ → Bool} {acc₁ acc₂ acc₃ : Prop}
    {need₁ need₂ need₃ : ℕ → Prop} {valid₁ valid₂ valid₃ : ℕ → α → Prop} {ans₁ ans₂ ans₃ : ℕ → α → ℝ × ℝ}
    (h₁ : Pointwise run₁ shape₁ query₁ masked₁ acc₁ need₁ valid₁ ans₁)
    (h₂ : Pointwise run₂ shape₂ query₂ masked₂ acc₂ need₂ valid₂ ans₂)
    (h₃ : Pointwise run₃ shape₃ query₃ masked₃ acc₃ need₃ valid₃ ans₃) {r₁ r₂ : ExecResult}
    (hr₁ : run₁ r₁) (hr₂ : run₂ r₂) (hacc : acc₁ → acc₂ → acc₃) (l₁ l₂ : List α)
    (hq₁ : ∀ j : ℕ, query₁ j = l₁[j]?) (hq₂ : ∀ j : ℕ, query₂ j = l₂[j]?)
    (hq₃ : ∀ j : ℕ, query₃ j = (l₁ ++ l₂)[j]?)
    (hm₁ : ∀ j, masked₁ j = false) (hm₂ : ∀ j, masked₂ j = false) (hm₃ : ∀ j, masked₃ j = false)
    (hn₁ : ∀ j, need₁ j) (hn₂ : ∀ j, need₂ j)
    (hv₁ : ∀ (j : ℕ) p, l₁[j]? = some p → valid₁ j p → valid₃ j p)
    (hv₂ : ∀ (j : ℕ) p, l₂[j]? = some p → valid₂ j p → valid₃ (l₁.length + j) p)
    (ha₁ : acc₁ → acc₂ → ∀ (j : ℕ) p, l₁[j]? = some p → ans₃ j p = ans₁ j p)
    (ha₂ : acc₁ → acc₂ → ∀ (j : ℕ) p, l₂[j]? = some p → ans₃ (l₁.length + j) p = ans₂ j p) :
    run₃ ⟨shape₃, r₁.z ++ r₂.z, r₁.ss ++ r₂.ss⟩ := by
  obtain ⟨a₁, b₁⟩ := h₁.ok_iff.1 ⟨_, hr₁⟩
  obtain ⟨a₂, b₂⟩ := h₂.ok_iff.1 ⟨_, hr₂⟩
  obtain ⟨r₃, hr₃⟩ := h₃.ok_iff.2 ⟨hacc a₁ a₂, fun j p hj _ => by
    rw [hq₃, List.getElem?_append] at hj
    split at hj
    · exact hv₁ j p hj (b₁ j p (by rw [hq₁, hj]) (hn₁ j))
    · next hlt =>
      have := hv₂ (j - l₁.length) p hj (b₂ _ p (by rw [hq₂, hj]) (hn₂ _))
      rwa [Nat.add_sub_cancel' (by omega)] at this⟩
  have t₁ := h₁.table _ hr₁
  have t₂ := h₂.table _ hr₂
  have t₃ := h₃.table _ hr₃
  have len : r₁.z.length = l₁.length ∧ r₁.ss.length = l₁.length := by
    constructor <;> refine le_antisymm (List.getElem?_eq_none_iff.1 ?_) (List.getElem?_eq_none_iff.1 ?_)
    · rw [t₁.z_eq, hq₁]; simp
    · have := t₁.z_eq r₁.z.length
      rw [hq₁, List.getElem?_eq_none (le_refl _)] at this
      exact Option.map_eq_none_iff.1 this.symm
    · rw [t₁.ss_eq, hq₁]; simp
    · have := t₁.ss_eq r₁.ss.length
      rw [hq₁, List.getElem?_eq_none (le_refl _)] at this
      exact Option.map_eq_none_iff.1 this.symm
  have e : r₃ = ⟨shape₃, r₁.z ++ r₂.z, r₁.ss ++ r₂.ss⟩ := by
    obtain ⟨sh, z, ss⟩ := r₃
    have e1 : sh = shape₃ := t₃.shape_eq
    have e2 : z = r₁.z ++ r₂.z := by
      refine List.ext_getElem? fun j => (t₃.z_eq j).trans ?_
      rw [hq₃, List.getElem?_append, List.getElem?_append, len.1, t₁.z_eq, t₂.z_eq, hq₁, hq₂]
      simp only [hm₁, hm₂, hm₃, Bool.false_eq_true, if_false]
      by_cases hlt : j < l₁.length
      · rw [if_pos hlt, if_pos hlt]
        refine Option.map_congr fun p hp => ?_
        rw [ha₁ a₁ a₂ j p hp]
      · rw [if_neg hlt, if_neg hlt]
        refine Option.map_congr fun p hp => ?_
        rw [← ha₂ a₁ a₂ _ p hp, Nat.add_sub_cancel' (by omega)]
    have e3 : ss = r₁.ss ++ r₂.ss := by
      refine List.ext_getElem? fun j => (t₃.ss_eq j).trans ?_
      rw [hq₃, List.getElem?_append, List.getElem?_append, len.2, t₁.ss_eq, t₂.ss_eq, hq₁, hq₂]
      simp only [hm₁, hm₂, hm₃, Bool.false_eq_true, if_false]
      by_cases hlt : j < l₁.length
      · rw [if_pos hlt, if_pos hlt]
        refine Option.map_congr fun p hp => ?_
        rw [ha₁ a₁ a₂ j p hp]
      · rw [if_neg hlt, if_neg hlt]
        refine Option.map_congr fun p hp => ?_
        rw [← ha₂ a₁ a₂ _ p hp, Nat.add_sub_cancel' (by omega)]
    rw [e1, e2, e3]
  rw [← e]; exact hr₃

theorem UK.specGrids_points {n : ℕ} {s : UK n} (l : List (ℝ × ℝ)) (b : String) (vs : List (List ℝ)) :
    (∃ g, s.specGrids { toExec := pointsCall l b, spec := .list (vs.map .d1) } = .ok g) ↔
      ∀ arrs, s.specified = some arrs → vs ≠ [] ∧ (∀ v ∈ vs, v.length = l.length) ∧ vs.length = arrs.length := by
  unfold UK.specGrids
  cases s.specified with
  | none => simp
  | some arrs =>
    cases vs with
    | nil => simp
    | cons a vs =>
      have e : ∀ v : List ℝ, checkSpec "points" l.length l.length (.d1 v) = if v.length = l.length then .ok v else .error .valueError := by
        intro v
        simp [checkSpec]
      simp only [pointsCall, List.length_map, List.map_cons]
      constructor
      · rintro ⟨g, hg⟩ arrs' ha
        cases ha
        obtain ⟨g', h1, h2⟩ := py_bind_eq_ok.1 hg
        rw [← List.map_cons (f := SpecArray.d1), py_mapM_eq_ok, List.forall₂_map_left_iff] at h1
        have hl : (a :: vs).length = g'.length := h1.length_eq
        refine ⟨by simp, fun v hv => ?_, ?_⟩
        · obtain ⟨i, hi⟩ := List.getElem?_of_mem hv
          obtain ⟨hi', hi⟩ := List.getElem?_eq_some_iff.1 hi
          have hw := (List.forall₂_iff_get.1 h1).2 i hi' (hl ▸ hi')
          rw [List.get_eq_getElem, hi] at hw
          by_contra hc
          rw [e, if_neg hc] at hw
          cases hw
        · rw [hl]
          by_contra hc
          rw [if_pos hc] at h2
          cases h2
      · intro hh
        obtain ⟨-, h1, h2⟩ := hh arrs rfl
        refine ⟨a :: vs, ?_⟩
        rw [← List.map_cons (f := SpecArray.d1)]
        have : ((a :: vs).map SpecArray.d1).mapM (checkSpec "points" l.length l.length ) = .ok (a :: vs) := by
          rw [py_mapM_eq_ok, List.forall₂_map_left_iff, List.forall₂_same]
          intro v hv
          rw [e, if_pos (h1 v hv)]
        rw [this, py_ok_bind, if_neg (not_not.2 h2)]
        rfl

theorem UK3D.specGrids_points {n : ℕ} {s : UK3D n} (l : List (ℝ × ℝ × ℝ)) (b : String) (vs : List (List ℝ)) :
    (∃ g, s.specGrids { toExec := pointsCall3 l b, spec := .list (vs.map .d1) } = .ok g) ↔
      ∀ arrs, s.specified = some arrs → vs ≠ [] ∧ (∀ v ∈ vs, v.length = l.length) ∧ vs.length = arrs.length := by
  unfold UK3D.specGrids
  cases s.specified with
  | none => simp
  | some arrs =>
    cases vs with
    | nil => simp
    | cons a vs =>
      have e : ∀ v : List ℝ, checkSpec3 "points" l.length l.length l.length (.d1 v) = if v.length = l.length then .ok v else .error .valueError := by
        intro v
        simp [checkSpec3]
      simp only [pointsCall3, List.length_map, List.map_cons]
      constructor
      · rintro ⟨g, hg⟩ arrs' ha
        cases ha
        obtain ⟨g', h1, h2⟩ := py_bind_eq_ok.1 hg
        rw [← List.map_cons (f := SpecArray3.d1), py_mapM_eq_ok, List.forall₂_map_left_iff] at h1
        have hl : (a :: vs).length = g'.length := h1.length_eq
        refine ⟨by simp, fun v hv => ?_, ?_⟩
        · obtain ⟨i, hi⟩ := List.getElem?_of_mem hv
          obtain ⟨hi', hi⟩ := List.getElem?_eq_some_iff.1 hi
          have hw := (List.forall₂_iff_get.1 h1).2 i hi' (hl ▸ hi')
          rw [List.get_eq_getElem, hi] at hw
          by_contra hc
          rw [e, if_neg hc] at hw
          cases hw
        · rw [hl]
          by_contra hc
          rw [if_pos hc] at h2
          cases h2
      · intro hh
        obtain ⟨-, h1, h2⟩ := hh arrs rfl
        refine ⟨a :: vs, ?_⟩
        rw [← List.map_cons (f := SpecArray3.d1)]
        have : ((a :: vs).map SpecArray3.d1).mapM (checkSpec3 "points" l.length l.length l.length) = .ok (a :: vs) := by
          rw [py_mapM_eq_ok, List.forall₂_map_left_iff, List.forall₂_same]
          intro v hv
          rw [e, if_pos (h1 v hv)]
        rw [this, py_ok_bind, if_neg (not_not.2 h2)]
        rfl

/-- `OrdinaryKriging`: any choice of (visible) entries of a successful call, asked for on its own, succeeds and
returns these entries. -/
theorem C14_pick_2d {n : ℕ} {env : Env} {x y z : Fin n → ℝ} {args : OKArgs} {s : OK n}
    (h : OK.create env x y z args = .ok s) {ea : ExecArgs} (ha : Admissible env args s ea.nClosest) {r : ExecResult} (hr : s.execute env ea = .ok r) (js : List ℕ)
    (hjs : ∀ j ∈ js, (queryAt ea j).isSome ∧ maskedAt ea j = false) :
    ∃ r', s.execute env (pick ea js) = .ok r' ∧ r'.shape = [js.length] ∧
      r'.z.map some = js.map (r.z[·]?) ∧ r'.ss.map some = js.map (r.ss[·]?) := by
  have h1 := OK.create_pw h ha
  have h2 := OK.create_pw h (ea := pick ea js) ha
  have hq := queryAt_pick (ea := ea) fun j hj => (hjs j hj).1
  obtain ⟨r', hr', t, t'⟩ := h1.select h2 hr
    (fun a => ⟨by simp [pick], a.win, a.vario, queryPoints_pick ea js, a.noInt, a.backend, a.solvable⟩)
    (fun _ k p hp _ => by
      rw [hq] at hp
      obtain ⟨j, hj, hp⟩ := Option.bind_eq_some_iff.1 hp
      exact ⟨j, hp, (hjs j (List.mem_of_getElem? hj)).2, fun hv => hv⟩)
  exact ⟨r', hr', t'.shape_eq.trans (resultShape_pick ea js),
    t.picked t' js hq hjs (maskedAt_pick ea js) fun k j p hk hp => rfl⟩

/-- `OrdinaryKriging`: asking for two lists of points at once is asking for one after the other. -/
theorem C14_append_2d {n : ℕ} {env : Env} {x y z : Fin n → ℝ} {args : OKArgs} {s : OK n}
    (h : OK.create env x y z args = .ok s) {k : Option ℤ} (ha : Admissible env args s k) {b : String} {l₁ l₂ : List (ℝ × ℝ)} {r₁ r₂ : ExecResult}
    (hr₁ : s.execute env { pointsCall l₁ b with nClosest := k } = .ok r₁) (hr₂ : s.execute env { pointsCall l₂ b with nClosest := k } = .ok r₂) :
    s.execute env { pointsCall (l₁ ++ l₂) b with nClosest := k } =
      .ok ⟨[l₁.length + l₂.length], r₁.z ++ r₂.z, r₁.ss ++ r₂.ss⟩ := by
  have e : resultShape { pointsCall (l₁ ++ l₂) b with nClosest := k } = [l₁.length + l₂.length] := by simp [resultShape, pointsCall]
  rw [← e]
  exact Pointwise.append (OK.create_pw h (ea := { pointsCall l₁ b with nClosest := k }) ha) (OK.create_pw h (ea := { pointsCall l₂ b with nClosest := k }) ha)
    (OK.create_pw h (ea := { pointsCall (l₁ ++ l₂) b with nClosest := k }) ha) hr₁ hr₂
    (fun a _ => ⟨a.style, a.win, a.vario, ⟨_, queryPoints_pointsCall (l₁ ++ l₂) b⟩, a.noInt, a.backend, a.solvable⟩) l₁ l₂
    (queryAt_pointsCall l₁ b) (queryAt_pointsCall l₂ b) (queryAt_pointsCall (l₁ ++ l₂) b) (maskedAt_pointsCall l₁ b)
    (maskedAt_pointsCall l₂ b) (maskedAt_pointsCall (l₁ ++ l₂) b) (maskedAt_pointsCall l₁ b) (maskedAt_pointsCall l₂ b)
    (fun _ _ _ hv => hv) (fun _ _ _ hv => hv) (fun _ _ _ _ _ => rfl) (fun _ _ _ _ _ => rfl)

/-- `OrdinaryKriging3D`: any choice of (visible) entries of a successful call, asked for on its own, succeeds and
returns these entries. -/
theorem C14_pick_3d {n : ℕ} {env : Env} {x y z v : Fin n → ℝ} {args : OK3DArgs} {s : OK3D n}
    (h : OK3D.create env x y z v args = .ok s) {ea : ExecArgs3} (hk : KnnSpec env)
    (hw : WindowFits n ea.nClosest) {r : ExecResult} (hr : s.execute env ea = .ok r) (js : List ℕ)
    (hjs : ∀ j ∈ js, (queryAt3 ea j).isSome ∧ maskedAt3 ea j = false) :
    ∃ r', s.execute env (pick3 ea js) = .ok r' ∧ r'.shape = [js.length] ∧
      r'.z.map some = js.map (r.z[·]?) ∧ r'.ss.map some = js.map (r.ss[·]?) := by
  have h1 := OK3D.create_pw h hk hw
  have h2 := OK3D.create_pw h (ea := pick3 ea js) hk hw
  have hq := queryAt3_pick3 (ea := ea) fun j hj => (hjs j hj).1
  obtain ⟨r', hr', t, t'⟩ := h1.select h2 hr
    (fun a => ⟨by simp [pick3], a.win, a.vario, queryPoints3_pick3 ea js, a.noInt, a.backend, a.solvable⟩)
    (fun _ k p hp _ => by
      rw [hq] at hp
      obtain ⟨j, hj, hp⟩ := Option.bind_eq_some_iff.1 hp
      exact ⟨j, hp, (hjs j (List.mem_of_getElem? hj)).2, fun hv => hv⟩)
  exact ⟨r', hr', t'.shape_eq.trans (resultShape3_pick3 ea js),
    t.picked t' js hq hjs (maskedAt3_pick3 ea js) fun k j p hk hp => rfl⟩

/-- `OrdinaryKriging3D`: asking for two lists of points at once is asking for one after the other. -/
theorem C14_append_3d {n : ℕ} {env : Env} {x y z v : Fin n → ℝ} {args : OK3DArgs} {s : OK3D n}
    (h : OK3D.create env x y z v args = .ok s) {k : Option ℤ} (hk : KnnSpec env) (hw : WindowFits n k) {b : String} {l₁ l₂ : List (ℝ × ℝ × ℝ)} {r₁ r₂ : ExecResult}
    (hr₁ : s.execute env { pointsCall3 l₁ b with nClosest := k } = .ok r₁) (hr₂ : s.execute env { pointsCall3 l₂ b with nClosest := k } = .ok r₂) :
    s.execute env { pointsCall3 (l₁ ++ l₂) b with nClosest := k } =
      .ok ⟨[l₁.length + l₂.length], r₁.z ++ r₂.z, r₁.ss ++ r₂.ss⟩ := by
  have e : resultShape3 { pointsCall3 (l₁ ++ l₂) b with nClosest := k } = [l₁.length + l₂.length] := by simp [resultShape3, pointsCall3]
  rw [← e]
  exact Pointwise.append (OK3D.create_pw h (ea := { pointsCall3 l₁ b with nClosest := k }) hk hw) (OK3D.create_pw h (ea := { pointsCall3 l₂ b with nClosest := k }) hk hw)
    (OK3D.create_pw h (ea := { pointsCall3 (l₁ ++ l₂) b with nClosest := k }) hk hw) hr₁ hr₂
    (fun a _ => ⟨a.style, a.win, a.vario, ⟨_, queryPoints3_pointsCall3 (l₁ ++ l₂) b⟩, a.noInt, a.backend, a.solvable⟩) l₁ l₂
    (queryAt3_pointsCall3 l₁ b) (queryAt3_pointsCall3 l₂ b) (queryAt3_pointsCall3 (l₁ ++ l₂) b) (maskedAt3_pointsCall3 l₁ b)
    (maskedAt3_pointsCall3 l₂ b) (maskedAt3_pointsCall3 (l₁ ++ l₂) b) (maskedAt3_pointsCall3 l₁ b) (maskedAt3_pointsCall3 l₂ b)
    (fun _ _ _ hv => hv) (fun _ _ _ hv => hv) (fun _ _ _ _ _ => rfl) (fun _ _ _ _ _ => rfl)

/-- `UniversalKriging`: any choice of (visible) entries of a successful call, asked for on its own, succeeds and
returns these entries. -/
theorem C14_pick_uk {n : ℕ} {env : Env} {x y z : Fin n → ℝ} {args : UKArgs} {s : UK n}
    (h : UK.create env x y z args = .ok s) {ea : UKExecArgs}
    (hs : "specified" ∉ args.driftTerms ∨ ea.toExec.backend = "vectorized") {r : ExecResult} (hr : s.execute ea = .ok r) (js : List ℕ)
    (hjs : ∀ j ∈ js, (queryAt ea.toExec j).isSome ∧ maskedAt ea.toExec j = false) :
    ∃ r', s.execute (pickUK ea js) = .ok r' ∧ r'.shape = [js.length] ∧
      r'.z.map some = js.map (r.z[·]?) ∧ r'.ss.map some = js.map (r.ss[·]?) := by
  have h1 := UK.create_pw h ea
  have h2 := UK.create_pw h (pickUK ea js)
  have hs' : s.specified = none ∨ ea.toExec.backend = "vectorized" := hs.imp (UK.specified_none h) id
  have hq := queryAt_pick (ea := ea.toExec) fun j hj => (hjs j hj).1
  obtain ⟨acc, -⟩ := h1.ok_iff.1 ⟨r, hr⟩
  have hg := UK.specGrids_pick js acc.spec
  obtain ⟨r', hr', t, t'⟩ := h1.select h2 hr
    (fun a => ⟨by simp [pickUK, pick], a.vario, queryPoints_pick ea.toExec js, hg, a.noInt, a.backend, a.solvable⟩)
    (fun _ k p hp _ => by
      change queryAt (pick ea.toExec js) k = some p at hp
      rw [hq] at hp
      obtain ⟨j, hj, hp⟩ := Option.bind_eq_some_iff.1 hp
      exact ⟨j, hp, .inl (hjs j (List.mem_of_getElem? hj)).2, fun hv => UK.valid_congr (ea := ea) (ea' := pickUK ea js) rfl hs' p hv⟩)
  refine ⟨r', hr', t'.shape_eq.trans (resultShape_pick ea.toExec js),
    t.picked t' js hq hjs (maskedAt_pick ea.toExec js) fun k j p hk hp => ?_⟩
  unfold UK.ans
  rw [UK.sv_query hs' acc.spec hp, UK.sv_query (ea := pickUK ea js) hs' hg (j := k) (p := p)
    (by change queryAt (pick ea.toExec js) k = _; rw [hq, hk]; exact hp), specAtQuery_pick ea hk]

/-- `UniversalKriging`; `vs` are the specified drift values (if that drift is used) of the two calls. -/
theorem C14_append_uk {n : ℕ} {env : Env} {x y z : Fin n → ℝ} {args : UKArgs} {s : UK n}
    (h : UK.create env x y z args = .ok s) {b : String}
    (hs : "specified" ∉ args.driftTerms ∨ b = "vectorized") {l₁ l₂ : List (ℝ × ℝ)} {vs : List (List ℝ × List ℝ)}
    {r₁ r₂ : ExecResult} (hr₁ : s.execute { toExec := pointsCall l₁ b, spec := .list (vs.map fun v => .d1 v.1) } = .ok r₁)
    (hr₂ : s.execute { toExec := pointsCall l₂ b, spec := .list (vs.map fun v => .d1 v.2) } = .ok r₂) :
    s.execute { toExec := pointsCall (l₁ ++ l₂) b, spec := .list (vs.map fun v => .d1 (v.1 ++ v.2)) } =
      .ok ⟨[l₁.length + l₂.length], r₁.z ++ r₂.z, r₁.ss ++ r₂.ss⟩ := by
  have e : resultShape (pointsCall (l₁ ++ l₂) b) = [l₁.length + l₂.length] := by simp [resultShape, pointsCall]
  have hs' : s.specified = none ∨ b = "vectorized" := hs.imp (UK.specified_none h) id
  have m : ∀ f : List ℝ × List ℝ → List ℝ, (vs.map fun v => SpecArray.d1 (f v)) = (vs.map f).map .d1 := by
    intro f; simp
  have hg : (∃ g, s.specGrids { toExec := pointsCall l₁ b, spec := .list (vs.map fun v => .d1 v.1) } = .ok g) → (∃ g, s.specGrids { toExec := pointsCall l₂ b, spec := .list (vs.map fun v => .d1 v.2) } = .ok g) →
      ∃ g, s.specGrids { toExec := pointsCall (l₁ ++ l₂) b, spec := .list (vs.map fun v => .d1 (v.1 ++ v.2)) } = .ok g := by
    rw [m fun v => v.1, m fun v => v.2, m fun v => v.1 ++ v.2, UK.specGrids_points, UK.specGrids_points, UK.specGrids_points]
    intro h1 h2 arrs ha
    obtain ⟨p1, p2, p3⟩ := h1 arrs ha
    obtain ⟨q1, q2, q3⟩ := h2 arrs ha
    refine ⟨by simpa using p1, ?_, by simpa using p3⟩
    intro v hv
    obtain ⟨w, hw, rfl⟩ := List.mem_map.1 hv
    rw [List.length_append, List.length_append, p2 w.1 (List.mem_map.2 ⟨w, hw, rfl⟩), q2 w.2 (List.mem_map.2 ⟨w, hw, rfl⟩)]
  have hlen : (∃ g, s.specGrids { toExec := pointsCall l₁ b, spec := .list (vs.map fun v => .d1 v.1) } = .ok g) → s.specified ≠ none → ∀ v ∈ vs, v.1.length = l₁.length := by
    rw [m fun v => v.1, UK.specGrids_points]
    intro h1 h2 v hv
    obtain ⟨arrs, ha⟩ := Option.ne_none_iff_exists'.1 h2
    exact (h1 arrs ha).2.1 v.1 (List.mem_map.2 ⟨v, hv, rfl⟩)
  rw [← e]
  refine Pointwise.append (UK.create_pw h { toExec := pointsCall l₁ b, spec := .list (vs.map fun v => .d1 v.1) }) (UK.create_pw h { toExec := pointsCall l₂ b, spec := .list (vs.map fun v => .d1 v.2) })
    (UK.create_pw h { toExec := pointsCall (l₁ ++ l₂) b, spec := .list (vs.map fun v => .d1 (v.1 ++ v.2)) }) hr₁ hr₂
    (fun a a' => ⟨a.style, a.vario, ⟨_, queryPoints_pointsCall (l₁ ++ l₂) b⟩, hg a.spec a'.spec, a.noInt, a.backend, a.solvable⟩) l₁ l₂
    (queryAt_pointsCall l₁ b) (queryAt_pointsCall l₂ b) (queryAt_pointsCall (l₁ ++ l₂) b) (maskedAt_pointsCall l₁ b)
    (maskedAt_pointsCall l₂ b) (maskedAt_pointsCall (l₁ ++ l₂) b) (fun j => .inl (maskedAt_pointsCall l₁ b j))
    (fun j => .inl (maskedAt_pointsCall l₂ b j))
    (fun _ _ _ hv => UK.valid_congr (ea := { toExec := pointsCall l₁ b, spec := .list (vs.map fun v => .d1 v.1) }) (ea' := { toExec := pointsCall (l₁ ++ l₂) b, spec := .list (vs.map fun v => .d1 (v.1 ++ v.2)) }) rfl hs' _ hv) (fun _ _ _ hv => UK.valid_congr (ea := { toExec := pointsCall l₂ b, spec := .list (vs.map fun v => .d1 v.2) }) (ea' := { toExec := pointsCall (l₁ ++ l₂) b, spec := .list (vs.map fun v => .d1 (v.1 ++ v.2)) }) rfl hs' _ hv) ?_ ?_
  · intro a a' j p hp
    unfold UK.ans
    rw [UK.sv_query (ea := { toExec := pointsCall l₁ b, spec := .list (vs.map fun v => .d1 v.1) }) hs' a.spec (j := j) (by rw [queryAt_pointsCall]; exact hp),
      UK.sv_query (ea := { toExec := pointsCall (l₁ ++ l₂) b, spec := .list (vs.map fun v => .d1 (v.1 ++ v.2)) }) hs' (hg a.spec a'.spec) (j := j)
        (p := p) (by rw [queryAt_pointsCall, List.getElem?_append_left (List.getElem?_eq_some_iff.1 hp).1]; exact hp)]
    by_cases hn : s.specified = none
    · simp only [hn, if_true]
    · simp only [hn, if_false]
      congr 1
      simp only [specAtQuery, List.map_map]
      refine List.map_congr_left fun v hv => ?_
      simp only [Function.comp, specEntry]
      rw [List.getD_eq_getElem?_getD, List.getD_eq_getElem?_getD, List.getElem?_append_left (by rw [hlen a.spec hn v hv]; exact (List.getElem?_eq_some_iff.1 hp).1)]
  · intro a a' j p hp
    unfold UK.ans
    rw [UK.sv_query (ea := { toExec := pointsCall l₂ b, spec := .list (vs.map fun v => .d1 v.2) }) hs' a'.spec (j := j) (by rw [queryAt_pointsCall]; exact hp),
      UK.sv_query (ea := { toExec := pointsCall (l₁ ++ l₂) b, spec := .list (vs.map fun v => .d1 (v.1 ++ v.2)) }) hs' (hg a.spec a'.spec) (j := l₁.length + j)
        (p := p) (by rw [queryAt_pointsCall, List.getElem?_append_right (by omega), Nat.add_sub_cancel_left]; exact hp)]
    by_cases hn : s.specified = none
    · simp only [hn, if_true]
    · simp only [hn, if_false]
      congr 1
      simp only [specAtQuery, List.map_map]
      refine List.map_congr_left fun v hv => ?_
      simp only [Function.comp, specEntry]
      rw [List.getD_eq_getElem?_getD, List.getD_eq_getElem?_getD, List.getElem?_append_right (by rw [hlen a.spec hn v hv]; omega), hlen a.spec hn v hv, Nat.add_sub_cancel_left]

/-- `UniversalKriging3D`: any choice of (visible) entries of a successful call, asked for on its own, succeeds and
returns these entries. -/
theorem C14_pick_uk3d {n : ℕ} {env : Env} {x y z v : Fin n → ℝ} {args : UK3DArgs} {s : UK3D n}
    (h : UK3D.create env x y z v args = .ok s) {ea : UK3DExecArgs}
    (hs : "specified" ∉ args.driftTerms ∨ ea.toExec.backend = "vectorized") {r : ExecResult} (hr : s.execute ea = .ok r) (js : List ℕ)
    (hjs : ∀ j ∈ js, (queryAt3 ea.toExec j).isSome ∧ maskedAt3 ea.toExec j = false) :
    ∃ r', s.execute (pickUK3 ea js) = .ok r' ∧ r'.shape = [js.length] ∧
      r'.z.map some = js.map (r.z[·]?) ∧ r'.ss.map some = js.map (r.ss[·]?) := by
  have h1 := UK3D.create_pw h ea
  have h2 := UK3D.create_pw h (pickUK3 ea js)
  have hs' : s.specified = none ∨ ea.toExec.backend = "vectorized" := hs.imp (UK3D.specified_none h) id
  have hq := queryAt3_pick3 (ea := ea.toExec) fun j hj => (hjs j hj).1
  obtain ⟨acc, -⟩ := h1.ok_iff.1 ⟨r, hr⟩
  have hg := UK3D.specGrids_pick js acc.spec
  obtain ⟨r', hr', t, t'⟩ := h1.select h2 hr
    (fun a => ⟨by simp [pickUK3, pick3], a.vario, queryPoints3_pick3 ea.toExec js, hg, a.noInt, a.backend, a.solvable⟩)
    (fun _ k p hp _ => by
      change queryAt3 (pick3 ea.toExec js) k = some p at hp
      rw [hq] at hp
      obtain ⟨j, hj, hp⟩ := Option.bind_eq_some_iff.1 hp
      exact ⟨j, hp, .inl (hjs j (List.mem_of_getElem? hj)).2, fun _ => UK3D.valid_congr (ea' := pickUK3 ea js) rfl hs' p⟩)
  refine ⟨r', hr', t'.shape_eq.trans (resultShape3_pick3 ea.toExec js),
    t.picked t' js hq hjs (maskedAt3_pick3 ea.toExec js) fun k j p hk hp => ?_⟩
  unfold UK3D.ans
  rw [UK3D.sv_query hs' acc.spec hp, UK3D.sv_query (ea := pickUK3 ea js) hs' hg (j := k) (p := p)
    (by change queryAt3 (pick3 ea.toExec js) k = _; rw [hq, hk]; exact hp), specAtQuery3_pick ea hk]

/-- `UniversalKriging3D`; `vs` are the specified drift values (if that drift is used) of the two calls. -/
theorem C14_append_uk3d {n : ℕ} {env : Env} {x y z v : Fin n → ℝ} {args : UK3DArgs} {s : UK3D n}
    (h : UK3D.create env x y z v args = .ok s) {b : String}
    (hs : "specified" ∉ args.driftTerms ∨ b = "vectorized") {l₁ l₂ : List (ℝ × ℝ × ℝ)} {vs : List (List ℝ × List ℝ)}
    {r₁ r₂ : ExecResult} (hr₁ : s.execute { toExec := pointsCall3 l₁ b, spec := .list (vs.map fun v => .d1 v.1) } = .ok r₁)
    (hr₂ : s.execute { toExec := pointsCall3 l₂ b, spec := .list (vs.map fun v => .d1 v.2) } = .ok r₂) :
    s.execute { toExec := pointsCall3 (l₁ ++ l₂) b, spec := .list (vs.map fun v => .d1 (v.1 ++ v.2)) } =
      .ok ⟨[l₁.length + l₂.length], r₁.z ++ r₂.z, r₁.ss ++ r₂.ss⟩ := by
  have e : resultShape3 (pointsCall3 (l₁ ++ l₂) b) = [l₁.length + l₂.length] := by simp [resultShape3, pointsCall3]
  have hs' : s.specified = none ∨ b = "vectorized" := hs.imp (UK3D.specified_none h) id
  have m : ∀ f : List ℝ × List ℝ → List ℝ, (vs.map fun v => SpecArray3.d1 (f v)) = (vs.map f).map .d1 := by
    intro f; simp
  have hg : (∃ g, s.specGrids { toExec := pointsCall3 l₁ b, spec := .list (vs.map fun v => .d1 v.1) } = .ok g) → (∃ g, s.specGrids { toExec := pointsCall3 l₂ b, spec := .list (vs.map fun v => .d1 v.2) } = .ok g) →
      ∃ g, s.specGrids { toExec := pointsCall3 (l₁ ++ l₂) b, spec := .list (vs.map fun v => .d1 (v.1 ++ v.2)) } = .ok g := by
    rw [m fun v => v.1, m fun v => v.2, m fun v => v.1 ++ v.2, UK3D.specGrids_points, UK3D.specGrids_points, UK3D.specGrids_points]
    intro h1 h2 arrs ha
    obtain ⟨p1, p2, p3⟩ := h1 arrs ha
    obtain ⟨q1, q2, q3⟩ := h2 arrs ha
    refine ⟨by simpa using p1, ?_, by simpa using p3⟩
    intro v hv
    obtain ⟨w, hw, rfl⟩ := List.mem_map.1 hv
    rw [List.length_append, List.length_append, p2 w.1 (List.mem_map.2 ⟨w, hw, rfl⟩), q2 w.2 (List.mem_map.2 ⟨w, hw, rfl⟩)]
  have hlen : (∃ g, s.specGrids { toExec := pointsCall3 l₁ b, spec := .list (vs.map fun v => .d1 v.1) } = .ok g) → s.specified ≠ none → ∀ v ∈ vs, v.1.length = l₁.length := by
    rw [m fun v => v.1, UK3D.specGrids_points]
    intro h1 h2 v hv
    obtain ⟨arrs, ha⟩ := Option.ne_none_iff_exists'.1 h2
    exact (h1 arrs ha).2.1 v.1 (List.mem_map.2 ⟨v, hv, rfl⟩)
  rw [← e]
  refine Pointwise.append (UK3D.create_pw h { toExec := pointsCall3 l₁ b, spec := .list (vs.map fun v => .d1 v.1) }) (UK3D.create_pw h { toExec := pointsCall3 l₂ b, spec := .list (vs.map fun v => .d1 v.2) })
    (UK3D.create_pw h { toExec := pointsCall3 (l₁ ++ l₂) b, spec := .list (vs.map fun v => .d1 (v.1 ++ v.2)) }) hr₁ hr₂
    (fun a a' => ⟨a.style, a.vario, ⟨_, queryPoints3_pointsCall3 (l₁ ++ l₂) b⟩, hg a.spec a'.spec, a.noInt, a.backend, a.solvable⟩) l₁ l₂
    (queryAt3_pointsCall3 l₁ b) (queryAt3_pointsCall3 l₂ b) (queryAt3_pointsCall3 (l₁ ++ l₂) b) (maskedAt3_pointsCall3 l₁ b)
    (maskedAt3_pointsCall3 l₂ b) (maskedAt3_pointsCall3 (l₁ ++ l₂) b) (fun j => .inl (maskedAt3_pointsCall3 l₁ b j))
    (fun j => .inl (maskedAt3_pointsCall3 l₂ b j))
    (fun _ _ _ _ => UK3D.valid_congr (ea' := { toExec := pointsCall3 (l₁ ++ l₂) b, spec := .list (vs.map fun v => .d1 (v.1 ++ v.2)) }) (ea := { toExec := pointsCall3 l₁ b, spec := .list (vs.map fun v => .d1 v.1) }) rfl hs' _) (fun _ _ _ _ => UK3D.valid_congr (ea' := { toExec := pointsCall3 (l₁ ++ l₂) b, spec := .list (vs.map fun v => .d1 (v.1 ++ v.2)) }) (ea := { toExec := pointsCall3 l₁ b, spec := .list (vs.map fun v => .d1 v.1) }) rfl hs' _) ?_ ?_
  · intro a a' j p hp
    unfold UK3D.ans
    rw [UK3D.sv_query (ea := { toExec := pointsCall3 l₁ b, spec := .list (vs.map fun v => .d1 v.1) }) hs' a.spec (j := j) (by rw [queryAt3_pointsCall3]; exact hp),
      UK3D.sv_query (ea := { toExec := pointsCall3 (l₁ ++ l₂) b, spec := .list (vs.map fun v => .d1 (v.1 ++ v.2)) }) hs' (hg a.spec a'.spec) (j := j)
        (p := p) (by rw [queryAt3_pointsCall3, List.getElem?_append_left (List.getElem?_eq_some_iff.1 hp).1]; exact hp)]
    by_cases hn : s.specified = none
    · simp only [hn, if_true]
    · simp only [hn, if_false]
      congr 1
      simp only [specAtQuery3, List.map_map]
      refine List.map_congr_left fun v hv => ?_
      simp only [Function.comp, specEntry3]
      rw [List.getD_eq_getElem?_getD, List.getD_eq_getElem?_getD, List.getElem?_append_left (by rw [hlen a.spec hn v hv]; exact (List.getElem?_eq_some_iff.1 hp).1)]
  · intro a a' j p hp
    unfold UK3D.ans
    rw [UK3D.sv_query (ea := { toExec := pointsCall3 l₂ b, spec := .list (vs.map fun v => .d1 v.2) }) hs' a'.spec (j := j) (by rw [queryAt3_pointsCall3]; exact hp),
      UK3D.sv_query (ea := { toExec := pointsCall3 (l₁ ++ l₂) b, spec := .list (vs.map fun v => .d1 (v.1 ++ v.2)) }) hs' (hg a.spec a'.spec) (j := l₁.length + j)
        (p := p) (by rw [queryAt3_pointsCall3, List.getElem?_append_right (by omega), Nat.add_sub_cancel_left]; exact hp)]
    by_cases hn : s.specified = none
    · simp only [hn, if_true]
    · simp only [hn, if_false]
      congr 1
      simp only [specAtQuery3, List.map_map]
      refine List.map_congr_left fun v hv => ?_
      simp only [Function.comp, specEntry3]
      rw [List.getD_eq_getElem?_getD, List.getD_eq_getElem?_getD, List.getElem?_append_right (by rw [hlen a.spec hn v hv]; omega), hlen a.spec hn v hv, Nat.add_sub_cancel_left]

/-! The hypotheses are met. -/

example : ∃ s r, OK.create stdEnv Demo.X Demo.O ![3, 5] (Demo.args 2 true false) = .ok s ∧
    Admissible stdEnv (Demo.args 2 true false) s none ∧
    s.execute stdEnv (Demo.pts [(0, 0), (2, 5), (1, 1)] "C") = .ok r ∧
    ∀ j ∈ [2, 0, 2], (queryAt (Demo.pts [(0, 0), (2, 5), (1, 1)] "C") j).isSome ∧
      maskedAt (Demo.pts [(0, 0), (2, 5), (1, 1)] "C") j = false := by
  obtain ⟨s, h, -⟩ := Demo.ok ![3, 5] 2 true false
  obtain ⟨ha, r, hr⟩ := Demo.ok_run zero_le_two h [(0, 0), (2, 5), (1, 1)] (b := "C") (.inr (.inr rfl))
  exact ⟨s, r, h, ha, hr, by simp [queryAt, maskedAt, Demo.pts]⟩

example : ∃ s r, UK3D.create stdEnv Demo.X Demo.O Demo.O ![3, 5] (Demo.uargs3 2 true false) = .ok s ∧
    s.execute { toExec := Demo.pts3 [(0, 0, 0), (2, 5, 7)] "loop" } = .ok r ∧
    "specified" ∉ (Demo.uargs3 2 true false).driftTerms := by
  obtain ⟨s, h, -⟩ := Demo.uk3 ![3, 5] 2 true false
  obtain ⟨r, hr⟩ := Demo.uk3_run h [(0, 0, 0), (2, 5, 7)] (b := "loop") (.inr rfl)
  exact ⟨s, r, h, hr, by simp [Demo.uargs3]⟩

end
end PyKrige
