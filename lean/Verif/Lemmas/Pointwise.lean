import Verif.Lemmas.Rows

/-! `execute` read as a function from query points to numbers: when it succeeds, and what every entry of the
result is.  One statement per class; comparing two calls then is comparing points. -/

set_option linter.unusedSectionVars false

namespace PyKrige
noncomputable section
open Matrix Spec

/-- `r` is the table of `ans` over the query points. -/
structure IsTable {α : Type} (shape : List ℕ) (query : ℕ → Option α) (masked : ℕ → Bool)
    (ans : ℕ → α → ℝ × ℝ) (r : ExecResult) : Prop where
  shape_eq : r.shape = shape
  z_eq : ∀ j : ℕ, r.z[j]? = (query j).map fun p => if masked j then none else some (ans j p).1
  ss_eq : ∀ j : ℕ, r.ss[j]? = (query j).map fun p => if masked j then none else some (ans j p).2

/-- What `execute` does, point by point. -/
structure Pointwise {α : Type} (run : ExecResult → Prop) (shape : List ℕ) (query : ℕ → Option α)
    (masked : ℕ → Bool) (acc : Prop) (need : ℕ → Prop) (valid : ℕ → α → Prop)
    (ans : ℕ → α → ℝ × ℝ) : Prop where
  ok_iff : (∃ r, run r) ↔ acc ∧ ∀ j p, query j = some p → need j → valid j p
  table : ∀ r, run r → IsTable shape query masked ans r

section table
variable {α β : Type} {shape shape' : List ℕ} {query : ℕ → Option α} {masked : ℕ → Bool}
  {ans : ℕ → α → ℝ × ℝ} {r r' : ExecResult}

theorem IsTable.at_point (h : IsTable shape query masked ans r) {j : ℕ} {p : α} (hq : query j = some p)
    (hm : masked j = false) : r.z[j]? = some (some (ans j p).1) ∧ r.ss[j]? = some (some (ans j p).2) := by
  rw [h.z_eq, h.ss_eq, hq]; simp [hm]

theorem IsTable.entry (h : IsTable shape query masked ans r) {j : ℕ} {v : ℝ}
    (hv : r.z[j]? = some (some v)) : ∃ p, query j = some p ∧ masked j = false ∧ v = (ans j p).1 ∧
      r.ss[j]? = some (some (ans j p).2) := by
  rw [h.z_eq] at hv
  cases hq : query j with
  | none => simp [hq] at hv
  | some p =>
    rw [hq] at hv
    cases hm : masked j with
    | true => simp [hm] at hv
    | false =>
      refine ⟨p, rfl, rfl, by simpa [hm] using hv.symm, ?_⟩
      rw [h.ss_eq, hq]; simp [hm]

theorem IsTable.unique (h : IsTable shape query masked ans r) (h' : IsTable shape query masked ans r') :
    r = r' := by
  obtain ⟨a, b, c⟩ := r
  obtain ⟨a', b', c'⟩ := r'
  have e1 : a = a' := h.shape_eq.trans h'.shape_eq.symm
  have e2 : b = b' := List.ext_getElem? fun j => (h.z_eq j).trans (h'.z_eq j).symm
  have e3 : c = c' := List.ext_getElem? fun j => (h.ss_eq j).trans (h'.ss_eq j).symm
  rw [e1, e2, e3]

/-- Two tables whose entries are related. -/
theorem IsTable.map {query' : ℕ → Option β} {masked' : ℕ → Bool} {ans' : ℕ → β → ℝ × ℝ}
    (h : IsTable shape query masked ans r) (h' : IsTable shape' query' masked' ans' r') (T : ℕ → α → β)
    (hq : ∀ j, query' j = (query j).map (T j)) (hm : ∀ j p, query j = some p → masked' j = masked j)
    (u v : ℝ → ℝ)
    (ha : ∀ j p, query j = some p → masked j = false → ans' j (T j p) = (u (ans j p).1, v (ans j p).2)) :
    r'.z = r.z.map (Option.map u) ∧ r'.ss = r.ss.map (Option.map v) := by
  constructor <;> refine List.ext_getElem? fun j => ?_
  · rw [List.getElem?_map, h'.z_eq, h.z_eq, hq]
    cases hj : query j with
    | none => rfl
    | some p =>
      have := ha j p hj
      rw [← hm j p hj] at this ⊢
      cases hmj : masked' j with
      | true => simp
      | false => simp [this hmj]
  · rw [List.getElem?_map, h'.ss_eq, h.ss_eq, hq]
    cases hj : query j with
    | none => rfl
    | some p =>
      have := ha j p hj
      rw [← hm j p hj] at this ⊢
      cases hmj : masked' j with
      | true => simp
      | false => simp [this hmj]

theorem IsTable.eq {masked' : ℕ → Bool} {ans' : ℕ → α → ℝ × ℝ}
    (h : IsTable shape query masked ans r) (h' : IsTable shape query masked' ans' r')
    (hm : ∀ j p, query j = some p → masked' j = masked j)
    (ha : ∀ j p, query j = some p → masked j = false → ans' j p = ans j p) : r' = r := by
  obtain ⟨a, b, c⟩ := r
  obtain ⟨a', b', c'⟩ := r'
  have e1 : a = a' := h.shape_eq.trans h'.shape_eq.symm
  have := h.map h' (fun _ => id) (by simp) hm id id (by simpa using ha)
  simp only [Option.map_id, List.map_id] at this
  rw [e1, this.1, this.2]

end table

theorem isTable_of_items {α : Type} {shape : List ℕ} {query : ℕ → Option α} {masked : ℕ → Bool}
    {ans : ℕ → α → ℝ × ℝ} {pts : List α} {mask : List Bool} {items : List (ℝ × ℝ)}
    (hl : items.length = pts.length) (hq : ∀ j : ℕ, pts[j]? = query j)
    (hm : ∀ j : ℕ, j < pts.length → mask[j]? = some (masked j)) (hml : mask.length = pts.length)
    (hf : ∀ (j : ℕ) p, pts[j]? = some p → mask[j]? = some false → items[j]? = some (ans j p)) :
    IsTable shape query masked ans ⟨shape, hide mask (items.map Prod.fst), hide mask (items.map Prod.snd)⟩ := by
  have key : ∀ (φ : ℝ × ℝ → ℝ) (j : ℕ), (hide mask (items.map φ))[j]? =
      (query j).map fun p => if masked j then none else some (φ (ans j p)) := by
    intro φ j
    unfold hide
    rw [List.getElem?_zipWith, List.getElem?_map, ← hq j]
    by_cases hj : j < pts.length
    · rw [hm j hj, List.getElem?_eq_getElem hj]
      cases hmj : masked j with
      | true => rw [List.getElem?_eq_getElem (by omega)]; simp
      | false =>
        rw [hf j pts[j] (List.getElem?_eq_getElem hj) (by rw [hm j hj, hmj])]
        simp
    · rw [List.getElem?_eq_none (by omega : items.length ≤ j), List.getElem?_eq_none (by omega : pts.length ≤ j)]
      simp
  exact ⟨rfl, key Prod.fst, key Prod.snd⟩

theorem isTable_mkResult {α : Type} {shape : List ℕ} {query : ℕ → Option α} {masked : ℕ → Bool}
    {ans : α → ℝ × ℝ} {pts : List α} {mask : List Bool} (hq : ∀ j : ℕ, pts[j]? = query j)
    (hm : ∀ j : ℕ, j < pts.length → mask[j]? = some (masked j)) (hml : mask.length = pts.length) :
    IsTable shape query masked (fun _ => ans) (mkResult shape mask pts ans) := by
  have := isTable_of_items (shape := shape) (ans := fun _ => ans) (items := pts.map ans) (by simp) hq hm hml
    (fun j p hp _ => by simp [hp])
  simpa [mkResult, List.map_map, Function.comp_def] using this

/-- Comparing two calls: if the second accepts whatever the first accepts and the answers at corresponding
points are related, then it succeeds and the results are related. -/
theorem Pointwise.transfer {α β : Type} {run run' : ExecResult → Prop} {shape shape' : List ℕ}
    {query : ℕ → Option α} {query' : ℕ → Option β} {masked masked' : ℕ → Bool} {acc acc' : Prop}
    {need need' : ℕ → Prop} {valid : ℕ → α → Prop} {valid' : ℕ → β → Prop}
    {ans : ℕ → α → ℝ × ℝ} {ans' : ℕ → β → ℝ × ℝ}
    (h : Pointwise run shape query masked acc need valid ans)
    (h' : Pointwise run' shape' query' masked' acc' need' valid' ans') {r : ExecResult} (hr : run r)
    (hacc : acc → acc') (T : ℕ → α → β) (hq : ∀ j, query' j = (query j).map (T j))
    (hm : ∀ j p, query j = some p → masked' j = masked j)
    (hneed : ∀ j, masked j = false → need j)
    (hval : acc → ∀ j p, query j = some p → need' j → (need j → valid j p) → valid' j (T j p)) (u v : ℝ → ℝ)
    (ha : acc → acc' → ∀ j p, query j = some p → masked j = false → valid j p →
      ans' j (T j p) = (u (ans j p).1, v (ans j p).2)) :
    ∃ r', run' r' ∧ r'.shape = shape' ∧ r'.z = r.z.map (Option.map u) ∧ r'.ss = r.ss.map (Option.map v) := by
  obtain ⟨h1, h2⟩ := h.ok_iff.1 ⟨r, hr⟩
  obtain ⟨r', hr'⟩ := h'.ok_iff.2 ⟨hacc h1, fun j q hj hn => by
    rw [hq] at hj
    obtain ⟨p, hp, rfl⟩ := Option.map_eq_some_iff.1 hj
    exact hval h1 j p hp hn (h2 j p hp)⟩
  have ht := h.table r hr
  have ht' := h'.table r' hr'
  refine ⟨r', hr', ht'.shape_eq, ht.map ht' T hq hm u v fun j p hp hmj => ?_⟩
  exact ha h1 (hacc h1) j p hp hmj (h2 j p hp (hneed j hmj))

/-- The same without relating the arrays as a whole. -/
theorem Pointwise.success {α β : Type} {run run' : ExecResult → Prop} {shape shape' : List ℕ}
    {query : ℕ → Option α} {query' : ℕ → Option β} {masked masked' : ℕ → Bool} {acc acc' : Prop}
    {need need' : ℕ → Prop} {valid : ℕ → α → Prop} {valid' : ℕ → β → Prop}
    {ans : ℕ → α → ℝ × ℝ} {ans' : ℕ → β → ℝ × ℝ}
    (h : Pointwise run shape query masked acc need valid ans)
    (h' : Pointwise run' shape' query' masked' acc' need' valid' ans') {r : ExecResult} (hr : run r)
    (hacc : acc → acc')
    (hval : acc → (∀ j p, query j = some p → need j → valid j p) →
      ∀ j q, query' j = some q → need' j → valid' j q) : ∃ r', run' r' := by
  obtain ⟨h1, h2⟩ := h.ok_iff.1 ⟨r, hr⟩
  exact h'.ok_iff.2 ⟨hacc h1, hval h1 h2⟩

theorem py_mapM_ok_iff {α β : Type} (f : α → Py β) (l : List α) :
    (∃ r, l.mapM f = .ok r) ↔ ∀ a ∈ l, ∃ b, f a = .ok b := by
  induction l with
  | nil => simp
  | cons a l ih =>
    simp only [List.mapM_cons, py_bind_eq_ok, List.forall_mem_cons, ← ih, py_pure]
    constructor
    · rintro ⟨r, b, hb, bs, hbs, -⟩; exact ⟨⟨b, hb⟩, bs, hbs⟩
    · rintro ⟨⟨b, hb⟩, bs, hbs⟩; exact ⟨_, b, hb, bs, hbs, rfl⟩

/-! ### OrdinaryKriging -/

namespace OK
variable {n : ℕ}

/-- The variogram in use. -/
def gam (s : OK n) : ℝ → ℝ :=
  match s.variogramFunction s.params with
  | .ok γ => γ
  | .error _ => 0

theorem gam_eq {s : OK n} {γ : ℝ → ℝ} (h : s.variogramFunction s.params = .ok γ) : s.gam = γ := by
  simp [gam, h]

/-- Is the backend available for this kind of call? -/
def check (env : Env) (s : OK n) (ea : ExecArgs) : Py Unit :=
  match ea.nClosest with
  | none => s.backendCheck env ea.backend
  | some _ => s.windowCheck env ea.backend

structure Acc (env : Env) (s : OK n) (ea : ExecArgs) : Prop where
  style : ea.style ∈ ["grid", "masked", "points"]
  win : ∀ k, ea.nClosest = some k → 1 < k
  vario : ∃ γ, s.variogramFunction s.params = .ok γ
  query : ∃ pm, queryPoints ea = .ok pm
  noInt : ¬ (s.coordinatesType = "euclidean" ∧ ea.xpoints.isInt = true ∧ ea.ypoints.isInt = true)
  backend : s.check env ea = .ok ()
  solvable : ea.nClosest = none → Solvable s.pseudoInv (semivar s.gam s.dataDist) noF

def Valid (env : Env) (s : OK n) (nc : Option ℤ) (p : ℝ × ℝ) : Prop :=
  ∀ k, nc = some k → SelRegular (s.sel env k.toNat p) s.gam s.dataDist

def ans (env : Env) (s : OK n) (nc : Option ℤ) (p : ℝ × ℝ) : ℝ × ℝ :=
  match nc with
  | none => s.answer s.gam p
  | some k => s.windowAnswer env s.gam k.toNat p

theorem pointwise {env : Env} (he : KnnSpec env) {s : OK n} (hs : s.Wf) (ea : ExecArgs)
    (hw : WindowFits n ea.nClosest) : Pointwise (fun r => s.execute env ea = .ok r) (resultShape ea) (queryAt ea)
      (maskedAt ea) (s.Acc env ea) (fun j => maskedAt ea j = false) (fun _ p => s.Valid env ea.nClosest p)
      (fun _ p => s.ans env ea.nClosest p) := by
  constructor
  · cases hn : ea.nClosest with
    | none =>
      simp only [OK.execute_global_iff hs _ hn]
      constructor
      · rintro ⟨r, h1, γ, pts, mask, hγ, hq, hi, hb, hsol, -⟩
        refine ⟨⟨h1, by simp [hn], ⟨γ, hγ⟩, ⟨_, hq⟩, hi, by rw [check, hn]; exact hb, fun _ => ?_⟩,
          fun j p _ _ k hk => by cases hk⟩
        rw [gam_eq hγ]; exact hsol
      · rintro ⟨⟨h1, -, ⟨γ, hγ⟩, ⟨⟨pts, mask⟩, hq⟩, hi, hb, hsol⟩, -⟩
        refine ⟨_, h1, γ, pts, mask, hγ, hq, hi, by rw [check, hn] at hb; exact hb, ?_, rfl⟩
        have := hsol hn
        rw [gam_eq hγ] at this; exact this
    | some k =>
      simp only [OK.execute_window he hs hn (hw k hn)]
      constructor
      · rintro ⟨r, h1, h2, γ, pts, mask, hγ, hq, hi, hb, hreg, -⟩
        refine ⟨⟨h1, by rintro k' h; rw [hn] at h; cases h; exact h2, ⟨γ, hγ⟩, ⟨_, hq⟩, hi,
          by rw [check, hn]; exact hb, by simp [hn]⟩, fun j p hp hm k' hk => ?_⟩
        cases hk
        rw [gam_eq hγ]
        have hp' := hp
        rw [← queryPoints_getElem? hq] at hp
        obtain ⟨hj, -⟩ := List.getElem?_eq_some_iff.1 hp
        exact hreg j p hp (by rw [queryPoints_maskedAt hq hj, hm])
      · rintro ⟨⟨h1, h2, ⟨γ, hγ⟩, ⟨⟨pts, mask⟩, hq⟩, hi, hb, -⟩, hv⟩
        refine ⟨_, h1, h2 k hn, γ, pts, mask, hγ, hq, hi, by rw [check, hn] at hb; exact hb, ?_, rfl⟩
        intro j p hp hm
        obtain ⟨hj, -⟩ := List.getElem?_eq_some_iff.1 hp
        have := hv j p (by rw [← queryPoints_getElem? hq, hp])
          (by rw [queryPoints_maskedAt hq hj] at hm; exact Option.some.inj hm) k rfl
        rwa [gam_eq hγ] at this
  · intro r hr
    cases hn : ea.nClosest with
    | none =>
      obtain ⟨-, γ, pts, mask, hγ, hq, -, -, -, rfl⟩ := (OK.execute_global_iff hs r hn).1 hr
      have := isTable_mkResult (shape := resultShape ea) (ans := s.answer γ) (queryPoints_getElem? hq)
        (fun j hj => queryPoints_maskedAt hq hj) (queryPoints_length hq)
      rw [← gam_eq hγ] at this ⊢
      exact this
    | some k =>
      obtain ⟨-, -, γ, pts, mask, hγ, hq, -, -, -, rfl⟩ := (OK.execute_window he hs hn (hw k hn) r).1 hr
      have := isTable_mkResult (shape := resultShape ea) (ans := s.windowAnswer env γ k.toNat)
        (queryPoints_getElem? hq)
        (fun j hj => queryPoints_maskedAt hq hj) (queryPoints_length hq)
      rw [← gam_eq hγ] at this ⊢
      exact this

end OK

/-! ### OrdinaryKriging3D -/

namespace OK3D
variable {n : ℕ}

def gam (s : OK3D n) : ℝ → ℝ :=
  match s.variogramFunction s.params with
  | .ok γ => γ
  | .error _ => 0

theorem gam_eq {s : OK3D n} {γ : ℝ → ℝ} (h : s.variogramFunction s.params = .ok γ) : s.gam = γ := by
  simp [gam, h]

structure Acc (s : OK3D n) (ea : ExecArgs3) : Prop where
  style : ea.style ∈ ["grid", "masked", "points"]
  win : ∀ k, ea.nClosest = some k → 1 < k
  vario : ∃ γ, s.variogramFunction s.params = .ok γ
  query : ∃ pm, queryPoints3 ea = .ok pm
  noInt : ¬ (ea.xpoints.isInt = true ∧ ea.ypoints.isInt = true ∧ ea.zpoints.isInt = true)
  backend : ea.backend = "loop" ∨ (ea.nClosest = none ∧ ea.backend = "vectorized")
  solvable : ea.nClosest = none → Solvable s.pseudoInv (semivar s.gam s.dataDist) noF

def Valid (env : Env) (s : OK3D n) (nc : Option ℤ) (p : ℝ × ℝ × ℝ) : Prop :=
  ∀ k, nc = some k → SelRegular (s.sel env k.toNat p) s.gam s.dataDist

def ans (env : Env) (s : OK3D n) (nc : Option ℤ) (p : ℝ × ℝ × ℝ) : ℝ × ℝ :=
  match nc with
  | none => s.answer s.gam p
  | some k => s.windowAnswer env s.gam k.toNat p

theorem backendCheck3_iff (b : String) : backendCheck3 b = .ok () ↔ b = "loop" ∨ b = "vectorized" := by
  unfold backendCheck3
  split
  · next h => rcases h with h | h <;> simp [h]
  · next h =>
    push Not at h
    simp [h.1, h.2]

theorem pointwise {env : Env} (he : KnnSpec env) {s : OK3D n} (hs : s.pseudoInvType ∈ ["pinv", "pinvh"])
    (ea : ExecArgs3) (hw : WindowFits n ea.nClosest) :
    Pointwise (fun r => s.execute env ea = .ok r) (resultShape3 ea) (queryAt3 ea)
      (maskedAt3 ea) (s.Acc ea) (fun j => maskedAt3 ea j = false) (fun _ p => s.Valid env ea.nClosest p)
      (fun _ p => s.ans env ea.nClosest p) := by
  constructor
  · cases hn : ea.nClosest with
    | none =>
      simp only [OK3D.execute_global_iff hs _ hn]
      constructor
      · rintro ⟨r, h1, γ, pts, mask, hγ, hq, hi, hb, hsol, -⟩
        refine ⟨⟨h1, by simp [hn], ⟨γ, hγ⟩, ⟨_, hq⟩, hi, ?_, fun _ => ?_⟩,
          fun j p _ _ k hk => by cases hk⟩
        · rw [backendCheck3_iff] at hb
          simpa [hn] using hb
        · rw [gam_eq hγ]; exact hsol
      · rintro ⟨⟨h1, -, ⟨γ, hγ⟩, ⟨⟨pts, mask⟩, hq⟩, hi, hb, hsol⟩, -⟩
        refine ⟨_, h1, γ, pts, mask, hγ, hq, hi, ?_, ?_, rfl⟩
        · rw [backendCheck3_iff]
          simpa [hn] using hb
        · have := hsol hn
          rw [gam_eq hγ] at this; exact this
    | some k =>
      simp only [OK3D.execute_window he hn (hw k hn)]
      constructor
      · rintro ⟨r, h1, h2, γ, pts, mask, hγ, hq, hi, hb, hreg, -⟩
        refine ⟨⟨h1, by rintro k' h; rw [hn] at h; cases h; exact h2, ⟨γ, hγ⟩, ⟨_, hq⟩, hi,
          Or.inl hb, by simp [hn]⟩, fun j p hp hm k' hk => ?_⟩
        cases hk
        rw [gam_eq hγ]
        rw [← queryPoints3_getElem? hq] at hp
        obtain ⟨hj, -⟩ := List.getElem?_eq_some_iff.1 hp
        exact hreg j p hp (by rw [queryPoints3_maskedAt hq hj, hm])
      · rintro ⟨⟨h1, h2, ⟨γ, hγ⟩, ⟨⟨pts, mask⟩, hq⟩, hi, hb, -⟩, hv⟩
        refine ⟨_, h1, h2 k hn, γ, pts, mask, hγ, hq, hi, by simpa [hn] using hb, ?_, rfl⟩
        intro j p hp hm
        obtain ⟨hj, -⟩ := List.getElem?_eq_some_iff.1 hp
        have := hv j p (by rw [← queryPoints3_getElem? hq, hp])
          (by rw [queryPoints3_maskedAt hq hj] at hm; exact Option.some.inj hm) k rfl
        rwa [gam_eq hγ] at this
  · intro r hr
    cases hn : ea.nClosest with
    | none =>
      obtain ⟨-, γ, pts, mask, hγ, hq, -, -, -, rfl⟩ := (OK3D.execute_global_iff hs r hn).1 hr
      have := isTable_mkResult (shape := resultShape3 ea) (ans := s.answer γ) (queryPoints3_getElem? hq)
        (fun j hj => queryPoints3_maskedAt hq hj) ((queryPoints3_spec hq).1)
      rw [← gam_eq hγ] at this ⊢
      exact this
    | some k =>
      obtain ⟨-, -, γ, pts, mask, hγ, hq, -, -, -, rfl⟩ := (OK3D.execute_window he hn (hw k hn) r).1 hr
      have := isTable_mkResult (shape := resultShape3 ea) (ans := s.windowAnswer env γ k.toNat)
        (queryPoints3_getElem? hq)
        (fun j hj => queryPoints3_maskedAt hq hj) ((queryPoints3_spec hq).1)
      rw [← gam_eq hγ] at this ⊢
      exact this

end OK3D

/-! ### UniversalKriging -/

namespace UK
variable {n : ℕ}

def gam (s : UK n) : ℝ → ℝ :=
  match s.variogramFunction s.params with
  | .ok γ => γ
  | .error _ => 0

theorem gam_eq {s : UK n} {γ : ℝ → ℝ} (h : s.variogramFunction s.params = .ok γ) : s.gam = γ := by
  simp [gam, h]

/-- The arrays of specified drift values passed to `execute`, flattened. -/
def specs (s : UK n) (ea : UKExecArgs) : List (List ℝ) :=
  match s.specGrids ea with
  | .ok l => l
  | .error _ => []

theorem specs_eq {s : UK n} {ea : UKExecArgs} {l : List (List ℝ)} (h : s.specGrids ea = .ok l) :
    s.specs ea = l := by simp [specs, h]

/-- The external drift used at a point. -/
def extVal (s : UK n) (p : ℝ × ℝ) : ℝ :=
  match s.extP p with
  | .ok z => z
  | .error _ => 0

theorem extVal_eq {s : UK n} {p : ℝ × ℝ} {z : ℝ} (h : s.extP p = .ok z) : s.extVal p = z := by
  simp [extVal, h]

/-- The specified drift values used at entry `j`. -/
def sv (s : UK n) (ea : UKExecArgs) (j : ℕ) : List ℝ :=
  if ea.toExec.backend = "vectorized" then specAt (s.specs ea) j else
    match s.loopSpec (s.specs ea) with
    | .ok l => l
    | .error _ => []

structure Acc (s : UK n) (ea : UKExecArgs) : Prop where
  style : ea.toExec.style ∈ ["grid", "masked", "points"]
  vario : ∃ γ, s.variogramFunction s.params = .ok γ
  query : ∃ pm, queryPoints ea.toExec = .ok pm
  spec : ∃ g, s.specGrids ea = .ok g
  noInt : ¬ (ea.toExec.xpoints.isInt && ea.toExec.ypoints.isInt) = true
  backend : ea.toExec.backend = "vectorized" ∨ ea.toExec.backend = "loop"
  solvable : Solvable s.pseudoInv (semivar s.gam s.dataDist) s.F

def Valid (s : UK n) (ea : UKExecArgs) (p : ℝ × ℝ) : Prop :=
  (∃ z, s.extP p = .ok z) ∧ (ea.toExec.backend = "loop" → ¬ s.atWell p ∧ ∃ l, s.loopSpec (s.specs ea) = .ok l)

def ans (s : UK n) (ea : UKExecArgs) (j : ℕ) (p : ℝ × ℝ) : ℝ × ℝ :=
  s.answer s.gam (s.sv ea j) (s.extVal p) p

theorem pointwise {s : UK n} (hs : s.pseudoInvType ∈ ["pinv", "pinvh"]) (ea : UKExecArgs) :
    Pointwise (fun r => s.execute ea = .ok r) (resultShape ea.toExec) (queryAt ea.toExec)
      (maskedAt ea.toExec) (s.Acc ea) (fun j => maskedAt ea.toExec j = false ∨ ea.toExec.backend = "vectorized")
      (fun _ p => s.Valid ea p) (fun j p => s.ans ea j p) := by
  classical
  constructor
  · by_cases hst : ea.toExec.style ∈ ["grid", "masked", "points"]
    swap
    · rw [UK.execute_bad_style s ea hst]
      constructor
      · rintro ⟨r, h⟩; cases h
      · rintro ⟨h, -⟩; exact absurd h.style hst
    unfold UK.execute
    rw [UK.executeW_eq s hs ea hst]
    constructor
    · rintro ⟨r, hr⟩
      rw [py_map_eq_ok] at hr
      obtain ⟨⟨r', fl⟩, hr, rfl⟩ := hr
      simp only [py_bind_eq_ok, Prod.exists] at hr
      obtain ⟨γ, hγ, pts, mask, hq, spec, hspec, hr⟩ := hr
      split at hr
      · simp at hr
      next hc =>
      obtain ⟨items, hi, hr⟩ := py_bind_eq_ok.1 hr
      have hpm : ∀ {j p}, queryAt ea.toExec j = some p → maskedAt ea.toExec j = false →
          pts[j]? = some p ∧ mask[j]? = some false := by
        intro j p hp hm
        rw [← queryPoints_getElem? hq] at hp
        obtain ⟨hj, -⟩ := List.getElem?_eq_some_iff.1 hp
        exact ⟨hp, by rw [queryPoints_maskedAt hq hj, hm]⟩
      unfold UK.items at hi
      split at hi
      · next hv =>
        split at hi
        · next hsol =>
          refine ⟨⟨hst, ⟨γ, hγ⟩, ⟨_, hq⟩, ⟨_, hspec⟩, hc, Or.inl hv, by rw [gam_eq hγ]; exact hsol⟩, ?_⟩
          intro j p hp _
          rw [← queryPoints_getElem? hq] at hp
          obtain ⟨z, hz, -⟩ := (UK.vectorItems_ok hi).2 j p hp
          exact ⟨⟨z, hz⟩, fun hl => absurd (hv.symm.trans hl) (by decide)⟩
        · simp at hi
      · split at hi
        · next hl =>
          split at hi
          · next hsol =>
            refine ⟨⟨hst, ⟨γ, hγ⟩, ⟨_, hq⟩, ⟨_, hspec⟩, hc, Or.inr hl, by rw [gam_eq hγ]; exact hsol⟩, ?_⟩
            intro j p hp hm
            have hm' : maskedAt ea.toExec j = false := hm.resolve_right (by rw [hl]; decide)
            obtain ⟨h1, h2⟩ := hpm hp hm'
            obtain ⟨hw, z, sv, hz, hsv, -⟩ := (UK.loopItems_ok (queryPoints_length hq) hi).2 j p h1 h2
            exact ⟨⟨z, hz⟩, fun _ => ⟨hw, sv, by rw [specs_eq hspec]; exact hsv⟩⟩
          · simp at hi
        · simp at hi
    · rintro ⟨⟨-, ⟨γ, hγ⟩, ⟨⟨pts, mask⟩, hq⟩, ⟨spec, hspec⟩, hc, hb, hsol⟩, hv⟩
      rw [gam_eq hγ] at hsol
      change Solvable s.pseudoInv (s.G γ) s.F at hsol
      have hitems : ∃ items, s.items ea.toExec.backend γ pts mask spec = .ok items := by
        unfold UK.items
        rcases hb with hb | hb
        · rw [if_pos hb, if_pos hsol]
          unfold UK.vectorItems
          have : ∃ exts, pts.mapM s.extP = .ok exts := by
            rw [py_mapM_ok_iff]
            intro p hp
            obtain ⟨j, hj⟩ := List.getElem?_of_mem hp
            exact (hv j p (by rw [← queryPoints_getElem? hq, hj]) (Or.inr hb)).1
          obtain ⟨exts, he⟩ := this
          rw [he]
          exact ⟨_, rfl⟩
        · have hb' : ea.toExec.backend ≠ "vectorized" := by rw [hb]; decide
          rw [if_neg hb', if_pos hb, if_pos hsol]
          unfold UK.loopItems
          rw [py_mapM_ok_iff]
          intro pm hpm
          obtain ⟨j, hj⟩ := List.getElem?_of_mem hpm
          rw [List.getElem?_zip_eq_some] at hj
          obtain ⟨p, m⟩ := pm
          cases m with
          | true => exact ⟨_, rfl⟩
          | false =>
            obtain ⟨hj1, -⟩ := List.getElem?_eq_some_iff.1 hj.1
            have := hv j p (by rw [← queryPoints_getElem? hq, hj.1])
              (Or.inl (by have := hj.2; rw [queryPoints_maskedAt hq hj1] at this; exact Option.some.inj this))
            obtain ⟨⟨z, hz⟩, h2⟩ := this
            obtain ⟨hw, l, hl⟩ := h2 hb
            rw [specs_eq hspec] at hl
            exact ⟨s.answer γ l z p, by simp [UK.loopPoint, hw, hz, hl]⟩
      obtain ⟨items, hi⟩ := hitems
      refine ⟨⟨resultShape ea.toExec, hide mask (items.map Prod.fst), hide mask (items.map Prod.snd)⟩, ?_⟩
      simp only [hγ, hq, hspec, hi, hc, py_ok_bind]
      rfl
  · intro r hr
    obtain ⟨γ, pts, mask, spec, items, -, hγ, hq, hspec, -, -, hlen, rfl, hit⟩ := UK.execute_ok hs hr
    refine isTable_of_items hlen (queryPoints_getElem? hq) (fun j hj => queryPoints_maskedAt hq hj)
      (queryPoints_length hq) ?_
    intro j p hp hm
    obtain ⟨-, z, sv, hz, hsv, -, hk⟩ := hit j p hp hm
    rw [hk]
    unfold UK.ans
    rw [gam_eq hγ, extVal_eq hz]
    congr 2
    unfold UK.sv
    rw [specs_eq hspec]
    rcases hsv with ⟨hb, rfl⟩ | ⟨hb, hsv⟩
    · rw [if_pos hb]
    · rw [if_neg (by rw [hb]; decide), hsv]

end UK

/-! ### UniversalKriging3D -/

namespace UK3D
variable {n : ℕ}

def gam (s : UK3D n) : ℝ → ℝ :=
  match s.variogramFunction s.params with
  | .ok γ => γ
  | .error _ => 0

theorem gam_eq {s : UK3D n} {γ : ℝ → ℝ} (h : s.variogramFunction s.params = .ok γ) : s.gam = γ := by
  simp [gam, h]

/-- The arrays of specified drift values passed to `execute`, flattened. -/
def specs (s : UK3D n) (ea : UK3DExecArgs) : List (List ℝ) :=
  match s.specGrids ea with
  | .ok l => l
  | .error _ => []

theorem specs_eq {s : UK3D n} {ea : UK3DExecArgs} {l : List (List ℝ)} (h : s.specGrids ea = .ok l) :
    s.specs ea = l := by simp [specs, h]

/-- The specified drift values used at entry `j`. -/
def sv (s : UK3D n) (ea : UK3DExecArgs) (j : ℕ) : List ℝ :=
  if ea.toExec.backend = "vectorized" then specAt (s.specs ea) j else
    match s.loopSpec (s.specs ea) with
    | .ok l => l
    | .error _ => []

structure Acc (s : UK3D n) (ea : UK3DExecArgs) : Prop where
  style : ea.toExec.style ∈ ["grid", "masked", "points"]
  vario : ∃ γ, s.variogramFunction s.params = .ok γ
  query : ∃ pm, queryPoints3 ea.toExec = .ok pm
  spec : ∃ g, s.specGrids ea = .ok g
  noInt : ¬ (ea.toExec.xpoints.isInt && ea.toExec.ypoints.isInt && ea.toExec.zpoints.isInt) = true
  backend : ea.toExec.backend = "vectorized" ∨ ea.toExec.backend = "loop"
  solvable : Solvable s.pseudoInv (semivar s.gam s.dataDist) s.F

def Valid (s : UK3D n) (ea : UK3DExecArgs) (_ : ℝ × ℝ × ℝ) : Prop :=
  ea.toExec.backend = "loop" → ∃ l, s.loopSpec (s.specs ea) = .ok l

def ans (s : UK3D n) (ea : UK3DExecArgs) (j : ℕ) (p : ℝ × ℝ × ℝ) : ℝ × ℝ :=
  s.answer s.gam (s.sv ea j) p

theorem pointwise {s : UK3D n} (hs : s.pseudoInvType ∈ ["pinv", "pinvh"]) (ea : UK3DExecArgs) :
    Pointwise (fun r => s.execute ea = .ok r) (resultShape3 ea.toExec) (queryAt3 ea.toExec)
      (maskedAt3 ea.toExec) (s.Acc ea) (fun j => maskedAt3 ea.toExec j = false ∨ ea.toExec.backend = "vectorized")
      (fun _ p => s.Valid ea p) (fun j p => s.ans ea j p) := by
  classical
  constructor
  · by_cases hst : ea.toExec.style ∈ ["grid", "masked", "points"]
    swap
    · rw [UK3D.execute_bad_style s ea hst]
      constructor
      · rintro ⟨r, h⟩; cases h
      · rintro ⟨h, -⟩; exact absurd h.style hst
    unfold UK3D.execute
    rw [UK3D.executeW_eq s hs ea hst]
    constructor
    · rintro ⟨r, hr⟩
      rw [py_map_eq_ok] at hr
      obtain ⟨⟨r', fl⟩, hr, rfl⟩ := hr
      simp only [py_bind_eq_ok, Prod.exists] at hr
      obtain ⟨γ, hγ, pts, mask, hq, spec, hspec, hr⟩ := hr
      split at hr
      · simp at hr
      next hc =>
      obtain ⟨items, hi, hr⟩ := py_bind_eq_ok.1 hr
      have hpm : ∀ {j p}, queryAt3 ea.toExec j = some p → maskedAt3 ea.toExec j = false →
          pts[j]? = some p ∧ mask[j]? = some false := by
        intro j p hp hm
        rw [← queryPoints3_getElem? hq] at hp
        obtain ⟨hj, -⟩ := List.getElem?_eq_some_iff.1 hp
        exact ⟨hp, by rw [queryPoints3_maskedAt hq hj, hm]⟩
      unfold UK3D.items at hi
      split at hi
      · next hv =>
        split at hi
        · next hsol =>
          refine ⟨⟨hst, ⟨γ, hγ⟩, ⟨_, hq⟩, ⟨_, hspec⟩, hc, Or.inl hv, by rw [gam_eq hγ]; exact hsol⟩, ?_⟩
          intro j p hp _
          exact fun hl => absurd (hv.symm.trans hl) (by decide)
        · simp at hi
      · split at hi
        · next hl =>
          split at hi
          · next hsol =>
            refine ⟨⟨hst, ⟨γ, hγ⟩, ⟨_, hq⟩, ⟨_, hspec⟩, hc, Or.inr hl, by rw [gam_eq hγ]; exact hsol⟩, ?_⟩
            intro j p hp hm
            have hm' : maskedAt3 ea.toExec j = false := hm.resolve_right (by rw [hl]; decide)
            obtain ⟨h1, h2⟩ := hpm hp hm'
            obtain ⟨sv, hsv, -⟩ := (UK3D.loopItems_ok (queryPoints3_spec hq).1 hi).2 j p h1 h2
            exact fun _ => ⟨sv, by rw [specs_eq hspec]; exact hsv⟩
          · simp at hi
        · simp at hi
    · rintro ⟨⟨-, ⟨γ, hγ⟩, ⟨⟨pts, mask⟩, hq⟩, ⟨spec, hspec⟩, hc, hb, hsol⟩, hv⟩
      rw [gam_eq hγ] at hsol
      change Solvable s.pseudoInv (s.G γ) s.F at hsol
      have hitems : ∃ items, s.items ea.toExec.backend γ pts mask spec = .ok items := by
        unfold UK3D.items
        rcases hb with hb | hb
        · rw [if_pos hb, if_pos hsol]
          exact ⟨_, rfl⟩
        · have hb' : ea.toExec.backend ≠ "vectorized" := by rw [hb]; decide
          rw [if_neg hb', if_pos hb, if_pos hsol]
          unfold UK3D.loopItems
          rw [py_mapM_ok_iff]
          intro pm hpm
          obtain ⟨j, hj⟩ := List.getElem?_of_mem hpm
          rw [List.getElem?_zip_eq_some] at hj
          obtain ⟨p, m⟩ := pm
          cases m with
          | true => exact ⟨_, rfl⟩
          | false =>
            obtain ⟨hj1, -⟩ := List.getElem?_eq_some_iff.1 hj.1
            have := hv j p (by rw [← queryPoints3_getElem? hq, hj.1])
              (Or.inl (by have := hj.2; rw [queryPoints3_maskedAt hq hj1] at this; exact Option.some.inj this))
            obtain ⟨l, hl⟩ := this hb
            rw [specs_eq hspec] at hl
            exact ⟨s.answer γ l p, by simp [UK3D.loopPoint, hl]⟩
      obtain ⟨items, hi⟩ := hitems
      refine ⟨⟨resultShape3 ea.toExec, hide mask (items.map Prod.fst), hide mask (items.map Prod.snd)⟩, ?_⟩
      simp only [hγ, hq, hspec, hi, hc, py_ok_bind]
      rfl
  · intro r hr
    obtain ⟨γ, pts, mask, spec, items, -, hγ, hq, hspec, -, -, hlen, rfl, hit⟩ := UK3D.execute_ok hs hr
    refine isTable_of_items hlen (queryPoints3_getElem? hq) (fun j hj => queryPoints3_maskedAt hq hj)
      ((queryPoints3_spec hq).1) ?_
    intro j p hp hm
    obtain ⟨sv, hsv, -, hk⟩ := hit j p hp hm
    rw [hk]
    unfold UK3D.ans
    rw [gam_eq hγ]
    congr 2
    unfold UK3D.sv
    rw [specs_eq hspec]
    rcases hsv with ⟨hb, rfl⟩ | ⟨hb, hsv⟩
    · rw [if_pos hb]
    · rw [if_neg (by rw [hb]; decide), hsv]

end UK3D

end
end PyKrige
