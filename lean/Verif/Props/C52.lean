import Verif.Lemmas.DriftComb
import Verif.Examples.More

/-!
# C52: universal kriging depends on the drift terms only through the trends they span

Replacing the drift terms by others that are combinations of them (and conversely) changes neither estimates nor
variances: drifts may be given in other units and offsets, in another order, and a regional linear drift may be
written as functional drift.
-/

set_option linter.unusedSectionVars false

namespace PyKrige
noncomputable section
open Matrix Spec

/-- Entry-wise rescaling. -/
def Spec.rescale (cs : List (ℝ × ℝ)) (u : List ℝ) : List ℝ := List.zipWith (fun c v => c.1 * v + c.2) cs u

theorem rescale_append {cs ds : List (ℝ × ℝ)} {u v : List ℝ} (h : cs.length = u.length) :
    rescale (cs ++ ds) (u ++ v) = rescale cs u ++ rescale ds v := List.zipWith_append h

theorem rescale_one (u : List ℝ) : rescale (List.replicate u.length (1, 0)) u = u := by
  unfold rescale
  induction u with
  | nil => rfl
  | cons a u ih => simp [List.replicate_succ, ih]

/-- The external drift of a grid with rescaled values. -/
theorem external_affine {args args' : UKArgs} {xs ys : List ℝ} {node : ℕ → ℕ → ℝ} (h : DriftGrid args xs ys node) {a b : ℝ}
    (h' : DriftGrid args' xs ys fun i j => a * node i j + b) {p : ℝ × ℝ} {v : ℝ} (hv : externalAt args p = .ok v) :
    externalAt args' p = .ok (a * v + b) := by
  obtain ⟨x, y⟩ := p
  have hmx := strictMono_get h.incX
  have hmy := strictMono_get h.incY
  have get : ∀ {l : List ℝ} {P : ℝ → Prop}, ¬ (∀ a ∈ l, ¬ P a) → ∃ i : Fin l.length, P (l.get i) := by
    intro l P hc
    by_contra hn
    push Not at hn
    refine hc fun a ha => ?_
    obtain ⟨i, rfl⟩ := List.mem_iff_get.1 ha
    exact hn i
  have hin : ¬ ((∀ a ∈ xs, x < a) ∨ (∀ a ∈ xs, a < x) ∨ (∀ a ∈ ys, y < a) ∨ (∀ a ∈ ys, a < y)) := fun hc => by
    rw [C23_outside h hc] at hv; cases hv
  push Not at hin
  obtain ⟨⟨a1, m1, l1⟩, ⟨a2, m2, l2⟩, ⟨a3, m3, l3⟩, ⟨a4, m4, l4⟩⟩ := hin
  obtain ⟨i1, rfl⟩ := List.mem_iff_get.1 m1
  obtain ⟨i2, rfl⟩ := List.mem_iff_get.1 m2
  obtain ⟨i3, rfl⟩ := List.mem_iff_get.1 m3
  obtain ⟨i4, rfl⟩ := List.mem_iff_get.1 m4
  obtain ⟨i, i', hab⟩ := Bracket.exists hmx l1 l2
  obtain ⟨c, d, hcd⟩ := Bracket.exists hmy l3 l4
  unfold externalAt at hv ⊢
  rw [DriftGrid.setup h, py_ok_bind, zScalar_bracket (e := ⟨xs.length, ys.length, xs.get, ys.get,
    fun r c => node c.val r.val⟩) hmx hmy hab hcd] at hv
  rw [DriftGrid.setup h', py_ok_bind, zScalar_bracket (e := ⟨xs.length, ys.length, xs.get, ys.get,
    fun r c => a * node c.val r.val + b⟩) hmx hmy hab hcd]
  rw [← Except.ok.inj hv]
  congr 1
  unfold lerp
  dsimp only
  ring

/-! ### UK -/

/-- The system behind an entry, with its regularity. -/
theorem UK.entry_system {n : ℕ} {env : Env} {x y z : Fin n → ℝ} {args : UKArgs} {s : UK n}
    (h : UK.create env x y z args = .ok s) {ea : UKExecArgs} (hp : args.pseudoInv = false)
    (hs : "specified" ∈ args.driftTerms → ea.toExec.backend = "vectorized")
    {r : ExecResult} (hr : s.execute ea = .ok r) {j : ℕ} {p : ℝ × ℝ} (hq : queryAt ea.toExec j = some p)
    (hm : maskedAt ea.toExec j = false) {γ : ℝ → ℝ} (hγ : s.variogramFunction s.params = .ok γ)
    {exact : Bool} (hex : args.exactValues = .bool exact) :
    ∃ L, ∃ F : Fin L → Fin n → ℝ, ∃ f : Fin L → ℝ, ∃ w ν μ,
      (∀ i, List.ofFn (fun l => F l i) = driftAt2 args s.adjustPoint x y ea j p (some i)) ∧
      List.ofFn f = driftAt2 args s.adjustPoint x y ea j p none ∧
      Regular (semivar γ fun i k => ukDistance args (x i, y i) (x k, y k)) F ∧
      KrigingEqs (semivar γ fun i k => ukDistance args (x i, y i) (x k, y k)) F
        (semivarTo exact γ fun i => ukDistance args p (x i, y i)) f 1 w ν μ ∧
      r.z[j]? = some (some (estimate w z)) ∧
      r.ss[j]? = some (some (krigingVariance (semivarTo exact γ fun i => ukDistance args p (x i, y i)) f w ν μ)) := by
  have hfi := UK.create_fields h
  obtain ⟨hD, hQ⟩ := UK.create_dist h
  obtain ⟨row, hF, hz, hss⟩ :=
    (UK.create_weighs h ea).at_point (z := s.Z) (lags := s.lags) (stats := s.stats) hr hq hm
  obtain ⟨γ', L, F, f, hγ', hk, h1, h2⟩ := hF.args h hq hs
  rw [hγ] at hγ'
  obtain rfl := Except.ok.inj hγ'
  have hpi : s.pseudoInv = false := hfi.2.2.1.trans hp
  have hreg := hk.solvable.resolve_left (by rw [hpi]; simp)
  obtain ⟨w, ν, μ, e⟩ := hk.krigedEqs (Or.inl hpi)
  have e1 : row.w = w := by rw [e.w_eq, scatter_id]
  have e2 := e.eqs
  have e3 := e.var_eq
  have hx : s.exactValues = exact := by
    have := hfi.2.1
    rw [hex] at this
    simpa using this.symm
  simp only [id, hD, hQ, hx] at e2 e3 hreg
  refine ⟨L, F, f, w, ν, μ, fun i => h1 i, h2, hreg, e2, ?_, ?_⟩
  · rw [hz, e1, hfi.2.2.2.2.2.2]
  · rw [hss, e3]

/-- `UK` with any two sets of drift arguments spanning the same trends at the data and the query point (`driftAt2`
lists the values of all drift terms): the same estimate and the same variance. -/
theorem C52_span_uk {n : ℕ} {env : Env} {x y z : Fin n → ℝ} {args args' : UKArgs} {s s' : UK n}
    (h : UK.create env x y z args = .ok s) (h' : UK.create env x y z args' = .ok s')
    (hp : args.pseudoInv = false) (hp' : args'.pseudoInv = false)
    (hd : ∀ p q, ukDistance args' p q = ukDistance args p q)
    {exact : Bool} (hex : args.exactValues = .bool exact) (hex' : args'.exactValues = .bool exact)
    {γ : ℝ → ℝ} (hγ : s.variogramFunction s.params = .ok γ) (hγ' : s'.variogramFunction s'.params = .ok γ)
    {ea ea' : UKExecArgs} (hs : "specified" ∈ args.driftTerms → ea.toExec.backend = "vectorized")
    (hs' : "specified" ∈ args'.driftTerms → ea'.toExec.backend = "vectorized")
    {r r' : ExecResult} (hr : s.execute ea = .ok r) (hr' : s'.execute ea' = .ok r') {j j' : ℕ} {p : ℝ × ℝ}
    (hq : queryAt ea.toExec j = some p) (hq' : queryAt ea'.toExec j' = some p)
    (hm : maskedAt ea.toExec j = false) (hm' : maskedAt ea'.toExec j' = false)
    (hc : CombinationOf (driftAt2 args s.adjustPoint x y ea j p) (driftAt2 args' s'.adjustPoint x y ea' j' p))
    (hc' : CombinationOf (driftAt2 args' s'.adjustPoint x y ea' j' p) (driftAt2 args s.adjustPoint x y ea j p)) :
    ∃ est var, r.z[j]? = some (some est) ∧ r'.z[j']? = some (some est) ∧
      r.ss[j]? = some (some var) ∧ r'.ss[j']? = some (some var) := by
  obtain ⟨L, F, f, w, ν, μ, a1, a2, a3, a4, a5, a6⟩ := UK.entry_system h hp hs hr hq hm hγ hex
  obtain ⟨L', F', f', w', ν', μ', b1, b2, b3, b4, b5, b6⟩ := UK.entry_system h' hp' hs' hr' hq' hm' hγ' hex'
  simp only [hd] at b3 b4 b6
  obtain ⟨rfl, e⟩ := KrigingEqs.comb hc hc' a1 a2 b1 b2 b3 a4 b4
  rw [e] at b6
  exact ⟨_, _, a5, b5, a6, b6⟩

theorem UK.same_adjust {n : ℕ} {env : Env} {x y z : Fin n → ℝ} {args args' : UKArgs} {s s' : UK n}
    (h : UK.create env x y z args = .ok s) (h' : UK.create env x y z args' = .ok s')
    (hm : args'.variogramModel = args.variogramModel) (h1 : args'.anisotropyScaling = args.anisotropyScaling)
    (h2 : args'.anisotropyAngle = args.anisotropyAngle) : s'.adjustPoint = s.adjustPoint := by
  obtain ⟨a1, a2⟩ := UK.create_aniso h
  obtain ⟨b1, b2⟩ := UK.create_aniso h'
  obtain ⟨d1, d2⟩ := UK.create_center h
  obtain ⟨e1, e2⟩ := UK.create_center h'
  funext q
  unfold UK.adjustPoint
  rw [b1, b2, a1, a2, hm, h1, h2]
  rw [d1] at e1; rw [d2] at e2
  rw [Except.ok.inj e1, Except.ok.inj e2]

/-! ### UK3D -/

/-- The system behind an entry, with its regularity. -/
theorem UK3D.entry_system {n : ℕ} {env : Env} {x y z v : Fin n → ℝ} {args : UK3DArgs} {s : UK3D n}
    (h : UK3D.create env x y z v args = .ok s) {ea : UK3DExecArgs} (hp : args.pseudoInv = false)
    (hs : "specified" ∈ args.driftTerms → ea.toExec.backend = "vectorized")
    {r : ExecResult} (hr : s.execute ea = .ok r) {j : ℕ} {p : ℝ × ℝ × ℝ} (hq : queryAt3 ea.toExec j = some p)
    (hm : maskedAt3 ea.toExec j = false) {γ : ℝ → ℝ} (hγ : s.variogramFunction s.params = .ok γ)
    {exact : Bool} (hex : args.exactValues = .bool exact) :
    ∃ L, ∃ F : Fin L → Fin n → ℝ, ∃ f : Fin L → ℝ, ∃ w ν μ,
      (∀ i, List.ofFn (fun l => F l i) = driftAt3 args s.adjustPoint x y z ea j p (some i)) ∧
      List.ofFn f = driftAt3 args s.adjustPoint x y z ea j p none ∧
      Regular (semivar γ fun i k => uk3Distance args (x i, y i, z i) (x k, y k, z k)) F ∧
      KrigingEqs (semivar γ fun i k => uk3Distance args (x i, y i, z i) (x k, y k, z k)) F
        (semivarTo exact γ fun i => uk3Distance args p (x i, y i, z i)) f 1 w ν μ ∧
      r.z[j]? = some (some (estimate w v)) ∧
      r.ss[j]? = some (some (krigingVariance (semivarTo exact γ fun i => uk3Distance args p (x i, y i, z i)) f w ν μ)) := by
  have hfi := UK3D.create_fields h
  obtain ⟨hD, hQ⟩ := UK3D.create_dist h
  obtain ⟨row, hF, hz, hss⟩ :=
    (UK3D.create_weighs h ea).at_point (z := s.VALUES) (lags := s.lags) (stats := s.stats) hr hq hm
  obtain ⟨γ', L, F, f, hγ', hk, h1, h2⟩ := hF.args h hq hs
  rw [hγ] at hγ'
  obtain rfl := Except.ok.inj hγ'
  have hpi : s.pseudoInv = false := hfi.2.2.1.trans hp
  have hreg := hk.solvable.resolve_left (by rw [hpi]; simp)
  obtain ⟨w, ν, μ, e⟩ := hk.krigedEqs (Or.inl hpi)
  have e1 : row.w = w := by rw [e.w_eq, scatter_id]
  have e2 := e.eqs
  have e3 := e.var_eq
  have hx : s.exactValues = exact := by
    have := hfi.2.1
    rw [hex] at this
    simpa using this.symm
  simp only [id, hD, hQ, hx] at e2 e3 hreg
  refine ⟨L, F, f, w, ν, μ, fun i => h1 i, h2, hreg, e2, ?_, ?_⟩
  · rw [hz, e1, hfi.2.2.2.2.2.2.2]
  · rw [hss, e3]

/-- `UK3D` with any two sets of drift arguments spanning the same trends at the data and the query point (`driftAt3`
lists the values of all drift terms): the same estimate and the same variance. -/
theorem C52_span_uk3d {n : ℕ} {env : Env} {x y z v : Fin n → ℝ} {args args' : UK3DArgs} {s s' : UK3D n}
    (h : UK3D.create env x y z v args = .ok s) (h' : UK3D.create env x y z v args' = .ok s')
    (hp : args.pseudoInv = false) (hp' : args'.pseudoInv = false)
    (hd : ∀ p q, uk3Distance args' p q = uk3Distance args p q)
    {exact : Bool} (hex : args.exactValues = .bool exact) (hex' : args'.exactValues = .bool exact)
    {γ : ℝ → ℝ} (hγ : s.variogramFunction s.params = .ok γ) (hγ' : s'.variogramFunction s'.params = .ok γ)
    {ea ea' : UK3DExecArgs} (hs : "specified" ∈ args.driftTerms → ea.toExec.backend = "vectorized")
    (hs' : "specified" ∈ args'.driftTerms → ea'.toExec.backend = "vectorized")
    {r r' : ExecResult} (hr : s.execute ea = .ok r) (hr' : s'.execute ea' = .ok r') {j j' : ℕ} {p : ℝ × ℝ × ℝ}
    (hq : queryAt3 ea.toExec j = some p) (hq' : queryAt3 ea'.toExec j' = some p)
    (hm : maskedAt3 ea.toExec j = false) (hm' : maskedAt3 ea'.toExec j' = false)
    (hc : CombinationOf (driftAt3 args s.adjustPoint x y z ea j p) (driftAt3 args' s'.adjustPoint x y z ea' j' p))
    (hc' : CombinationOf (driftAt3 args' s'.adjustPoint x y z ea' j' p) (driftAt3 args s.adjustPoint x y z ea j p)) :
    ∃ est var, r.z[j]? = some (some est) ∧ r'.z[j']? = some (some est) ∧
      r.ss[j]? = some (some var) ∧ r'.ss[j']? = some (some var) := by
  obtain ⟨L, F, f, w, ν, μ, a1, a2, a3, a4, a5, a6⟩ := UK3D.entry_system h hp hs hr hq hm hγ hex
  obtain ⟨L', F', f', w', ν', μ', b1, b2, b3, b4, b5, b6⟩ := UK3D.entry_system h' hp' hs' hr' hq' hm' hγ' hex'
  simp only [hd] at b3 b4 b6
  obtain ⟨rfl, e⟩ := KrigingEqs.comb hc hc' a1 a2 b1 b2 b3 a4 b4
  rw [e] at b6
  exact ⟨_, _, a5, b5, a6, b6⟩

theorem UK3D.same_adjust {n : ℕ} {env : Env} {x y z v : Fin n → ℝ} {args args' : UK3DArgs} {s s' : UK3D n}
    (h : UK3D.create env x y z v args = .ok s) (h' : UK3D.create env x y z v args' = .ok s')
    (hm : args'.variogramModel = args.variogramModel) (h1 : args'.aniso = args.aniso) : s'.adjustPoint = s.adjustPoint := by
  have a1 := UK3D.create_aniso h
  have b1 := UK3D.create_aniso h'
  obtain ⟨d1, d2, d3⟩ := UK3D.create_center h
  obtain ⟨e1, e2, e3⟩ := UK3D.create_center h'
  funext q
  unfold UK3D.adjustPoint
  rw [b1, a1, hm, h1]
  rw [d1] at e1; rw [d2] at e2; rw [d3] at e3
  rw [Except.ok.inj e1, Except.ok.inj e2, Except.ok.inj e3]

/-! ### Units -/

/-- The rescaling of all drift terms. -/
def allScales (T : List String) (ks : List ℝ) (ab : ℝ × ℝ) (css csf : List (ℝ × ℝ)) : List (ℝ × ℝ) :=
  (if "regional_linear" ∈ T then [(1, 0), (1, 0)] else []) ++
  (if "point_log" ∈ T then ks.map fun k => (k, 0) else []) ++
  (if "external_Z" ∈ T then [ab] else []) ++
  (if "specified" ∈ T then css else []) ++
  (if "functional" ∈ T then csf else [])

theorem rescale_block {P : Prop} [Decidable P] {cs : List (ℝ × ℝ)} {u u' : List ℝ} (h : P → u' = rescale cs u) :
    (if P then u' else []) = rescale (if P then cs else []) (if P then u else []) := by
  split
  · exact h ‹_›
  · rfl

theorem length_block {P : Prop} [Decidable P] {α β : Type} {cs : List α} {u : List β} (h : P → cs.length = u.length) :
    (if P then cs else []).length = (if P then u else []).length := by
  split
  · exact h ‹_›
  · rfl

theorem allScales_terms {args args' : UKArgs} (hT : args'.driftTerms = args.driftTerms) {adj : ℝ × ℝ → Fin 2 → ℝ} {ks : List ℝ}
    {ab : ℝ × ℝ} {css csf : List (ℝ × ℝ)} {sv sv' : List ℝ} {q : ℝ × ℝ}
    (hw : "point_log" ∈ args.driftTerms → ks.length = (args.pointDrift.getD []).length ∧ args'.pointDrift.getD [] =
      List.zipWith (fun k w => (w.1, w.2.1, k * w.2.2)) ks (args.pointDrift.getD []))
    (he : "external_Z" ∈ args.driftTerms → externalValue args' q = ab.1 * externalValue args q + ab.2)
    (hs : "specified" ∈ args.driftTerms → css.length = sv.length ∧ sv' = rescale css sv)
    (hf : "functional" ∈ args.driftTerms → ∃ fs, args.functionalDrift = .list fs ∧ csf.length = fs.length ∧
      args'.functionalDrift = .list (List.zipWith (fun c f x y => c.1 * f x y + c.2) csf fs)) :
    (driftTerms2 args adj sv q).length = (allScales args.driftTerms ks ab css csf).length ∧
    driftTerms2 args' adj sv' q = rescale (allScales args.driftTerms ks ab css csf) (driftTerms2 args adj sv q) := by
  unfold driftTerms2 allScales
  rw [hT]
  have l1 : (if "regional_linear" ∈ args.driftTerms then [((1 : ℝ), (0 : ℝ)), (1, 0)] else []).length =
      (if "regional_linear" ∈ args.driftTerms then [adj q 0, adj q 1] else []).length := length_block fun _ => rfl
  have l2 : (if "point_log" ∈ args.driftTerms then ks.map (fun k => (k, (0 : ℝ))) else []).length =
      (if "point_log" ∈ args.driftTerms then (args.pointDrift.getD []).map fun w =>
        -w.2.2 * logDistance (euclid (adj q) (adj (w.1, w.2.1))) else []).length :=
    length_block fun h => by simp [(hw h).1]
  have l3 : (if "external_Z" ∈ args.driftTerms then [ab] else []).length =
      (if "external_Z" ∈ args.driftTerms then [externalValue args q] else []).length := length_block fun _ => rfl
  have l4 : (if "specified" ∈ args.driftTerms then css else []).length =
      (if "specified" ∈ args.driftTerms then sv else []).length := length_block fun h => (hs h).1
  have l5 : (if "functional" ∈ args.driftTerms then csf else []).length = (if "functional" ∈ args.driftTerms then
    match args.functionalDrift with
    | .list fs => fs.map fun g => g (adj q 0) (adj q 1)
    | .notList => []
   else []).length := length_block fun h => by
    obtain ⟨fs, h1, h2, -⟩ := hf h
    simp [h1, h2]
  refine ⟨by simp only [List.length_append, l1, l2, l3, l4, l5]; rfl, ?_⟩
  rw [rescale_append (by simp only [List.length_append, l1, l2, l3, l4]), rescale_append (by simp only [List.length_append, l1, l2, l3]),
    rescale_append (by simp only [List.length_append, l1, l2]), rescale_append l1]
  congr 1
  · congr 1
    · congr 1
      · congr 1
        · exact rescale_block fun _ => by simp [rescale]
        · refine rescale_block fun h => ?_
          obtain ⟨h1, h2⟩ := hw h
          rw [h2]
          unfold rescale
          rw [List.zipWith_map, List.map_zipWith]
          congr 1
          funext k w
          dsimp only
          ring
      · exact rescale_block fun h => by simp [rescale, he h]
    · exact rescale_block fun h => (hs h).2
  · refine rescale_block fun h => ?_
    obtain ⟨fs, h1, h2, h3⟩ := hf h
    rw [h1, h3]
    simp only
    unfold rescale
    rw [List.map_zipWith, List.zipWith_map_right]

/-- Other units for the drift terms: the external drift grid `a · values + b`, well strengths times factors `ks`,
specified and functional drifts each rescaled and shifted (`rescale`), none of the factors being zero. -/
theorem C52_units_uk {n : ℕ} {env : Env} {x y z : Fin n → ℝ} {args args' : UKArgs} {s s' : UK n}
    (h : UK.create env x y z args = .ok s) (h' : UK.create env x y z args' = .ok s')
    {ext' : Option ExtArg} {pd' : Option (List (ℝ × ℝ × ℝ))} {sd' : ListArg (List ℝ)} {fd' : ListArg (ℝ → ℝ → ℝ)}
    (hargs : args' = { args with externalDrift := ext', pointDrift := pd', specifiedDrift := sd', functionalDrift := fd' })
    (hp : args.pseudoInv = false)
    {γ : ℝ → ℝ} (hγ : s.variogramFunction s.params = .ok γ) (hγ' : s'.variogramFunction s'.params = .ok γ)
    {ea ea' : UKExecArgs} (hb : "specified" ∈ args.driftTerms → ea.toExec.backend = "vectorized")
    (hb' : "specified" ∈ args.driftTerms → ea'.toExec.backend = "vectorized")
    {r r' : ExecResult} (hr : s.execute ea = .ok r) (hr' : s'.execute ea' = .ok r') {j j' : ℕ} {p : ℝ × ℝ}
    (hq : queryAt ea.toExec j = some p) (hq' : queryAt ea'.toExec j' = some p)
    (hm : maskedAt ea.toExec j = false) (hm' : maskedAt ea'.toExec j' = false)
    {ks : List ℝ} (hk0 : ∀ k ∈ ks, k ≠ 0) (hw : "point_log" ∈ args.driftTerms →
      ks.length = (args.pointDrift.getD []).length ∧
      pd'.getD [] = List.zipWith (fun k w => (w.1, w.2.1, k * w.2.2)) ks (args.pointDrift.getD []))
    {a b : ℝ} (ha : a ≠ 0) (he : "external_Z" ∈ args.driftTerms → ∃ xs ys node, DriftGrid args xs ys node ∧
      DriftGrid args' xs ys fun i j => a * node i j + b)
    {css : List (ℝ × ℝ)} (hs0 : ∀ c ∈ css, c.1 ≠ 0) (hs : "specified" ∈ args.driftTerms →
      (∀ i : Fin n, (specAtDatum args.specifiedDrift i).length = css.length ∧
        specAtDatum sd' i = rescale css (specAtDatum args.specifiedDrift i)) ∧
      (specAtQuery ea j).length = css.length ∧ specAtQuery ea' j' = rescale css (specAtQuery ea j))
    {csf : List (ℝ × ℝ)} (hf0 : ∀ c ∈ csf, c.1 ≠ 0) (hf : "functional" ∈ args.driftTerms → ∃ fs,
      args.functionalDrift = .list fs ∧ csf.length = fs.length ∧
      fd' = .list (List.zipWith (fun c f x y => c.1 * f x y + c.2) csf fs)) :
    ∃ est var, r.z[j]? = some (some est) ∧ r'.z[j']? = some (some est) ∧
      r.ss[j]? = some (some var) ∧ r'.ss[j']? = some (some var) := by
  obtain ⟨exact, hex⟩ : ∃ e, args.exactValues = .bool e := ⟨_, (UK.create_fields h).2.1⟩
  have hadj : s'.adjustPoint = s.adjustPoint :=
    UK.same_adjust h h' (by rw [hargs]) (by rw [hargs]) (by rw [hargs])
  have hev : ∀ q, (∃ v, externalAt args q = .ok v) → "external_Z" ∈ args.driftTerms →
      externalValue args' q = a * externalValue args q + b := by
    rintro q ⟨v, hv⟩ ht
    obtain ⟨xs, ys, node, h1, h2⟩ := he ht
    have := external_affine h1 h2 hv
    unfold externalValue
    rw [this, hv]
  have okd : ∀ i, "external_Z" ∈ args.driftTerms → ∃ v, externalAt args (x i, y i) = .ok v := fun i ht => by
    cases hv : externalAt args (x i, y i) with
    | ok v => exact ⟨v, rfl⟩
    | error e => exact absurd h (C23_create_refused ht hv s)
  have okq : "external_Z" ∈ args.driftTerms → ∃ v, externalAt args p = .ok v := fun ht => by
    cases hv : externalAt args p with
    | ok v => exact ⟨v, rfl⟩
    | error e => exact absurd hr (C23_execute_refused h ht hq (.inl hm) hv r)
  have hT : args'.driftTerms = args.driftTerms := by rw [hargs]
  have key : ∀ o, (driftAt2 args s.adjustPoint x y ea j p o).length = (allScales args.driftTerms ks (a, b) css csf).length ∧
      driftAt2 args' s'.adjustPoint x y ea' j' p o =
        rescale (allScales args.driftTerms ks (a, b) css csf) (driftAt2 args s.adjustPoint x y ea j p o) := by
    intro o
    rw [hadj]
    cases o with
    | none =>
      refine allScales_terms hT (fun t => ?_) (fun t => hev _ (okq t) t) (fun t => ⟨(hs t).2.1.symm, (hs t).2.2⟩) fun t => ?_
      · rw [hargs]; exact hw t
      · rw [hargs]; exact hf t
    | some i =>
      refine allScales_terms hT (fun t => ?_) (fun t => hev _ (okd i t) t) (fun t => ⟨((hs t).1 i).1.symm, ?_⟩) fun t => ?_
      · rw [hargs]; exact hw t
      · rw [hargs]; exact ((hs t).1 i).2
      · rw [hargs]; exact hf t
  have h0 : ∀ c ∈ allScales args.driftTerms ks (a, b) css csf, c.1 ≠ 0 := by
    intro c hc
    unfold allScales at hc
    simp only [List.mem_append] at hc
    rcases hc with (((hc | hc) | hc) | hc) | hc <;> split at hc
    · simp only [List.mem_cons, List.not_mem_nil, or_false, or_self] at hc; rw [hc]; exact one_ne_zero
    · simp at hc
    · obtain ⟨k, hk, rfl⟩ := List.mem_map.1 hc; exact hk0 k hk
    · simp at hc
    · simp only [List.mem_cons, List.not_mem_nil, or_false] at hc; rw [hc]; exact ha
    · simp at hc
    · exact hs0 c hc
    · simp at hc
    · exact hf0 c hc
    · simp at hc
  refine C52_span_uk h h' hp (by rw [hargs]; exact hp) (fun p q => by rw [hargs]; rfl) hex (by rw [hargs]; exact hex) hγ hγ'
    hb (fun t => hb' (hT ▸ t)) hr hr' hq hq' hm hm' ?_ ?_
  · exact comb_affine (fun o => (key o).1) fun o => (key o).2
  · exact comb_affine_inv (fun o => (key o).1) (fun o => (key o).2) h0

/-- The same in three dimensions. -/
theorem C52_units_uk3d {n : ℕ} {env : Env} {x y z v : Fin n → ℝ} {args args' : UK3DArgs} {s s' : UK3D n}
    (h : UK3D.create env x y z v args = .ok s) (h' : UK3D.create env x y z v args' = .ok s')
    {sd' : ListArg (List ℝ)} {fd' : ListArg (ℝ → ℝ → ℝ → ℝ)}
    (hargs : args' = { args with specifiedDrift := sd', functionalDrift := fd' })
    (hp : args.pseudoInv = false)
    {γ : ℝ → ℝ} (hγ : s.variogramFunction s.params = .ok γ) (hγ' : s'.variogramFunction s'.params = .ok γ)
    {ea ea' : UK3DExecArgs} (hb : "specified" ∈ args.driftTerms → ea.toExec.backend = "vectorized")
    (hb' : "specified" ∈ args.driftTerms → ea'.toExec.backend = "vectorized")
    {r r' : ExecResult} (hr : s.execute ea = .ok r) (hr' : s'.execute ea' = .ok r') {j j' : ℕ} {p : ℝ × ℝ × ℝ}
    (hq : queryAt3 ea.toExec j = some p) (hq' : queryAt3 ea'.toExec j' = some p)
    (hm : maskedAt3 ea.toExec j = false) (hm' : maskedAt3 ea'.toExec j' = false)
    {css : List (ℝ × ℝ)} (hs0 : ∀ c ∈ css, c.1 ≠ 0) (hs : "specified" ∈ args.driftTerms →
      (∀ i : Fin n, (specAtDatum args.specifiedDrift i).length = css.length ∧
        specAtDatum sd' i = rescale css (specAtDatum args.specifiedDrift i)) ∧
      (specAtQuery3 ea j).length = css.length ∧ specAtQuery3 ea' j' = rescale css (specAtQuery3 ea j))
    {csf : List (ℝ × ℝ)} (hf0 : ∀ c ∈ csf, c.1 ≠ 0) (hf : "functional" ∈ args.driftTerms → ∃ fs,
      args.functionalDrift = .list fs ∧ csf.length = fs.length ∧
      fd' = .list (List.zipWith (fun c f x y z => c.1 * f x y z + c.2) csf fs)) :
    ∃ est var, r.z[j]? = some (some est) ∧ r'.z[j']? = some (some est) ∧
      r.ss[j]? = some (some var) ∧ r'.ss[j']? = some (some var) := by
  obtain ⟨exact, hex⟩ : ∃ e, args.exactValues = .bool e := ⟨_, (UK3D.create_fields h).2.1⟩
  have hadj : s'.adjustPoint = s.adjustPoint := UK3D.same_adjust h h' (by rw [hargs]) (by rw [hargs])
  have hT : args'.driftTerms = args.driftTerms := by rw [hargs]
  let cs : List (ℝ × ℝ) := (if "regional_linear" ∈ args.driftTerms then [(1, 0), (1, 0), (1, 0)] else []) ++
    (if "specified" ∈ args.driftTerms then css else []) ++ (if "functional" ∈ args.driftTerms then csf else [])
  have terms : ∀ (sv sv' : List ℝ) (q : ℝ × ℝ × ℝ), ("specified" ∈ args.driftTerms → css.length = sv.length ∧ sv' = rescale css sv) →
      (driftTerms3 args s.adjustPoint sv q).length = cs.length ∧
      driftTerms3 args' s.adjustPoint sv' q = rescale cs (driftTerms3 args s.adjustPoint sv q) := by
    intro sv sv' q hsv
    unfold driftTerms3
    rw [hT]
    have l1 : (if "regional_linear" ∈ args.driftTerms then [((1 : ℝ), (0 : ℝ)), (1, 0), (1, 0)] else []).length =
        (if "regional_linear" ∈ args.driftTerms then [s.adjustPoint q 0, s.adjustPoint q 1, s.adjustPoint q 2] else []).length :=
      length_block fun _ => rfl
    have l4 : (if "specified" ∈ args.driftTerms then css else []).length =
        (if "specified" ∈ args.driftTerms then sv else []).length := length_block fun h => (hsv h).1
    have l5 : (if "functional" ∈ args.driftTerms then csf else []).length = (if "functional" ∈ args.driftTerms then
      match args.functionalDrift with
      | .list fs => fs.map fun g => g (s.adjustPoint q 0) (s.adjustPoint q 1) (s.adjustPoint q 2)
      | .notList => []
     else []).length := length_block fun h => by
      obtain ⟨fs, h1, h2, -⟩ := hf h
      simp [h1, h2]
    refine ⟨by simp only [cs, List.length_append, l1, l4, l5]; rfl, ?_⟩
    simp only [cs]
    rw [rescale_append (by simp only [List.length_append, l1, l4]), rescale_append l1]
    congr 1
    · congr 1
      · exact rescale_block fun _ => by simp [rescale]
      · exact rescale_block fun h => (hsv h).2
    · refine rescale_block fun h => ?_
      obtain ⟨fs, h1, h2, h3⟩ := hf h
      rw [h1, hargs]
      simp only [h3]
      unfold rescale
      rw [List.map_zipWith, List.zipWith_map_right]
  have key : ∀ o, (driftAt3 args s.adjustPoint x y z ea j p o).length = cs.length ∧
      driftAt3 args' s'.adjustPoint x y z ea' j' p o = rescale cs (driftAt3 args s.adjustPoint x y z ea j p o) := by
    intro o
    rw [hadj]
    cases o with
    | none => exact terms _ _ _ fun t => ⟨(hs t).2.1.symm, (hs t).2.2⟩
    | some i => exact terms _ _ _ fun t => ⟨((hs t).1 i).1.symm, by rw [hargs]; exact ((hs t).1 i).2⟩
  have h0 : ∀ c ∈ cs, c.1 ≠ 0 := by
    intro c hc
    simp only [cs, List.mem_append] at hc
    rcases hc with (hc | hc) | hc <;> split at hc
    · simp only [List.mem_cons, List.not_mem_nil, or_false, or_self] at hc; rw [hc]; exact one_ne_zero
    · simp at hc
    · exact hs0 c hc
    · simp at hc
    · exact hf0 c hc
    · simp at hc
  refine C52_span_uk3d h h' hp (by rw [hargs]; exact hp) (fun p q => by rw [hargs]; rfl) hex (by rw [hargs]; exact hex) hγ hγ'
    hb (fun t => hb' (hT ▸ t)) hr hr' hq hq' hm hm' ?_ ?_
  · exact comb_affine (fun o => (key o).1) fun o => (key o).2
  · exact comb_affine_inv (fun o => (key o).1) (fun o => (key o).2) h0

/-- A regional linear drift is the same as the two functional drifts `x` and `y`. -/
theorem C52_linear_uk {n : ℕ} {env : Env} {x y z : Fin n → ℝ} {args : UKArgs} {s s' : UK n}
    (h : UK.create env x y z { args with driftTerms := ["regional_linear"] } = .ok s)
    (h' : UK.create env x y z { args with driftTerms := ["functional"], functionalDrift := .list [fun x _ => x, fun _ y => y] } =
      .ok s') (hp : args.pseudoInv = false)
    {γ : ℝ → ℝ} (hγ : s.variogramFunction s.params = .ok γ) (hγ' : s'.variogramFunction s'.params = .ok γ)
    {ea : UKExecArgs} {r r' : ExecResult} (hr : s.execute ea = .ok r) (hr' : s'.execute ea = .ok r') {j : ℕ} {p : ℝ × ℝ}
    (hq : queryAt ea.toExec j = some p) (hm : maskedAt ea.toExec j = false) :
    ∃ est var, r.z[j]? = some (some est) ∧ r'.z[j]? = some (some est) ∧
      r.ss[j]? = some (some var) ∧ r'.ss[j]? = some (some var) := by
  obtain ⟨exact, hex⟩ : ∃ e, args.exactValues = .bool e := ⟨_, (UK.create_fields h).2.1⟩
  have hadj : s'.adjustPoint = s.adjustPoint := UK.same_adjust h h' rfl rfl rfl
  have e : ∀ o, driftAt2 { args with driftTerms := ["functional"], functionalDrift := .list [fun x _ => x, fun _ y => y] }
      s'.adjustPoint x y ea j p o = driftAt2 { args with driftTerms := ["regional_linear"] } s.adjustPoint x y ea j p o := by
    intro o
    rw [hadj]
    cases o <;> simp [driftAt2, driftTerms2]
  refine C52_span_uk h h' hp hp (fun _ _ => rfl) (exact := exact) hex hex hγ hγ' (fun t => by simp at t) (fun t => by simp at t)
    hr hr' hq hq hm hm ?_ ?_
  · exact comb_of_mem fun l => .inr ⟨l, fun o => by rw [e]⟩
  · exact comb_of_mem fun l => .inr ⟨l, fun o => by rw [e]⟩

/-- The same in three dimensions. -/
theorem C52_linear_uk3d {n : ℕ} {env : Env} {x y z v : Fin n → ℝ} {args : UK3DArgs} {s s' : UK3D n}
    (h : UK3D.create env x y z v { args with driftTerms := ["regional_linear"] } = .ok s)
    (h' : UK3D.create env x y z v { args with
      driftTerms := ["functional"], functionalDrift := .list [fun x _ _ => x, fun _ y _ => y, fun _ _ z => z] } =
      .ok s') (hp : args.pseudoInv = false)
    {γ : ℝ → ℝ} (hγ : s.variogramFunction s.params = .ok γ) (hγ' : s'.variogramFunction s'.params = .ok γ)
    {ea : UK3DExecArgs} {r r' : ExecResult} (hr : s.execute ea = .ok r) (hr' : s'.execute ea = .ok r') {j : ℕ}
    {p : ℝ × ℝ × ℝ} (hq : queryAt3 ea.toExec j = some p) (hm : maskedAt3 ea.toExec j = false) :
    ∃ est var, r.z[j]? = some (some est) ∧ r'.z[j]? = some (some est) ∧
      r.ss[j]? = some (some var) ∧ r'.ss[j]? = some (some var) := by
  obtain ⟨exact, hex⟩ : ∃ e, args.exactValues = .bool e := ⟨_, (UK3D.create_fields h).2.1⟩
  have hadj : s'.adjustPoint = s.adjustPoint := UK3D.same_adjust h h' rfl rfl
  have e : ∀ o, driftAt3 { args with
      driftTerms := ["functional"], functionalDrift := .list [fun x _ _ => x, fun _ y _ => y, fun _ _ z => z] }
      s'.adjustPoint x y z ea j p o = driftAt3 { args with driftTerms := ["regional_linear"] } s.adjustPoint x y z ea j p o := by
    intro o
    rw [hadj]
    cases o <;> simp [driftAt3, driftTerms3]
  refine C52_span_uk3d h h' hp hp (fun _ _ => rfl) (exact := exact) hex hex hγ hγ' (fun t => by simp at t) (fun t => by simp at t)
    hr hr' hq hq hm hm ?_ ?_
  · exact comb_of_mem fun l => .inr ⟨l, fun o => by rw [e]⟩
  · exact comb_of_mem fun l => .inr ⟨l, fun o => by rw [e]⟩

/-! ### Examples -/

namespace Demo

/-- Functional drifts. -/
def ufun (fs : List (ℝ → ℝ → ℝ)) : UKArgs :=
  { variogramModel := .name "spherical", params := .list [3, 2, 1], driftTerms := ["functional"], functionalDrift := .list fs }

theorem ufun_ok (z : Fin 4 → ℝ) (a b : ℝ) (ha : a ≠ 0) {f g : ℝ → ℝ → ℝ} (hf : ∀ x y, f x y = a * x + b) (hg : ∀ x y, g x y = y) :
    ∃ s, UK.create stdEnv x4 y4 z (ufun [f, g]) = .ok s ∧ s.params = listMeaning "spherical" [3, 2, 1] ∧
      ∀ ea : UKExecArgs, WellPosed ea.toExec → HasFloats ea.toExec →
        (ea.toExec.backend = "vectorized" ∨ ea.toExec.backend = "loop") → ∃ r, s.execute ea = .ok r := by
  have hs : Separates (listMeaning "spherical" [3, 2, 1]) fun i j => ukDistance (ufun [f, g]) (x4 i, y4 i) (x4 j, y4 j) :=
    .inl ⟨sph_grows, fun i j hij h0 => hij (inj4 (anisoDist2_eq_zero (sc := 1) one_ne_zero 0 h0))⟩
  obtain ⟨s, h, hps⟩ := C29_create_uk stdEnv (by norm_num) x4 y4 z (ufun [f, g]) (by simp [ufun]) rfl rfl rfl sph_valid hs
    (fun i hc => by simp [ufun] at hc) (fun hc => by simp [ufun] at hc) (fun hc => by simp [ufun] at hc)
    (fun hc => by simp [ufun])
  have hadj : ∀ p, s.adjustPoint p = ![p.1, p.2] := fun p => by
    obtain ⟨e1, e2⟩ := UK.create_aniso h
    rw [UK.adjustPoint, e1, e2]
    exact adjust2_id _ _
  refine ⟨s, h, hps, fun ea h1 h2 h3 => C29_execute_uk h rfl (hps ▸ sph_valid) (hps ▸ hs) (.inr ?_) h1 h2
    (fun hc => by simp [ufun] at hc) (h3.imp id fun h => ⟨h, by simp [ufun], fun j p _ _ hc => by simp [AtWell, ufun] at hc⟩)
    (fun j p _ _ hc => by simp [ufun] at hc)⟩
  intro c d hi
  obtain ⟨h1, h2, h3⟩ := plane4 (c 0 * a) (c 1) (d + c 0 * b) fun i => by
    have := hi i
    simp [driftTerms2, ufun, hadj, Finset.sum_range_succ, hf, hg] at this
    linarith
  have h1 : c 0 = 0 := (mul_eq_zero.1 h1).resolve_right ha
  refine ⟨fun i k hk => ?_, by rw [h1] at h3; simpa using h3⟩
  have hk : k < 2 := by simpa [driftTerms2, ufun] using hk
  interval_cases k <;> assumption

end Demo

/-- `x` in other units: `a x + b` instead of `x` as functional drift. -/
example (z : Fin 4 → ℝ) (p : ℝ × ℝ) {a : ℝ} (b : ℝ) (ha : a ≠ 0) : ∃ s s' r r' est var,
    UK.create stdEnv Demo.x4 Demo.y4 z (Demo.ufun [fun x _ => x, fun _ y => y]) = .ok s ∧
    UK.create stdEnv Demo.x4 Demo.y4 z (Demo.ufun [fun x _ => a * x + b, fun _ y => y]) = .ok s' ∧
    s.execute { toExec := Demo.pts [p] "loop" } = .ok r ∧ s'.execute { toExec := Demo.pts [p] "loop" } = .ok r' ∧
    r.z[0]? = some (some est) ∧ r'.z[0]? = some (some est) ∧ r.ss[0]? = some (some var) ∧ r'.ss[0]? = some (some var) := by
  obtain ⟨s, h, hp, hr⟩ := Demo.ufun_ok z 1 0 one_ne_zero (f := fun x _ => x) (g := fun _ y => y) (by simp) (by simp)
  obtain ⟨s', h', hp', hr'⟩ := Demo.ufun_ok z a b ha (f := fun x _ => a * x + b) (g := fun _ y => y) (by simp) (by simp)
  obtain ⟨hb, -, -, γ, hγ, hval, -⟩ := Demo.sph_valid.builtin
  obtain ⟨hev, -⟩ := chosen_evaluates hγ hb (UK.create_function h (m := "spherical") rfl)
  obtain ⟨hev', -⟩ := chosen_evaluates hγ hb (UK.create_function h' (m := "spherical") rfl)
  have hw := Demo.pts_wellPosed [p] "loop"
  obtain ⟨r, hr⟩ := hr { toExec := Demo.pts [p] "loop" } hw.1 hw.2 (.inr rfl)
  obtain ⟨r', hr'⟩ := hr' { toExec := Demo.pts [p] "loop" } hw.1 hw.2 (.inr rfl)
  obtain ⟨est, var, h1, h2, h3, h4⟩ := C52_units_uk h h' (ext' := none) (pd' := none) (sd' := .list [])
    (fd' := .list [fun x _ => a * x + b, fun _ y => y]) rfl rfl (hp ▸ hev) (hp' ▸ hev') (fun t => by simp [Demo.ufun] at t)
    (fun t => by simp [Demo.ufun] at t) hr hr' (j := 0) (j' := 0) (p := p) (by simp [queryAt, Demo.pts])
    (by simp [queryAt, Demo.pts]) rfl rfl (ks := []) (by simp) (fun t => by simp [Demo.ufun] at t) (a := 1) (b := 0)
    one_ne_zero (fun t => by simp [Demo.ufun] at t) (css := []) (by simp) (fun t => by simp [Demo.ufun] at t)
    (csf := [(a, b), (1, 0)]) (by simp [ha]) (fun _ => ⟨_, rfl, rfl, by simp⟩)
  exact ⟨s, s', r, r', est, var, h, h', hr, hr', h1, h2, h3, h4⟩

/-- Regional linear drift and the functional drifts `x`, `y`. -/
example (z : Fin 4 → ℝ) (p : ℝ × ℝ) : ∃ s s' r r' est var,
    UK.create stdEnv Demo.x4 Demo.y4 z (Demo.uany "spherical" [3, 2, 1]) = .ok s ∧
    UK.create stdEnv Demo.x4 Demo.y4 z (Demo.ufun [fun x _ => x, fun _ y => y]) = .ok s' ∧
    s.execute { toExec := Demo.pts [p] "loop" } = .ok r ∧ s'.execute { toExec := Demo.pts [p] "loop" } = .ok r' ∧
    r.z[0]? = some (some est) ∧ r'.z[0]? = some (some est) ∧ r.ss[0]? = some (some var) ∧ r'.ss[0]? = some (some var) := by
  obtain ⟨s, h, hp, -, hr⟩ := Demo.uany_ok (n := 4) (by norm_num) z Demo.sph_valid Demo.sph_grows Demo.inj4 Demo.plane4
  obtain ⟨s', h', hp', hr'⟩ := Demo.ufun_ok z 1 0 one_ne_zero (f := fun x _ => x) (g := fun _ y => y) (by simp) (by simp)
  obtain ⟨hb, -, -, γ, hγ, hval, -⟩ := Demo.sph_valid.builtin
  obtain ⟨hev, -⟩ := chosen_evaluates hγ hb (UK.create_function h (m := "spherical") rfl)
  obtain ⟨hev', -⟩ := chosen_evaluates hγ hb (UK.create_function h' (m := "spherical") rfl)
  have hw := Demo.pts_wellPosed [p] "loop"
  obtain ⟨r, hr⟩ := hr { toExec := Demo.pts [p] "loop" } hw.1 hw.2 (.inr rfl)
  obtain ⟨r', hr'⟩ := hr' { toExec := Demo.pts [p] "loop" } hw.1 hw.2 (.inr rfl)
  obtain ⟨est, var, h1, h2, h3, h4⟩ := C52_linear_uk (args := { variogramModel := .name "spherical", params := .list [3, 2, 1] })
    h h' rfl (hp ▸ hev) (hp' ▸ hev') hr hr' (j := 0) (p := p) (by simp [queryAt, Demo.pts]) rfl
  exact ⟨s, s', r, r', est, var, h, h', hr, hr', h1, h2, h3, h4⟩

end
end PyKrige
