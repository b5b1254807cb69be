import Verif.Lemmas.Continuity
import Verif.Props.C02
import Verif.Props.C23
import Verif.Lemmas.UKDrift
import Verif.Props.C53

/-!
# C54 — estimates and variances vary continuously with the location
-/

namespace PyKrige
noncomputable section
open Spec Filter Topology

/-- The built-in variograms are continuous functions of the distance (the nugget is their value at 0: there is no jump
at 0 in `γ`). -/
theorem C54_builtin_continuous {γ : ℝ → ℝ} {a b c : ℝ}
    (h : Builtin "linear" [a, c] γ ∨ (Builtin "power" [a, b, c] γ ∧ 0 ≤ b) ∨
      (0 < b ∧ ∃ name ∈ ["gaussian", "exponential", "spherical", "hole-effect"], Builtin name [a, b, c] γ)) :
    ContinuousOn γ (Set.Ici 0) := by
  rcases h with h | ⟨h, hb⟩ | ⟨hb, name, hn, h⟩
  · rw [builtin_linear.1 h]
    unfold linearFormula
    fun_prop
  · rw [builtin_power.1 h]
    unfold powerFormula
    exact ((continuousOn_id.rpow_const fun x _ => Or.inr hb).const_mul a |>.add continuousOn_const)
  · simp only [List.mem_cons, List.not_mem_nil, or_false] at hn
    rcases hn with rfl | rfl | rfl | rfl
    · rw [builtin_gaussian.1 h]
      unfold gaussianFormula
      fun_prop
    · rw [builtin_exponential.1 h]
      unfold exponentialFormula
      fun_prop
    · rw [builtin_spherical.1 h]
      refine Continuous.continuousOn ?_
      unfold sphericalFormula
      refine Continuous.if_le (by fun_prop) (by fun_prop) continuous_id continuous_const fun d hd => ?_
      subst hd
      field_simp
      ring
    · rw [builtin_hole.1 h]
      unfold holeEffectFormula
      fun_prop

theorem OK.ans_continuousAt {n : ℕ} {env : Env} {x y z : Fin n → ℝ} {args : OKArgs} {s : OK n}
    (h : OK.create env x y z args = .ok s) {nc : Option ℤ} (ha : Admissible env args s nc) {γ : ℝ → ℝ}
    (hγ : s.variogramFunction s.params = .ok γ) (hc : ContinuousOn γ (Set.Ici 0)) {p : ℝ × ℝ}
    (hp : s.exactValues = true → ∀ i, okDistance args p (x i, y i) ≠ 1 / 10 ^ 10)
    (ht : nc ≠ none → Function.Injective fun i => okDistance args p (x i, y i)) :
    ContinuousAt (s.ans env nc) p := by
  obtain ⟨-, hQ⟩ := OK.create_dist h
  have hg := OK.gam_eq hγ
  have hd : ∀ i, Continuous fun q => s.queryDist (s.queryPt q) i := by
    intro i
    have : (fun q => s.queryDist (s.queryPt q) i) = fun q => okDistance args q (x i, y i) := funext fun q => hQ q i
    rw [this]
    exact okDistance_continuous _ _
  have hs : ∀ i, ContinuousAt (fun q => semivarTo s.exactValues s.gam (s.queryDist (s.queryPt q)) i) p := fun i => by
    rw [← continuousWithinAt_univ]
    exact semivarTo_continuousWithinAt (by rw [hg]; exact hc) ((hd i).continuousAt.continuousWithinAt)
      (fun q => s.queryDist_nonneg _ _) fun he => by rw [hQ]; exact hp he i
  unfold OK.ans
  cases nc with
  | none =>
    exact ContinuousAt.comp (f := fun q => (s.g s.gam q, (0 : Fin 0 → ℝ))) (krigAnswer_continuous _ _ _ _).continuousAt
      ((continuousAt_pi.2 hs).prodMk continuousAt_const)
  | some k =>
    have hk : k.toNat ≤ n := by have := ha.window k rfl; omega
    have hst := sel_stable (p := p) (d := fun q i => s.queryDist (s.queryPt q) i) (fun i => (hd i).continuousAt)
      (by simp only [hQ]; exact ht (by simp)) (sel := s.sel env k.toNat) (k := k.toNat)
      (OK.sel_spec ha.knn s hk) (fun q i hi j hj => OK.sel_nearest ha.knn s hk q hi hj)
    have : (fun q => selAnswer (s.sel env k.toNat p) s.exactValues s.gam s.dataDist s.Z (s.queryDist (s.queryPt q)))
        =ᶠ[𝓝 p] s.windowAnswer env s.gam k.toNat := by
      filter_upwards [hst] with q hq
      exact (selAnswer_perm hq (OK.sel_spec ha.knn s hk q).2 _ _ _ _ _).symm
    refine ContinuousAt.congr ?_ this
    exact ContinuousAt.comp (f := fun q => (semivarTo s.exactValues s.gam fun i => s.queryDist (s.queryPt q)
        ((s.sel env k.toNat p).get i), (0 : Fin 0 → ℝ))) (krigAnswer_continuous _ _ _ _).continuousAt
      ((continuousAt_pi.2 fun i => hs _).prodMk continuousAt_const)

/-- `OrdinaryKriging`: for every location `p` and every `ε` there is a `δ` such that the estimates and variances that
any two calls of `execute` return at `p` and at a location `q` within `δ` of `p` differ by less than `ε`.  The variogram
must be continuous, with exact values `p` must not be at distance exactly 1e-10 from a datum, and with a moving window
no two data may be equally far from `p`. -/
theorem C54_continuous_2d {n : ℕ} {env : Env} {x y z : Fin n → ℝ} {args : OKArgs} {s : OK n}
    (h : OK.create env x y z args = .ok s) {nc : Option ℤ} (ha : Admissible env args s nc) {γ : ℝ → ℝ}
    (hγ : s.variogramFunction s.params = .ok γ) (hc : ContinuousOn γ (Set.Ici 0)) {p : ℝ × ℝ}
    (hp : args.exactValues = .bool true → ∀ i, okDistance args p (x i, y i) ≠ 1 / 10 ^ 10)
    (ht : nc ≠ none → Function.Injective fun i => okDistance args p (x i, y i)) {ε : ℝ} (hε : 0 < ε) :
    ∃ δ > 0, ∀ ea ea' : ExecArgs, ea.nClosest = nc → ea'.nClosest = nc → ∀ r r' : ExecResult,
      s.execute env ea = .ok r → s.execute env ea' = .ok r' → ∀ j j' q, queryAt ea j = some p → queryAt ea' j' = some q →
      maskedAt ea j = false → maskedAt ea' j' = false → |q.1 - p.1| < δ → |q.2 - p.2| < δ →
      ∃ e v e' v', r.z[j]? = some (some e) ∧ r.ss[j]? = some (some v) ∧ r'.z[j']? = some (some e') ∧
        r'.ss[j']? = some (some v') ∧ |e' - e| < ε ∧ |v' - v| < ε := by
  have f1 := OK.create_fields h
  have hcont := OK.ans_continuousAt h ha hγ hc (p := p) (fun he => hp (by rw [f1.2.1, he])) ht
  obtain ⟨δ, hδ, hh⟩ := eps_delta (S := Set.univ) hcont.continuousWithinAt hε
  refine ⟨δ, hδ, ?_⟩
  rintro ea ea' rfl hnc r r' hr hr' j j' q hq hq' hm hm' h1 h2
  have hd : dist q p < δ := by
    rw [Prod.dist_eq, max_lt_iff, Real.dist_eq, Real.dist_eq]; exact ⟨h1, h2⟩
  obtain ⟨d1, d2⟩ := hh q trivial hd
  obtain ⟨t1, t2⟩ := ((OK.create_pw h ha).table r hr).at_point hq hm
  obtain ⟨t3, t4⟩ := ((OK.create_pw (ea := ea') h (by rw [hnc]; exact ha)).table r' hr').at_point hq' hm'
  rw [hnc] at t3 t4
  exact ⟨_, _, _, _, t1, t2, t3, t4, d1, d2⟩

theorem OK3D.ans_continuousAt {n : ℕ} {env : Env} {x y z v : Fin n → ℝ} {args : OK3DArgs} {s : OK3D n}
    (h : OK3D.create env x y z v args = .ok s) {nc : Option ℤ} (hk : KnnSpec env) (hw : WindowFits n nc) {γ : ℝ → ℝ}
    (hγ : s.variogramFunction s.params = .ok γ) (hc : ContinuousOn γ (Set.Ici 0)) {p : ℝ × ℝ × ℝ}
    (hp : s.exactValues = true → ∀ i, ok3Distance args p (x i, y i, z i) ≠ 1 / 10 ^ 10)
    (ht : nc ≠ none → Function.Injective fun i => ok3Distance args p (x i, y i, z i)) :
    ContinuousAt (s.ans env nc) p := by
  obtain ⟨-, hQ⟩ := OK3D.create_dist h
  have hg := OK3D.gam_eq hγ
  have hd : ∀ i, Continuous fun q => s.queryDist (s.queryPt q) i := by
    intro i
    have : (fun q => s.queryDist (s.queryPt q) i) = fun q => ok3Distance args q (x i, y i, z i) := funext fun q => hQ q i
    rw [this]
    exact distance3_continuous _ _
  have hs : ∀ i, ContinuousAt (fun q => semivarTo s.exactValues s.gam (s.queryDist (s.queryPt q)) i) p := fun i => by
    rw [← continuousWithinAt_univ]
    exact semivarTo_continuousWithinAt (by rw [hg]; exact hc) ((hd i).continuousAt.continuousWithinAt)
      (fun q => s.queryDist_nonneg _ _) fun he => by rw [hQ]; exact hp he i
  unfold OK3D.ans
  cases nc with
  | none =>
    exact ContinuousAt.comp (f := fun q => (s.g s.gam q, (0 : Fin 0 → ℝ))) (krigAnswer_continuous _ _ _ _).continuousAt
      ((continuousAt_pi.2 hs).prodMk continuousAt_const)
  | some k =>
    have hk' : k.toNat ≤ n := by have := hw k rfl; omega
    have hst := sel_stable (p := p) (d := fun q i => s.queryDist (s.queryPt q) i) (fun i => (hd i).continuousAt)
      (by simp only [hQ]; exact ht (by simp)) (sel := s.sel env k.toNat) (k := k.toNat)
      (OK3D.sel_spec hk s hk') (fun q i hi j hj => OK3D.sel_nearest hk s hk' q hi hj)
    have : (fun q => selAnswer (s.sel env k.toNat p) s.exactValues s.gam s.dataDist s.VALUES (s.queryDist (s.queryPt q)))
        =ᶠ[𝓝 p] s.windowAnswer env s.gam k.toNat := by
      filter_upwards [hst] with q hq
      exact (selAnswer_perm hq (OK3D.sel_spec hk s hk' q).2 _ _ _ _ _).symm
    refine ContinuousAt.congr ?_ this
    exact ContinuousAt.comp (f := fun q => (semivarTo s.exactValues s.gam fun i => s.queryDist (s.queryPt q)
        ((s.sel env k.toNat p).get i), (0 : Fin 0 → ℝ))) (krigAnswer_continuous _ _ _ _).continuousAt
      ((continuousAt_pi.2 fun i => hs _).prodMk continuousAt_const)

/-- `OrdinaryKriging3D`: for every location `p` and every `ε` there is a `δ` such that the estimates and variances that
any two calls of `execute` return at `p` and at a location `q` within `δ` of `p` differ by less than `ε`.  The variogram
must be continuous, with exact values `p` must not be at distance exactly 1e-10 from a datum, and with a moving window
no two data may be equally far from `p`. -/
theorem C54_continuous_3d {n : ℕ} {env : Env} {x y z v : Fin n → ℝ} {args : OK3DArgs} {s : OK3D n}
    (h : OK3D.create env x y z v args = .ok s) {nc : Option ℤ} (hk : KnnSpec env) (hw : WindowFits n nc) {γ : ℝ → ℝ}
    (hγ : s.variogramFunction s.params = .ok γ) (hc : ContinuousOn γ (Set.Ici 0)) {p : ℝ × ℝ × ℝ}
    (hp : args.exactValues = .bool true → ∀ i, ok3Distance args p (x i, y i, z i) ≠ 1 / 10 ^ 10)
    (ht : nc ≠ none → Function.Injective fun i => ok3Distance args p (x i, y i, z i)) {ε : ℝ} (hε : 0 < ε) :
    ∃ δ > 0, ∀ ea ea' : ExecArgs3, ea.nClosest = nc → ea'.nClosest = nc → ∀ r r' : ExecResult,
      s.execute env ea = .ok r → s.execute env ea' = .ok r' → ∀ j j' q, queryAt3 ea j = some p → queryAt3 ea' j' = some q →
      maskedAt3 ea j = false → maskedAt3 ea' j' = false → |q.1 - p.1| < δ → |q.2.1 - p.2.1| < δ → |q.2.2 - p.2.2| < δ →
      ∃ e w e' w', r.z[j]? = some (some e) ∧ r.ss[j]? = some (some w) ∧ r'.z[j']? = some (some e') ∧
        r'.ss[j']? = some (some w') ∧ |e' - e| < ε ∧ |w' - w| < ε := by
  have f1 := OK3D.create_fields h
  have hcont := OK3D.ans_continuousAt h hk hw hγ hc (p := p) (fun he => hp (by rw [f1.2.1, he])) ht
  obtain ⟨δ, hδ, hh⟩ := eps_delta (S := Set.univ) hcont.continuousWithinAt hε
  refine ⟨δ, hδ, ?_⟩
  rintro ea ea' rfl hnc r r' hr hr' j j' q hq hq' hm hm' h1 h2 h3
  have hd : dist q p < δ := by
    rw [Prod.dist_eq, Prod.dist_eq, max_lt_iff, max_lt_iff, Real.dist_eq, Real.dist_eq, Real.dist_eq]; exact ⟨h1, h2, h3⟩
  obtain ⟨d1, d2⟩ := hh q trivial hd
  obtain ⟨t1, t2⟩ := ((OK3D.create_pw h hk hw).table r hr).at_point hq hm
  obtain ⟨t3, t4⟩ := ((OK3D.create_pw (ea := ea') h hk (by rw [hnc]; exact hw)).table r' hr').at_point hq' hm'
  rw [hnc] at t3 t4
  exact ⟨_, _, _, _, t1, t2, t3, t4, d1, d2⟩

/-! ### The external drift -/

/-- The external drift read off a grid is continuous where it is defined. -/
theorem C54_external_continuous {args : UKArgs} {xs ys : List ℝ} {node : ℕ → ℕ → ℝ} (h : DriftGrid args xs ys node) :
    ContinuousOn (externalValue args) {q | ∃ v, externalAt args q = .ok v} := by
  classical
  have hmx := strictMono_get h.incX
  have hmy := strictMono_get h.incY
  have key : ∀ {k : ℕ} {arr : Fin k → ℝ} (_ : StrictMono arr) {v : ℝ} {a b : Fin k} (_ : b = a ∨ b.val = a.val + 1)
      (_ : arr a ≤ v) (_ : v ≤ arr b), ∃ c d, Bracket arr v c d ∧
        ∀ g : Fin k → ℝ, lerp (arr c) (arr d) (g c) (g d) v = lerp (arr a) (arr b) (g a) (g b) v := by
    intro k arr hm v a b hab hav hvb
    rcases hab with rfl | hab
    · obtain rfl := le_antisymm hav hvb
      exact ⟨b, b, Or.inl ⟨rfl, rfl⟩, fun g => rfl⟩
    have hne : arr b - arr a ≠ 0 := by
      have : arr a < arr b := hm (Fin.lt_def.2 (by omega))
      linarith
    rcases eq_or_lt_of_le hav with rfl | h1
    · exact ⟨a, a, Or.inl ⟨rfl, rfl⟩, fun g => by simp [lerp]⟩
    rcases eq_or_lt_of_le hvb with rfl | h2
    · exact ⟨b, b, Or.inl ⟨rfl, rfl⟩, fun g => by simp [lerp, div_self hne]⟩
    exact ⟨a, b, Or.inr ⟨hab, h1, h2⟩, fun g => rfl⟩
  let I := { t : (Fin xs.length × Fin xs.length) × (Fin ys.length × Fin ys.length) //
    (t.1.2 = t.1.1 ∨ t.1.2.val = t.1.1.val + 1) ∧ (t.2.2 = t.2.1 ∨ t.2.2.val = t.2.1.val + 1) }
  let cell : I → Set (ℝ × ℝ) := fun t =>
    Set.Icc (xs.get t.1.1.1) (xs.get t.1.1.2) ×ˢ Set.Icc (ys.get t.1.2.1) (ys.get t.1.2.2)
  have hcov : {q | ∃ v, externalAt args q = .ok v} ⊆ ⋃ t, cell t := by
    rintro q ⟨v, hv⟩
    unfold externalAt at hv
    rw [DriftGrid.setup h, py_ok_bind] at hv
    have hin := mt (zScalar_outside (e := { nx := xs.length, ny := ys.length, xs := xs.get, ys := ys.get
                                            z := fun r c => node c.val r.val }) (x := q.1) (y := q.2))
      (by rw [hv]; exact fun hc => by cases hc)
    push Not at hin
    obtain ⟨⟨i1, h1⟩, ⟨i2, h2⟩, ⟨i3, h3⟩, ⟨i4, h4⟩⟩ := hin
    obtain ⟨a, b, hab⟩ := Bracket.exists hmx h1 h2
    obtain ⟨c, d, hcd⟩ := Bracket.exists hmy h3 h4
    refine Set.mem_iUnion.2 ⟨⟨((a, b), (c, d)), ?_, ?_⟩, hab.range, hcd.range⟩
    · exact hab.imp (fun e => e.1.symm) fun e => e.1
    · exact hcd.imp (fun e => e.1.symm) fun e => e.1
  refine ContinuousOn.mono ?_ hcov
  refine LocallyFinite.continuousOn_iUnion (locallyFinite_of_finite _)
    (fun t => isClosed_Icc.prod isClosed_Icc) fun t => ?_
  obtain ⟨⟨⟨a, b⟩, ⟨c, d⟩⟩, hab, hcd⟩ := t
  refine ContinuousOn.congr (f := fun q : ℝ × ℝ => lerp (ys.get c) (ys.get d)
    (lerp (xs.get a) (xs.get b) (node a.val c.val) (node b.val c.val) q.1)
    (lerp (xs.get a) (xs.get b) (node a.val d.val) (node b.val d.val) q.1) q.2) ?_ ?_
  · refine Continuous.continuousOn ?_
    unfold lerp
    fun_prop
  · rintro q ⟨⟨hq1, hq2⟩, ⟨hq3, hq4⟩⟩
    obtain ⟨a', b', hb, ha⟩ := key hmx hab hq1 hq2
    obtain ⟨c', d', hd, hc⟩ := key hmy hcd hq3 hq4
    have hz : externalAt args q = .ok (lerp (ys.get c) (ys.get d)
        (lerp (xs.get a) (xs.get b) (node a.val c.val) (node b.val c.val) q.1)
        (lerp (xs.get a) (xs.get b) (node a.val d.val) (node b.val d.val) q.1) q.2) := by
      unfold externalAt
      rw [DriftGrid.setup h, py_ok_bind]
      rw [zScalar_bracket (e := { nx := xs.length, ny := ys.length, xs := xs.get, ys := ys.get
                                  z := fun r c => node c.val r.val }) hmx hmy hb hd]
      congr 1
      have e1 := ha (fun m => node m.val c'.val)
      have e2 := ha (fun m => node m.val d'.val)
      have e3 := hc (fun m => lerp (xs.get a) (xs.get b) (node a.val m.val) (node b.val m.val) q.1)
      simp only at e1 e2 e3 ⊢
      rw [e1, e2, e3]
    unfold externalValue
    rw [hz]

/-! ### Lists of drift terms -/

/-- A list depending continuously on the location. -/
structure ContList {α : Type} [TopologicalSpace α] (L : α → List ℝ) (S : Set α) (p : α) : Prop where
  len : ∃ m, ∀ q, (L q).length = m
  cont : ∀ l, ContinuousWithinAt (fun q => (L q).getD l 0) S p

section contlist
variable {α : Type} [TopologicalSpace α] {L L' : α → List ℝ} {S : Set α} {p : α}

theorem ContList.nil : ContList (fun _ : α => []) S p := ⟨⟨0, fun _ => rfl⟩, fun _ => by simpa using continuousWithinAt_const⟩

theorem ContList.cons {f : α → ℝ} (hf : ContinuousWithinAt f S p) (h : ContList L S p) :
    ContList (fun q => f q :: L q) S p := by
  refine ⟨?_, fun l => ?_⟩
  · obtain ⟨m, hm⟩ := h.len
    exact ⟨m + 1, fun q => by simp [hm q]⟩
  · cases l with
    | zero => simpa using hf
    | succ l => simpa using h.cont l

theorem ContList.append (h : ContList L S p) (h' : ContList L' S p) : ContList (fun q => L q ++ L' q) S p := by
  obtain ⟨m, hm⟩ := h.len
  obtain ⟨m', hm'⟩ := h'.len
  refine ⟨⟨m + m', fun q => by simp [hm q, hm' q]⟩, fun l => ?_⟩
  by_cases hl : l < m
  · refine (h.cont l).congr (fun q _ => ?_) ?_ <;> rw [List.getD_eq_getElem?_getD, List.getD_eq_getElem?_getD, List.getElem?_append_left (by rw [hm]; exact hl)]
  · refine (h'.cont (l - m)).congr (fun q _ => ?_) ?_
    · rw [List.getD_eq_getElem?_getD, List.getD_eq_getElem?_getD, List.getElem?_append_right (by rw [hm]; omega), hm]
    · rw [List.getD_eq_getElem?_getD, List.getD_eq_getElem?_getD, List.getElem?_append_right (by rw [hm]; omega), hm]

theorem ContList.map {β : Type} {g : β → α → ℝ} (l : List β) (h : ∀ b ∈ l, ContinuousWithinAt (g b) S p) :
    ContList (fun q => l.map fun b => g b q) S p := by
  induction l with
  | nil => exact .nil
  | cons b l ih => exact .cons (h b (by simp)) (ih fun b hb => h b (by simp [hb]))

theorem ContList.when {c : Prop} [Decidable c] (h : c → ContList L S p) : ContList (fun q => if c then L q else []) S p := by
  by_cases hc : c
  · simpa [hc] using h hc
  · simpa [hc] using ContList.nil

end contlist

theorem UK.adjustPoint_continuous {n : ℕ} (s : UK n) (k : Fin 2) : Continuous fun q => s.adjustPoint q k := by
  unfold UK.adjustPoint adjust2
  fin_cases k <;> simp [dotProduct, Fin.sum_univ_two] <;> fun_prop

theorem UK3D.adjustPoint_continuous {n : ℕ} (s : UK3D n) (k : Fin 3) : Continuous fun q => s.adjustPoint q k := by
  unfold UK3D.adjustPoint adjustPoint3 adjust3
  fin_cases k <;> simp [dotProduct, Fin.sum_univ_three] <;> fun_prop

/-- Drift arguments that vary continuously around `p`: no specified drift (its values are the caller's), continuous
drift functions, no well at `p`, an external drift on a grid with increasing axes. -/
structure Spec.SmoothDrift (args : UKArgs) (p : ℝ × ℝ) : Prop where
  noSpec : "specified" ∉ args.driftTerms
  functions : "functional" ∈ args.driftTerms → ∀ fs, args.functionalDrift = .list fs → ∀ f ∈ fs,
    Continuous fun q : ℝ × ℝ => f q.1 q.2
  wells : "point_log" ∈ args.driftTerms → ∀ w ∈ args.pointDrift.getD [], ukDistance args p (w.1, w.2.1) ≠ 0
  external : "external_Z" ∈ args.driftTerms → ∃ xs ys node, DriftGrid args xs ys node

theorem UK.drift_contList {n : ℕ} {env : Env} {x y z : Fin n → ℝ} {args : UKArgs} {s : UK n}
    (h : UK.create env x y z args = .ok s) {p : ℝ × ℝ} (hs : SmoothDrift args p)
    (hin : "external_Z" ∈ args.driftTerms → ∃ v, externalAt args p = .ok v) :
    ContList (driftTerms2 args s.adjustPoint [])
      {q | "external_Z" ∈ args.driftTerms → ∃ v, externalAt args q = .ok v} p := by
  have ha := fun k => (s.adjustPoint_continuous k).continuousAt (x := p)
  obtain ⟨a1, a2⟩ := UK.create_aniso h
  unfold driftTerms2
  refine .append (.append (.append (.append (.when fun _ => ?_) (.when fun hw => ?_)) (.when fun he => ?_)) ?_) (.when fun hf => ?_)
  · exact .cons (ha 0).continuousWithinAt (.cons (ha 1).continuousWithinAt .nil)
  · refine .map _ fun w hwm => ?_
    have hd : ContinuousAt (fun q => euclid (s.adjustPoint q) (s.adjustPoint (w.1, w.2.1))) p := by
      unfold euclid
      simp only [Fin.sum_univ_two]
      exact (Real.continuous_sqrt.continuousAt).comp ((((ha 0).sub continuousAt_const).pow 2).add
        (((ha 1).sub continuousAt_const).pow 2))
    have hne : euclid (s.adjustPoint p) (s.adjustPoint (w.1, w.2.1)) ≠ 0 := by
      have := hs.wells hw w hwm
      unfold ukDistance at this
      rw [← a1, ← a2] at this
      unfold UK.adjustPoint
      rw [adjust2_euclid ![s.XCENTER, s.YCENTER] s.anisotropyScaling s.anisotropyAngle p (w.1, w.2.1)]
      exact this
    refine ContinuousWithinAt.mul continuousWithinAt_const (ContinuousAt.continuousWithinAt ?_)
    refine ContinuousAt.congr (f := fun q => Real.log (euclid (s.adjustPoint q) (s.adjustPoint (w.1, w.2.1)))) (hd.log hne) ?_
    filter_upwards [hd.eventually_ne hne] with q hq
    unfold logDistance
    exact (if_neg hq).symm
  · obtain ⟨xs, ys, node, hg⟩ := hs.external he
    refine .cons ?_ .nil
    have := C54_external_continuous hg p (hin he)
    refine this.mono fun q hq => hq he
  · rw [if_neg hs.noSpec]; exact .nil
  · split
    · next fs hfs =>
      refine .map _ fun f hfm => ContinuousAt.continuousWithinAt ?_
      exact ContinuousAt.comp (f := fun q => (s.adjustPoint q 0, s.adjustPoint q 1)) (hs.functions hf fs hfs f hfm).continuousAt
        ((ha 0).prodMk (ha 1))
    · exact .nil

/-- `UniversalKriging`: as C54_continuous_2d, with drift terms that vary continuously around `p`. -/
theorem C54_continuous_uk {n : ℕ} {env : Env} {x y z : Fin n → ℝ} {args : UKArgs} {s : UK n}
    (h : UK.create env x y z args = .ok s) {γ : ℝ → ℝ}
    (hγ : s.variogramFunction s.params = .ok γ) (hc : ContinuousOn γ (Set.Ici 0)) {p : ℝ × ℝ}
    (hp : args.exactValues = .bool true → ∀ i, ukDistance args p (x i, y i) ≠ 1 / 10 ^ 10)
    (hs : SmoothDrift args p) {ε : ℝ} (hε : 0 < ε) :
    ∃ δ > 0, ∀ ea ea' : UKExecArgs, ∀ r r' : ExecResult, s.execute ea = .ok r → s.execute ea' = .ok r' →
      ∀ j j' q, queryAt ea.toExec j = some p → queryAt ea'.toExec j' = some q →
      maskedAt ea.toExec j = false → maskedAt ea'.toExec j' = false → |q.1 - p.1| < δ → |q.2 - p.2| < δ →
      ∃ e v e' v', r.z[j]? = some (some e) ∧ r.ss[j]? = some (some v) ∧ r'.z[j']? = some (some e') ∧
        r'.ss[j']? = some (some v') ∧ |e' - e| < ε ∧ |v' - v| < ε := by
  have f1 := UK.create_fields h
  obtain ⟨-, hQ⟩ := UK.create_dist h
  have hg := UK.gam_eq hγ
  set S := {q | "external_Z" ∈ args.driftTerms → ∃ v, externalAt args q = .ok v} with hS
  let A : ℝ × ℝ → ℝ × ℝ := fun q => krigAnswer s.pseudoInv (s.G s.gam) s.F s.Z (s.g s.gam q) fun l =>
    (driftTerms2 args s.adjustPoint [] q).getD l.val 0
  have hA : ∀ ea j q, q ∈ S → s.ans ea j q = A q := by
    intro ea j q hq
    obtain ⟨zx, hzx⟩ := (UK.extP_ok_iff h q).2 hq
    unfold UK.ans UK.answer
    have : s.f (s.sv ea j) (s.extVal q) q = fun l => (driftTerms2 args s.adjustPoint [] q).getD l.val 0 := by
      funext l
      unfold UK.f
      rw [UK.extVal_eq hzx, UK.driftAt_eq h hzx]
      unfold driftTerms2
      rw [if_neg hs.noSpec, if_neg hs.noSpec]
    rw [this]
  by_cases hpS : p ∈ S
  · have hcont : ContinuousWithinAt A S p := by
      have c1 : ContinuousWithinAt (fun q => s.g s.gam q) S p := by
        refine continuousWithinAt_pi.2 fun i => ?_
        refine semivarTo_continuousWithinAt (by rw [hg]; exact hc) ?_ (fun q => s.queryDist_nonneg _ _)
          fun he => by rw [hQ]; exact hp (by rw [f1.2.1, he]) i
        have : (fun q => s.queryDist q i) = fun q => ukDistance args q (x i, y i) := funext fun q => hQ q i
        rw [this]
        exact (anisoDist2_continuous _ _ _).continuousWithinAt
      have c2 : ContinuousWithinAt (fun q => fun l : Fin s.driftData.length =>
          (driftTerms2 args s.adjustPoint [] q).getD l.val 0) S p :=
        continuousWithinAt_pi.2 fun l => (UK.drift_contList h hs hpS).cont l.val
      exact (krigAnswer_continuous s.pseudoInv (s.G s.gam) s.F s.Z).continuousAt.comp_continuousWithinAt
        (f := fun q => (s.g s.gam q, fun l : Fin s.driftData.length =>
          (driftTerms2 args s.adjustPoint [] q).getD l.val 0)) (c1.prodMk c2)
    obtain ⟨δ, hδ, hh⟩ := eps_delta hcont hε
    refine ⟨δ, hδ, ?_⟩
    intro ea ea' r r' hr hr' j j' q hq hq' hm hm' h1 h2
    have hqS : q ∈ S := (UK.extP_ok_iff h q).1 (((UK.create_pw h ea').ok_iff.1 ⟨r', hr'⟩).2 j' q hq' (.inl hm')).1
    have hd : dist q p < δ := by
      rw [Prod.dist_eq, max_lt_iff, Real.dist_eq, Real.dist_eq]; exact ⟨h1, h2⟩
    obtain ⟨d1, d2⟩ := hh q hqS hd
    obtain ⟨t1, t2⟩ := ((UK.create_pw h ea).table r hr).at_point hq hm
    obtain ⟨t3, t4⟩ := ((UK.create_pw h ea').table r' hr').at_point hq' hm'
    rw [hA ea j p hpS] at t1 t2
    rw [hA ea' j' q hqS] at t3 t4
    exact ⟨_, _, _, _, t1, t2, t3, t4, d1, d2⟩
  · refine ⟨1, one_pos, ?_⟩
    intro ea ea' r r' hr hr' j j' q hq hq' hm hm' h1 h2
    exact absurd ((UK.extP_ok_iff h p).1 (((UK.create_pw h ea).ok_iff.1 ⟨r, hr⟩).2 j p hq (.inl hm)).1) hpS

/-- Drift arguments that vary continuously, in three dimensions. -/
structure Spec.SmoothDrift3 (args : UK3DArgs) : Prop where
  noSpec : "specified" ∉ args.driftTerms
  functions : "functional" ∈ args.driftTerms → ∀ fs, args.functionalDrift = .list fs → ∀ f ∈ fs,
    Continuous fun q : ℝ × ℝ × ℝ => f q.1 q.2.1 q.2.2

/-- `UniversalKriging3D`. -/
theorem C54_continuous_uk3d {n : ℕ} {env : Env} {x y z v : Fin n → ℝ} {args : UK3DArgs} {s : UK3D n}
    (h : UK3D.create env x y z v args = .ok s) {γ : ℝ → ℝ}
    (hγ : s.variogramFunction s.params = .ok γ) (hc : ContinuousOn γ (Set.Ici 0)) {p : ℝ × ℝ × ℝ}
    (hp : args.exactValues = .bool true → ∀ i, uk3Distance args p (x i, y i, z i) ≠ 1 / 10 ^ 10)
    (hs : SmoothDrift3 args) {ε : ℝ} (hε : 0 < ε) :
    ∃ δ > 0, ∀ ea ea' : UK3DExecArgs, ∀ r r' : ExecResult, s.execute ea = .ok r → s.execute ea' = .ok r' →
      ∀ j j' q, queryAt3 ea.toExec j = some p → queryAt3 ea'.toExec j' = some q →
      maskedAt3 ea.toExec j = false → maskedAt3 ea'.toExec j' = false →
      |q.1 - p.1| < δ → |q.2.1 - p.2.1| < δ → |q.2.2 - p.2.2| < δ →
      ∃ e w e' w', r.z[j]? = some (some e) ∧ r.ss[j]? = some (some w) ∧ r'.z[j']? = some (some e') ∧
        r'.ss[j']? = some (some w') ∧ |e' - e| < ε ∧ |w' - w| < ε := by
  have f1 := UK3D.create_fields h
  obtain ⟨-, hQ⟩ := UK3D.create_dist h
  have hg := UK3D.gam_eq hγ
  let A : ℝ × ℝ × ℝ → ℝ × ℝ := fun q => krigAnswer s.pseudoInv (s.G s.gam) s.F s.VALUES (s.g s.gam q) fun l =>
    (driftTerms3 args s.adjustPoint [] q).getD l.val 0
  have hA : ∀ ea j q, s.ans ea j q = A q := by
    intro ea j q
    unfold UK3D.ans UK3D.answer
    have : s.f (s.sv ea j) q = fun l => (driftTerms3 args s.adjustPoint [] q).getD l.val 0 := by
      funext l
      unfold UK3D.f
      rw [UK3D.driftAt_eq h]
      unfold driftTerms3
      rw [if_neg hs.noSpec, if_neg hs.noSpec]
    rw [this]
  have ha := fun k => (s.adjustPoint_continuous k).continuousAt (x := p)
  have hL : ContList (driftTerms3 args s.adjustPoint []) Set.univ p := by
    unfold driftTerms3
    refine .append (.append (.when fun _ => ?_) ?_) (.when fun hf => ?_)
    · exact .cons (ha 0).continuousWithinAt (.cons (ha 1).continuousWithinAt (.cons (ha 2).continuousWithinAt .nil))
    · rw [if_neg hs.noSpec]; exact .nil
    · split
      · next fs hfs =>
        refine .map _ fun f hfm => ContinuousAt.continuousWithinAt ?_
        exact ContinuousAt.comp (f := fun q => (s.adjustPoint q 0, s.adjustPoint q 1, s.adjustPoint q 2))
          (hs.functions hf fs hfs f hfm).continuousAt ((ha 0).prodMk ((ha 1).prodMk (ha 2)))
      · exact .nil
  have hcont : ContinuousWithinAt A Set.univ p := by
    have c1 : ContinuousWithinAt (fun q => s.g s.gam q) Set.univ p := by
      refine continuousWithinAt_pi.2 fun i => ?_
      refine semivarTo_continuousWithinAt (by rw [hg]; exact hc) ?_ (fun q => s.queryDist_nonneg _ _)
        fun he => by rw [hQ]; exact hp (by rw [f1.2.1, he]) i
      have : (fun q => s.queryDist q i) = fun q => uk3Distance args q (x i, y i, z i) := funext fun q => hQ q i
      rw [this]
      exact (distance3_continuous _ _).continuousWithinAt
    have c2 : ContinuousWithinAt (fun q => fun l : Fin s.driftData.length =>
        (driftTerms3 args s.adjustPoint [] q).getD l.val 0) Set.univ p :=
      continuousWithinAt_pi.2 fun l => hL.cont l.val
    exact (krigAnswer_continuous s.pseudoInv (s.G s.gam) s.F s.VALUES).continuousAt.comp_continuousWithinAt
      (f := fun q => (s.g s.gam q, fun l : Fin s.driftData.length =>
        (driftTerms3 args s.adjustPoint [] q).getD l.val 0)) (c1.prodMk c2)
  obtain ⟨δ, hδ, hh⟩ := eps_delta hcont hε
  refine ⟨δ, hδ, ?_⟩
  intro ea ea' r r' hr hr' j j' q hq hq' hm hm' h1 h2 h3
  have hd : dist q p < δ := by
    rw [Prod.dist_eq, Prod.dist_eq, max_lt_iff, max_lt_iff, Real.dist_eq, Real.dist_eq, Real.dist_eq]; exact ⟨h1, h2, h3⟩
  obtain ⟨d1, d2⟩ := hh q trivial hd
  obtain ⟨t1, t2⟩ := ((UK3D.create_pw h ea).table r hr).at_point hq hm
  obtain ⟨t3, t4⟩ := ((UK3D.create_pw h ea').table r' hr').at_point hq' hm'
  rw [hA] at t1 t2 t3 t4
  exact ⟨_, _, _, _, t1, t2, t3, t4, d1, d2⟩

/-! ### Examples -/

theorem Demo.sph_continuous {γ : ℝ → ℝ} (h : Builtin "spherical" (listMeaning "spherical" [3, 2, 1]) γ) :
    ContinuousOn γ (Set.Ici 0) := by
  have e : listMeaning "spherical" [3, 2, 1] = [2, 2, 1] := by simp [listMeaning]; norm_num
  rw [e] at h
  exact C54_builtin_continuous (a := 2) (b := 2) (c := 1) (.inr (.inr ⟨by norm_num, "spherical", by simp, h⟩))

theorem Demo.half_ne {d : ℝ} (h : 1 / 2 ≤ d) : d ≠ 1 / 10 ^ 10 := by
  intro hc
  rw [hc] at h
  norm_num at h

/-- Four data: the estimate and the variance are continuous at `(1/2, t)`. -/
example (z : Fin 4 → ℝ) (t : ℝ) {ε : ℝ} (hε : 0 < ε) : ∃ s, OK.create stdEnv Demo.x4 Demo.y4 z (Demo.any "spherical" [3, 2, 1]) = .ok s ∧
    ∃ δ > 0, ∀ q : ℝ × ℝ, |q.1 - 1 / 2| < δ → |q.2 - t| < δ → ∃ r r' e v e' v',
      s.execute stdEnv (Demo.pts [(1 / 2, t)] "loop") = .ok r ∧ s.execute stdEnv (Demo.pts [q] "vectorized") = .ok r' ∧
      r.z[0]? = some (some e) ∧ r.ss[0]? = some (some v) ∧ r'.z[0]? = some (some e') ∧ r'.ss[0]? = some (some v') ∧
      |e' - e| < ε ∧ |v' - v| < ε := by
  obtain ⟨s, h, hp, ha, hr⟩ := Demo.any_ok (n := 4) (by norm_num) z Demo.sph_valid Demo.sph_grows Demo.inj4
  obtain ⟨hb, -, -, γ, hγ, -⟩ := Demo.sph_valid.builtin
  obtain ⟨hev, -⟩ := chosen_evaluates hγ hb (OK.create_function h (m := "spherical") rfl)
  rw [← hp] at hev
  obtain ⟨δ, hδ, hh⟩ := C54_continuous_2d h (ha none (by simp [WindowFits])) hev (Demo.sph_continuous hγ) (p := (1 / 2, t))
    (fun _ i => Demo.half_ne (by
      have := Demo.far (p := (1 / 2, t)) (q := (Demo.x4 i, Demo.y4 i)) (Demo.x4_far i)
      simpa [okDistance, distance2, Demo.any, effScaling, effAngle] using this)) (by simp) hε
  refine ⟨s, h, δ, hδ, fun q h1 h2 => ?_⟩
  have hw := Demo.pts_wellPosed [(1 / 2, t)] "loop"
  have hw' := Demo.pts_wellPosed [q] "vectorized"
  obtain ⟨r, hr1⟩ := hr (Demo.pts [(1 / 2, t)] "loop") hw.1 (by simp [WindowOk, Demo.pts]) (by simp [WindowFits, Demo.pts]) hw.2
    (by simp [Supports, Demo.pts])
  obtain ⟨r', hr2⟩ := hr (Demo.pts [q] "vectorized") hw'.1 (by simp [WindowOk, Demo.pts]) (by simp [WindowFits, Demo.pts]) hw'.2
    (by simp [Supports, Demo.pts])
  obtain ⟨e, v, e', v', g⟩ := hh _ _ rfl rfl r r' hr1 hr2 0 0 q (by simp [queryAt, Demo.pts]) (by simp [queryAt, Demo.pts]) rfl rfl h1 h2
  exact ⟨r, r', e, v, e', v', hr1, hr2, g⟩

/-- With a window of two data, at `(5, 7)`, where no two data are equally far. -/
example (z : Fin 4 → ℝ) {ε : ℝ} (hε : 0 < ε) : ∃ s, OK.create stdEnv Demo.x4 Demo.y4 z (Demo.any "spherical" [3, 2, 1]) = .ok s ∧
    ∃ δ > 0, ∀ q : ℝ × ℝ, |q.1 - 5| < δ → |q.2 - 7| < δ → ∃ r r' e v e' v',
      s.execute stdEnv { Demo.pts [(5, 7)] "loop" with nClosest := some 2 } = .ok r ∧
      s.execute stdEnv { Demo.pts [q] "loop" with nClosest := some 2 } = .ok r' ∧
      r.z[0]? = some (some e) ∧ r.ss[0]? = some (some v) ∧ r'.z[0]? = some (some e') ∧ r'.ss[0]? = some (some v') ∧
      |e' - e| < ε ∧ |v' - v| < ε := by
  obtain ⟨s, h, hp, ha, hr⟩ := Demo.any_ok (n := 4) (by norm_num) z Demo.sph_valid Demo.sph_grows Demo.inj4
  obtain ⟨hb, -, -, γ, hγ, -⟩ := Demo.sph_valid.builtin
  obtain ⟨hev, -⟩ := chosen_evaluates hγ hb (OK.create_function h (m := "spherical") rfl)
  rw [← hp] at hev
  have hd : ∀ i, okDistance (Demo.any "spherical" [3, 2, 1]) (5, 7) (Demo.x4 i, Demo.y4 i) =
      Real.sqrt (![74, 65, 61, 45] i) := by
    intro i
    fin_cases i <;> simp [okDistance, distance2, Demo.any, effScaling, effAngle, anisoDist2, rad, Demo.x4, Demo.y4] <;>
      congr 1 <;> norm_num
  obtain ⟨δ, hδ, hh⟩ := C54_continuous_2d h (ha (some 2) (by intro k hk; cases hk; norm_num)) hev (Demo.sph_continuous hγ)
    (p := (5, 7)) (fun _ i => Demo.half_ne (by
      rw [hd]
      refine Real.le_sqrt_of_sq_le ?_
      fin_cases i <;> norm_num)) (fun _ i j hij => by
      simp only [hd] at hij
      have := (Real.sqrt_inj (by fin_cases i <;> norm_num) (by fin_cases j <;> norm_num)).1 hij
      revert this
      fin_cases i <;> fin_cases j <;> norm_num) hε
  refine ⟨s, h, δ, hδ, fun q h1 h2 => ?_⟩
  have hw := Demo.pts_wellPosed [(5, 7)] "loop"
  have hw' := Demo.pts_wellPosed [q] "loop"
  obtain ⟨r, hr1⟩ := hr { Demo.pts [(5, 7)] "loop" with nClosest := some 2 } hw.1
    (by intro k hk; cases hk; norm_num) (by intro k hk; cases hk; norm_num) hw.2 (.inl rfl)
  obtain ⟨r', hr2⟩ := hr { Demo.pts [q] "loop" with nClosest := some 2 } hw'.1
    (by intro k hk; cases hk; norm_num) (by intro k hk; cases hk; norm_num) hw'.2 (.inl rfl)
  obtain ⟨e, v, e', v', g⟩ := hh _ _ rfl rfl r r' hr1 hr2 0 0 q (by simp [queryAt, Demo.pts]) (by simp [queryAt, Demo.pts]) rfl rfl h1 h2
  exact ⟨r, r', e, v, e', v', hr1, hr2, g⟩

/-- With a regional linear drift. -/
example (z : Fin 4 → ℝ) (t : ℝ) {ε : ℝ} (hε : 0 < ε) : ∃ s, UK.create stdEnv Demo.x4 Demo.y4 z (Demo.uany "spherical" [3, 2, 1]) = .ok s ∧
    ∃ δ > 0, ∀ q : ℝ × ℝ, |q.1 - 1 / 2| < δ → |q.2 - t| < δ → ∃ r r' e v e' v',
      s.execute { toExec := Demo.pts [(1 / 2, t)] "loop" } = .ok r ∧ s.execute { toExec := Demo.pts [q] "vectorized" } = .ok r' ∧
      r.z[0]? = some (some e) ∧ r.ss[0]? = some (some v) ∧ r'.z[0]? = some (some e') ∧ r'.ss[0]? = some (some v') ∧
      |e' - e| < ε ∧ |v' - v| < ε := by
  obtain ⟨s, h, hp, -, hr⟩ := Demo.uany_ok (n := 4) (by norm_num) z Demo.sph_valid Demo.sph_grows Demo.inj4 Demo.plane4
  obtain ⟨hb, -, -, γ, hγ, -⟩ := Demo.sph_valid.builtin
  obtain ⟨hev, -⟩ := chosen_evaluates hγ hb (UK.create_function h (m := "spherical") rfl)
  rw [← hp] at hev
  obtain ⟨δ, hδ, hh⟩ := C54_continuous_uk h hev (Demo.sph_continuous hγ) (p := (1 / 2, t))
    (fun _ i => Demo.half_ne (Demo.far (Demo.x4_far i)))
    ⟨by simp [Demo.uany], fun t => by simp [Demo.uany] at t, fun t => by simp [Demo.uany] at t, fun t => by simp [Demo.uany] at t⟩ hε
  refine ⟨s, h, δ, hδ, fun q h1 h2 => ?_⟩
  have hw := Demo.pts_wellPosed [(1 / 2, t)] "loop"
  have hw' := Demo.pts_wellPosed [q] "vectorized"
  obtain ⟨r, hr1⟩ := hr { toExec := Demo.pts [(1 / 2, t)] "loop" } hw.1 hw.2 (.inr rfl)
  obtain ⟨r', hr2⟩ := hr { toExec := Demo.pts [q] "vectorized" } hw'.1 hw'.2 (.inl rfl)
  obtain ⟨e, v, e', v', g⟩ := hh _ _ r r' hr1 hr2 0 0 q (by simp [queryAt, Demo.pts]) (by simp [queryAt, Demo.pts]) rfl rfl h1 h2
  exact ⟨r, r', e, v, e', v', hr1, hr2, g⟩

theorem Demo.far3 {p q : ℝ × ℝ × ℝ} (h : 1 / 2 ≤ |p.1 - q.1|) : 1 / 2 ≤ distance3 {} p q := by
  unfold distance3 rotZ rotY rotX
  simp [rad]
  refine (by simpa using h : (2 : ℝ)⁻¹ ≤ |p.1 - q.1|).trans (Real.le_sqrt_of_sq_le ?_)
  rw [sq_abs]
  nlinarith [sq_nonneg (p.2.1 - q.2.1), sq_nonneg (p.2.2 - q.2.2)]

/-- Four data: the estimate and the variance are continuous at `(1/2, t)`. -/
example (z : Fin 4 → ℝ) (t u : ℝ) {ε : ℝ} (hε : 0 < ε) : ∃ s, OK3D.create stdEnv Demo.x4 Demo.y4 Demo.z4 z (Demo.any3 "spherical" [3, 2, 1]) = .ok s ∧
    ∃ δ > 0, ∀ q : ℝ × ℝ × ℝ, |q.1 - 1 / 2| < δ → |q.2.1 - t| < δ → |q.2.2 - u| < δ → ∃ r r' e v e' v',
      s.execute stdEnv (Demo.pts3 [(1 / 2, t, u)] "loop") = .ok r ∧ s.execute stdEnv (Demo.pts3 [q] "vectorized") = .ok r' ∧
      r.z[0]? = some (some e) ∧ r.ss[0]? = some (some v) ∧ r'.z[0]? = some (some e') ∧ r'.ss[0]? = some (some v') ∧
      |e' - e| < ε ∧ |v' - v| < ε := by
  obtain ⟨s, h, hp, hr⟩ := Demo.any3_ok (n := 4) (by norm_num) z Demo.sph_valid Demo.sph_grows Demo.inj4'
  obtain ⟨hb, -, -, γ, hγ, -⟩ := Demo.sph_valid.builtin
  obtain ⟨hev, -⟩ := chosen_evaluates hγ hb (OK3D.create_function h (m := "spherical") rfl)
  rw [← hp] at hev
  obtain ⟨δ, hδ, hh⟩ := C54_continuous_3d (nc := none) h stdEnv_knn (by simp [WindowFits]) hev (Demo.sph_continuous hγ) (p := (1 / 2, t, u))
    (fun _ i => Demo.half_ne (Demo.far3 (Demo.x4_far i))) (by simp) hε
  refine ⟨s, h, δ, hδ, fun q h1 h2 h3 => ?_⟩
  have hw := Demo.pts_wellPosed3 [(1 / 2, t, u)] "loop"
  have hw' := Demo.pts_wellPosed3 [q] "vectorized"
  obtain ⟨r, hr1⟩ := hr (Demo.pts3 [(1 / 2, t, u)] "loop") hw.1 (by simp [WindowOk, Demo.pts3]) (by simp [WindowFits, Demo.pts3]) hw.2 (.inl rfl)
  obtain ⟨r', hr2⟩ := hr (Demo.pts3 [q] "vectorized") hw'.1 (by simp [WindowOk, Demo.pts3]) (by simp [WindowFits, Demo.pts3]) hw'.2 (.inr ⟨rfl, rfl⟩)
  obtain ⟨e, v, e', v', g⟩ := hh _ _ rfl rfl r r' hr1 hr2 0 0 q (by simp [queryAt3, Demo.pts3]) (by simp [queryAt3, Demo.pts3]) rfl rfl h1 h2 h3
  exact ⟨r, r', e, v, e', v', hr1, hr2, g⟩

/-- With a regional linear drift. -/
example (z : Fin 4 → ℝ) (t u : ℝ) {ε : ℝ} (hε : 0 < ε) : ∃ s, UK3D.create stdEnv Demo.x4 Demo.y4 Demo.z4 z (Demo.uany3 "spherical" [3, 2, 1]) = .ok s ∧
    ∃ δ > 0, ∀ q : ℝ × ℝ × ℝ, |q.1 - 1 / 2| < δ → |q.2.1 - t| < δ → |q.2.2 - u| < δ → ∃ r r' e v e' v',
      s.execute { toExec := Demo.pts3 [(1 / 2, t, u)] "loop" } = .ok r ∧ s.execute { toExec := Demo.pts3 [q] "vectorized" } = .ok r' ∧
      r.z[0]? = some (some e) ∧ r.ss[0]? = some (some v) ∧ r'.z[0]? = some (some e') ∧ r'.ss[0]? = some (some v') ∧
      |e' - e| < ε ∧ |v' - v| < ε := by
  obtain ⟨s, h, hp, -, hr⟩ := Demo.uany3_ok (n := 4) (by norm_num) z Demo.sph_valid Demo.sph_grows Demo.inj4' Demo.space4
  obtain ⟨hb, -, -, γ, hγ, -⟩ := Demo.sph_valid.builtin
  obtain ⟨hev, -⟩ := chosen_evaluates hγ hb (UK3D.create_function h (m := "spherical") rfl)
  rw [← hp] at hev
  obtain ⟨δ, hδ, hh⟩ := C54_continuous_uk3d h hev (Demo.sph_continuous hγ) (p := (1 / 2, t, u))
    (fun _ i => Demo.half_ne (Demo.far3 (Demo.x4_far i)))
    ⟨by simp [Demo.uany3], fun t => by simp [Demo.uany3] at t⟩ hε
  refine ⟨s, h, δ, hδ, fun q h1 h2 h3 => ?_⟩
  have hw := Demo.pts_wellPosed3 [(1 / 2, t, u)] "loop"
  have hw' := Demo.pts_wellPosed3 [q] "vectorized"
  obtain ⟨r, hr1⟩ := hr { toExec := Demo.pts3 [(1 / 2, t, u)] "loop" } hw.1 hw.2 (.inr rfl)
  obtain ⟨r', hr2⟩ := hr { toExec := Demo.pts3 [q] "vectorized" } hw'.1 hw'.2 (.inl rfl)
  obtain ⟨e, v, e', v', g⟩ := hh _ _ r r' hr1 hr2 0 0 q (by simp [queryAt3, Demo.pts3]) (by simp [queryAt3, Demo.pts3]) rfl rfl h1 h2 h3
  exact ⟨r, r', e, v, e', v', hr1, hr2, g⟩

/-- All drift terms that vary continuously: a well at the origin, the external drift `x + y` on a 2 x 2 grid and the
function `x * y` are smooth around every other point. -/
example {p : ℝ × ℝ} (hp : p ≠ 0) : SmoothDrift
    { driftTerms := ["regional_linear", "point_log", "external_Z", "functional"], pointDrift := some [(0, 0, 1)],
      externalDrift := some ⟨2, 2, fun j i => (i : ℝ) + j⟩, externalDriftX := some [0, 1], externalDriftY := some [0, 1],
      functionalDrift := .list [fun x y => x * y] } p := by
  refine ⟨by simp, ?_, ?_, ?_⟩
  · intro _ fs hfs f hf
    cases hfs
    simp only [List.mem_singleton] at hf
    subst hf
    fun_prop
  · intro _ w hw
    simp only [Option.getD_some, List.mem_singleton] at hw
    subst hw
    intro h0
    exact hp (anisoDist2_eq_zero (sc := 1) one_ne_zero 0 h0)
  · intro _
    exact ⟨[0, 1], [0, 1], fun i j => (i : ℝ) + j, rfl, rfl, by simp, by simp, _, rfl, .inl ⟨rfl, rfl, fun i j => rfl⟩⟩

end
end PyKrige
