import Verif.Props.C47Unique
import Verif.Props.C54
import Verif.Props.C49
import Verif.Lemmas.Stable

/-!
# C64: small errors in the input make small errors in the output

If data coordinates, data values, variograms, anisotropies and query locations converge to given ones, then estimates and
variances converge to the given ones.  (The limit must be a problem that `execute` answers: there the system is regular.)
-/

set_option linter.unusedSectionVars false

namespace PyKrige
noncomputable section
open Matrix Spec Filter Topology

/-- The built-in variograms converge when their parameters do (range > 0, exponent > 0 in the limit). -/
theorem C64_builtin {γ : ℝ → ℝ} {γ' : ℕ → ℝ → ℝ} {a b c : ℝ} {a' b' c' : ℕ → ℝ} (ha : Tendsto a' atTop (𝓝 a))
    (hb : Tendsto b' atTop (𝓝 b)) (hc : Tendsto c' atTop (𝓝 c))
    (h : (Builtin "linear" [a, c] γ ∧ ∀ k, Builtin "linear" [a' k, c' k] (γ' k)) ∨
      (0 < b ∧ Builtin "power" [a, b, c] γ ∧ ∀ k, Builtin "power" [a' k, b' k, c' k] (γ' k)) ∨
      (0 < b ∧ ∃ name ∈ ["gaussian", "exponential", "spherical", "hole-effect"], Builtin name [a, b, c] γ ∧
        ∀ k, Builtin name [a' k, b' k, c' k] (γ' k))) : VariogramsConverge γ' γ := by
  intro d' d h0' h0 hd
  rcases h with ⟨h, h'⟩ | ⟨hb0, h, h'⟩ | ⟨hb0, name, hn, h, h'⟩
  · rw [builtin_linear.1 h, show γ' = fun k => _ from funext fun k => builtin_linear.1 (h' k)]
    exact (ha.mul hd).add hc
  · rw [builtin_power.1 h, show γ' = fun k => _ from funext fun k => builtin_power.1 (h' k)]
    exact (ha.mul (hd.rpow hb (.inr hb0))).add hc
  · have hexp : Tendsto (fun k => Real.exp (-d' k / (b' k / 3))) atTop (𝓝 (Real.exp (-d / (b / 3)))) :=
      (Real.continuous_exp.tendsto _).comp (hd.neg.div (hb.div_const 3) (by positivity))
    simp only [List.mem_cons, List.not_mem_nil, or_false] at hn
    rcases hn with rfl | rfl | rfl | rfl
    · rw [builtin_gaussian.1 h, show γ' = fun k => _ from funext fun k => builtin_gaussian.1 (h' k)]
      have : Tendsto (fun k => Real.exp (-(d' k ^ 2) / (b' k * 4 / 7) ^ 2)) atTop (𝓝 (Real.exp (-(d ^ 2) / (b * 4 / 7) ^ 2))) :=
        (Real.continuous_exp.tendsto _).comp ((hd.pow 2).neg.div (((hb.mul_const 4).div_const 7).pow 2) (by positivity))
      exact (ha.mul (this.const_sub 1)).add hc
    · rw [builtin_exponential.1 h, show γ' = fun k => _ from funext fun k => builtin_exponential.1 (h' k)]
      exact (ha.mul (hexp.const_sub 1)).add hc
    · rw [builtin_spherical.1 h, show γ' = fun k => _ from funext fun k => builtin_spherical.1 (h' k)]
      have hpoly : Tendsto (fun k => a' k * ((3 * d' k) / (2 * b' k) - (d' k ^ 3) / (2 * b' k ^ 3)) + c' k) atTop
          (𝓝 (a * ((3 * d) / (2 * b) - (d ^ 3) / (2 * b ^ 3)) + c)) :=
        (ha.mul ((((hd.const_mul 3)).div (hb.const_mul 2) (by positivity)).sub
          ((hd.pow 3).div ((hb.pow 3).const_mul 2) (by positivity)))).add hc
      have hsill : Tendsto (fun k => a' k + c' k) atTop (𝓝 (a + c)) := ha.add hc
      unfold sphericalFormula
      rcases lt_trichotomy d b with hlt | rfl | hlt
      · rw [if_pos hlt.le]
        refine hpoly.congr' ?_
        filter_upwards [hd.eventually_lt hb hlt] with k hk
        rw [if_pos hk.le]
      · rw [if_pos le_rfl]
        have e : a * ((3 * d) / (2 * d) - (d ^ 3) / (2 * d ^ 3)) + c = a + c := by field_simp; ring
        rw [e] at hpoly ⊢
        exact Tendsto.if' hpoly hsill
      · rw [if_neg (not_le.2 hlt)]
        refine hsill.congr' ?_
        filter_upwards [hb.eventually_lt hd hlt] with k hk
        rw [if_neg (not_le.2 hk)]
    · rw [builtin_hole.1 h, show γ' = fun k => _ from funext fun k => builtin_hole.1 (h' k)]
      exact (ha.mul (((hd.div (hb.div_const 3) (by positivity)).const_sub 1 |>.mul hexp).const_sub 1)).add hc

/-- `OrdinaryKriging`, no moving window, no pseudo inverse. -/
theorem C64_stable_2d {n : ℕ} {env : Env} {x y z : Fin n → ℝ} {args : OKArgs} {s : OK n}
    (h : OK.create env x y z args = .ok s) (hp : args.pseudoInv = false) {γ : ℝ → ℝ} (hγ : s.variogramFunction s.params = .ok γ)
    -- the same with other data, variogram and anisotropy
    {x' y' z' : ℕ → Fin n → ℝ} (vm' : ℕ → ModelArg) (ps' : ℕ → ParamArg) (fn' : ℕ → FunArg) (sc' an' : ℕ → ℝ) {s' : ℕ → OK n}
    (h' : ∀ k, OK.create env (x' k) (y' k) (z' k) { args with variogramModel := vm' k, params := ps' k, variogramFunction := fn' k, anisotropyScaling := sc' k, anisotropyAngle := an' k } = .ok (s' k))
    {γ' : ℕ → ℝ → ℝ} (hγ' : ∀ k, (s' k).variogramFunction (s' k).params = .ok (γ' k))
    -- queries
    (hA : Admissible env args s none) (hA' : ∀ k, Admissible env { args with variogramModel := vm' k, params := ps' k, variogramFunction := fn' k, anisotropyScaling := sc' k, anisotropyAngle := an' k } (s' k) none)
    {ea : ExecArgs} {ea' : ℕ → ExecArgs} (hn : ea.nClosest = none) (hn' : ∀ k, (ea' k).nClosest = none)
    {r : ExecResult} {r' : ℕ → ExecResult} (hr : s.execute env ea = .ok r) (hr' : ∀ k, (s' k).execute env (ea' k) = .ok (r' k))
    {j : ℕ} {j' : ℕ → ℕ} {p : ℝ × ℝ} {p' : ℕ → ℝ × ℝ} (hq : queryAt ea j = some p) (hq' : ∀ k, queryAt (ea' k) (j' k) = some (p' k))
    (hm : maskedAt ea j = false) (hm' : ∀ k, maskedAt (ea' k) (j' k) = false)
    -- convergence
    (hx : ∀ i, Tendsto (fun k => x' k i) atTop (𝓝 (x i))) (hy : ∀ i, Tendsto (fun k => y' k i) atTop (𝓝 (y i))) (hz : ∀ i, Tendsto (fun k => z' k i) atTop (𝓝 (z i)))
    (hvar : VariogramsConverge γ' γ)
    (hsc : Tendsto (fun k => effScaling (vm' k) (sc' k)) atTop (𝓝 (effScaling args.variogramModel args.anisotropyScaling)))
    (han : Tendsto (fun k => effAngle (vm' k) (an' k)) atTop (𝓝 (effAngle args.variogramModel args.anisotropyAngle)))
    (hpl : Tendsto p' atTop (𝓝 p)) (hne : args.exactValues = .bool true → ∀ i, okDistance args p (x i, y i) ≠ 1 / 10 ^ 10) :
    ∃ (est var : ℝ) (est' var' : ℕ → ℝ), r.z[j]? = some (some est) ∧ r.ss[j]? = some (some var) ∧
      (∀ k, (r' k).z[j' k]? = some (some (est' k)) ∧ (r' k).ss[j' k]? = some (some (var' k))) ∧
      Tendsto est' atTop (𝓝 est) ∧ Tendsto var' atTop (𝓝 var) := by
  obtain ⟨exact, hex⟩ : ∃ b, args.exactValues = .bool b := by
    obtain ⟨-, he, -⟩ := OK.create_fields h
    exact ⟨_, he⟩
  obtain ⟨hreg, ⟨w, μ, e⟩, hu⟩ := C47_unique_2d h (by rw [hn]; exact hA) hn hp hγ hex hr hq hm
  have all := fun k => C47_unique_2d (h' k) (by rw [hn' k]; exact hA' k) (hn' k) hp (hγ' k) hex (hr' k) (hq' k) (hm' k)
  choose w' μ' e' using fun k => (all k).2.1
  obtain ⟨t1, t2⟩ := answers_tendsto hreg (fun k => (all k).1) e e'
    (semivar_tendsto hvar (fun k _ _ => okDistance_nonneg { args with variogramModel := vm' k, params := ps' k, variogramFunction := fn' k, anisotropyScaling := sc' k, anisotropyAngle := an' k } _ _) (fun _ _ => okDistance_nonneg _ _ _) fun i i' => distance2_tendsto hsc han ((hx i).prodMk_nhds (hy i)) ((hx i').prodMk_nhds (hy i')))
    (fun l => l.elim0) (semivarTo_tendsto hvar (exact := exact) (fun k _ => okDistance_nonneg { args with variogramModel := vm' k, params := ps' k, variogramFunction := fn' k, anisotropyScaling := sc' k, anisotropyAngle := an' k } _ _) (fun _ => okDistance_nonneg _ _ _) (fun i => distance2_tendsto hsc han hpl ((hx i).prodMk_nhds (hy i)))
      fun he => hne (by rw [hex, he])) (fun l => l.elim0) hz
  exact ⟨_, _, _, _, (hu w μ e).1, (hu w μ e).2, fun k => (all k).2.2 (w' k) (μ' k) (e' k), t1, t2⟩

/-- `OrdinaryKriging3D`, no moving window, no pseudo inverse. -/
theorem C64_stable_3d {n : ℕ} {env : Env} {x y z v : Fin n → ℝ} {args : OK3DArgs} {s : OK3D n}
    (h : OK3D.create env x y z v args = .ok s) (hp : args.pseudoInv = false) {γ : ℝ → ℝ} (hγ : s.variogramFunction s.params = .ok γ)
    -- the same with other data, variogram and anisotropy
    {x' y' z' v' : ℕ → Fin n → ℝ} (vm' : ℕ → ModelArg) (ps' : ℕ → ParamArg) (fn' : ℕ → FunArg) (an' : ℕ → Aniso3) {s' : ℕ → OK3D n}
    (h' : ∀ k, OK3D.create env (x' k) (y' k) (z' k) (v' k) { args with variogramModel := vm' k, params := ps' k, variogramFunction := fn' k, aniso := an' k } = .ok (s' k))
    {γ' : ℕ → ℝ → ℝ} (hγ' : ∀ k, (s' k).variogramFunction (s' k).params = .ok (γ' k))
    -- queries
    (hA : KnnSpec env)
    {ea : ExecArgs3} {ea' : ℕ → ExecArgs3} (hn : ea.nClosest = none) (hn' : ∀ k, (ea' k).nClosest = none)
    {r : ExecResult} {r' : ℕ → ExecResult} (hr : s.execute env ea = .ok r) (hr' : ∀ k, (s' k).execute env (ea' k) = .ok (r' k))
    {j : ℕ} {j' : ℕ → ℕ} {p : ℝ × ℝ × ℝ} {p' : ℕ → ℝ × ℝ × ℝ} (hq : queryAt3 ea j = some p) (hq' : ∀ k, queryAt3 (ea' k) (j' k) = some (p' k))
    (hm : maskedAt3 ea j = false) (hm' : ∀ k, maskedAt3 (ea' k) (j' k) = false)
    -- convergence
    (hx : ∀ i, Tendsto (fun k => x' k i) atTop (𝓝 (x i))) (hy : ∀ i, Tendsto (fun k => y' k i) atTop (𝓝 (y i))) (hz : ∀ i, Tendsto (fun k => z' k i) atTop (𝓝 (z i))) (hv : ∀ i, Tendsto (fun k => v' k i) atTop (𝓝 (v i)))
    (hvar : VariogramsConverge γ' γ)
    (han : AnisoConverges (fun k => effAniso (vm' k) (an' k)) (effAniso args.variogramModel args.aniso))
    (hpl : Tendsto p' atTop (𝓝 p)) (hne : args.exactValues = .bool true → ∀ i, ok3Distance args p (x i, y i, z i) ≠ 1 / 10 ^ 10) :
    ∃ (est var : ℝ) (est' var' : ℕ → ℝ), r.z[j]? = some (some est) ∧ r.ss[j]? = some (some var) ∧
      (∀ k, (r' k).z[j' k]? = some (some (est' k)) ∧ (r' k).ss[j' k]? = some (some (var' k))) ∧
      Tendsto est' atTop (𝓝 est) ∧ Tendsto var' atTop (𝓝 var) := by
  obtain ⟨exact, hex⟩ : ∃ b, args.exactValues = .bool b := by
    obtain ⟨-, he, -⟩ := OK3D.create_fields h
    exact ⟨_, he⟩
  obtain ⟨hreg, ⟨w, μ, e⟩, hu⟩ := C47_unique_3d h hA (fun k e => by simp [hn] at e) hn hp hγ hex hr hq hm
  have all := fun k => C47_unique_3d (h' k) hA (fun _ e => by simp [hn' k] at e) (hn' k) hp (hγ' k) hex (hr' k) (hq' k) (hm' k)
  choose w' μ' e' using fun k => (all k).2.1
  obtain ⟨t1, t2⟩ := answers_tendsto hreg (fun k => (all k).1) e e'
    (semivar_tendsto hvar (fun k _ _ => Real.sqrt_nonneg _) (fun _ _ => Real.sqrt_nonneg _) fun i i' => distance3_tendsto han ((hx i).prodMk_nhds ((hy i).prodMk_nhds (hz i))) ((hx i').prodMk_nhds ((hy i').prodMk_nhds (hz i'))))
    (fun l => l.elim0) (semivarTo_tendsto hvar (exact := exact) (fun k _ => Real.sqrt_nonneg _) (fun _ => Real.sqrt_nonneg _) (fun i => distance3_tendsto han hpl ((hx i).prodMk_nhds ((hy i).prodMk_nhds (hz i))))
      fun he => hne (by rw [hex, he])) (fun l => l.elim0) hv
  exact ⟨_, _, _, _, (hu w μ e).1, (hu w μ e).2, fun k => (all k).2.2 (w' k) (μ' k) (e' k), t1, t2⟩

/-- The entry of a result is what the unique solution of the kriging system gives. -/
def AnswersTo {n : ℕ} (G : Fin n → Fin n → ℝ) (g z : Fin n → ℝ) (rz rs : Option (Option ℝ)) (L : ℕ) (F : Fin L → Fin n → ℝ)
    (f : Fin L → ℝ) : Prop :=
  Regular G F ∧ (∃ w ν μ, KrigingEqs G F g f 1 w ν μ) ∧ ∀ w ν μ, KrigingEqs G F g f 1 w ν μ →
    rz = some (some (estimate w z)) ∧ rs = some (some (krigingVariance g f w ν μ))

theorem canonical {n L L₀ : ℕ} {F : Fin L → Fin n → ℝ} {f : Fin L → ℝ} {T : Fin n → List ℝ} {t : List ℝ}
    (hF : ∀ i, List.ofFn (fun l => F l i) = T i) (hf : List.ofFn f = t) (hL : t.length = L₀)
    {C : (L : ℕ) → (Fin L → Fin n → ℝ) → (Fin L → ℝ) → Prop} (h : C L F f) :
    C L₀ (fun l i => (T i).getD l 0) (fun l => t.getD l 0) := by
  subst hf
  obtain rfl : L = L₀ := by simpa using hL
  have h1 : F = fun (l : Fin L) i => (T i).getD l 0 := by
    funext l i
    rw [← hF i]
    simp
  have h2 : f = fun l : Fin L => (List.ofFn f).getD l 0 := by
    funext l
    simp
  rw [← h1, ← h2]
  exact h

theorem UK.adjustPoint_tendsto {n : ℕ} {env : Env} {x y z : Fin n → ℝ} {args : UKArgs} {s : UK n}
    (h : UK.create env x y z args = .ok s) {x' y' z' : ℕ → Fin n → ℝ} {args' : ℕ → UKArgs} {s' : ℕ → UK n}
    (h' : ∀ k, UK.create env (x' k) (y' k) (z' k) (args' k) = .ok (s' k))
    (hx : ∀ i, Tendsto (fun k => x' k i) atTop (𝓝 (x i))) (hy : ∀ i, Tendsto (fun k => y' k i) atTop (𝓝 (y i)))
    (hsc : Tendsto (fun k => effScaling (args' k).variogramModel (args' k).anisotropyScaling) atTop
      (𝓝 (effScaling args.variogramModel args.anisotropyScaling)))
    (han : Tendsto (fun k => effAngle (args' k).variogramModel (args' k).anisotropyAngle) atTop
      (𝓝 (effAngle args.variogramModel args.anisotropyAngle)))
    {q' : ℕ → ℝ × ℝ} {q : ℝ × ℝ} (hq : Tendsto q' atTop (𝓝 q)) (c : Fin 2) :
    Tendsto (fun k => (s' k).adjustPoint (q' k) c) atTop (𝓝 (s.adjustPoint q c)) := by
  have cx := midrange_tendsto hx (fun k => (UK.create_center (h' k)).1) (UK.create_center h).1
  have cy := midrange_tendsto hy (fun k => (UK.create_center (h' k)).2) (UK.create_center h).2
  unfold UK.adjustPoint
  simp only [(UK.create_aniso h).1, (UK.create_aniso h).2, (UK.create_aniso (h' _)).1, (UK.create_aniso (h' _)).2]
  have hc : Continuous fun t : (ℝ × ℝ) × (ℝ × ℝ) × ℝ × ℝ => adjust2 ![t.1.1, t.1.2] t.2.1.1 t.2.1.2 ![t.2.2.1, t.2.2.2] c := by
    unfold adjust2
    fin_cases c <;> simp [dotProduct, Fin.sum_univ_two] <;> fun_prop
  have h2 := (hc.tendsto ((s.XCENTER, s.YCENTER), (_, _), q)).comp ((cx.prodMk_nhds cy).prodMk_nhds ((hsc.prodMk_nhds han).prodMk_nhds hq))
  simpa only [Function.comp_def] using h2

theorem UK3D.adjustPoint_tendsto {n : ℕ} {env : Env} {x y z v : Fin n → ℝ} {args : UK3DArgs} {s : UK3D n}
    (h : UK3D.create env x y z v args = .ok s) {x' y' z' v' : ℕ → Fin n → ℝ} {args' : ℕ → UK3DArgs} {s' : ℕ → UK3D n}
    (h' : ∀ k, UK3D.create env (x' k) (y' k) (z' k) (v' k) (args' k) = .ok (s' k))
    (hx : ∀ i, Tendsto (fun k => x' k i) atTop (𝓝 (x i))) (hy : ∀ i, Tendsto (fun k => y' k i) atTop (𝓝 (y i)))
    (hz : ∀ i, Tendsto (fun k => z' k i) atTop (𝓝 (z i)))
    (han : AnisoConverges (fun k => effAniso (args' k).variogramModel (args' k).aniso) (effAniso args.variogramModel args.aniso))
    {q' : ℕ → ℝ × ℝ × ℝ} {q : ℝ × ℝ × ℝ} (hq : Tendsto q' atTop (𝓝 q)) (c : Fin 3) :
    Tendsto (fun k => (s' k).adjustPoint (q' k) c) atTop (𝓝 (s.adjustPoint q c)) := by
  have cx := midrange_tendsto hx (fun k => (UK3D.create_center (h' k)).1) (UK3D.create_center h).1
  have cy := midrange_tendsto hy (fun k => (UK3D.create_center (h' k)).2.1) (UK3D.create_center h).2.1
  have cz := midrange_tendsto hz (fun k => (UK3D.create_center (h' k)).2.2) (UK3D.create_center h).2.2
  unfold UK3D.adjustPoint adjustPoint3
  simp only [UK3D.create_aniso h, UK3D.create_aniso (h' _)]
  have hc : Continuous fun t : (ℝ × ℝ × ℝ) × ((ℝ × ℝ) × ℝ × ℝ × ℝ) × ℝ × ℝ × ℝ =>
      adjust3 ![t.1.1, t.1.2.1, t.1.2.2] ![t.2.1.1.1, t.2.1.1.2] ![t.2.1.2.1, t.2.1.2.2.1, t.2.1.2.2.2]
        ![t.2.2.1, t.2.2.2.1, t.2.2.2.2] c := by
    unfold adjust3
    fin_cases c <;> simp [dotProduct, Fin.sum_univ_three] <;> fun_prop
  have h2 := (hc.tendsto ((s.XCENTER, s.YCENTER, s.ZCENTER), ((_, _), _, _, _), q)).comp
    ((cx.prodMk_nhds (cy.prodMk_nhds cz)).prodMk_nhds (han.all.prodMk_nhds hq))
  simpa only [Function.comp_def] using h2

theorem drift2_converges {args : UKArgs} {adj' : ℕ → ℝ × ℝ → Fin 2 → ℝ} {adj : ℝ × ℝ → Fin 2 → ℝ}
    (hadj : ∀ {q' : ℕ → ℝ × ℝ} {q : ℝ × ℝ}, Tendsto q' atTop (𝓝 q) → ∀ c, Tendsto (fun k => adj' k (q' k) c) atTop (𝓝 (adj q c)))
    {p' : ℕ → ℝ × ℝ} {p : ℝ × ℝ} (hp : Tendsto p' atTop (𝓝 p)) (hs : SmoothDrift args p)
    (hd : ∀ q, euclid (adj p) (adj q) = ukDistance args p q)
    (hin : "external_Z" ∈ args.driftTerms → (∃ v, externalAt args p = .ok v) ∧ ∀ k, ∃ v, externalAt args (p' k) = .ok v)
    (sv' : ℕ → List ℝ) (sv : List ℝ) :
    ListConverges (fun k => driftTerms2 args (adj' k) (sv' k) (p' k)) (driftTerms2 args adj sv p) := by
  unfold driftTerms2
  refine .append (.append (.append (.append (.when fun _ => ?_) (.when fun hw => ?_)) (.when fun he => ?_))
    (.when fun hc => absurd hc hs.noSpec)) (.when fun hf => ?_)
  · exact .cons (hadj hp 0) (.cons (hadj hp 1) .nil)
  · refine .map _ fun w hwm => ?_
    have hdist : Tendsto (fun k => euclid (adj' k (p' k)) (adj' k (w.1, w.2.1))) atTop (𝓝 (euclid (adj p) (adj (w.1, w.2.1)))) := by
      unfold euclid
      simp only [Fin.sum_univ_two]
      have hw0 := hadj (tendsto_const_nhds (x := ((w.1, w.2.1) : ℝ × ℝ))) 
      exact (Real.continuous_sqrt.tendsto _).comp ((((hadj hp 0).sub (hw0 0)).pow 2).add (((hadj hp 1).sub (hw0 1)).pow 2))
    have hne : euclid (adj p) (adj (w.1, w.2.1)) ≠ 0 := by rw [hd]; exact hs.wells hw w hwm
    refine Tendsto.const_mul _ ?_
    unfold logDistance
    rw [if_neg hne]
    refine (hdist.log hne).congr' ?_
    filter_upwards [hdist.eventually_ne hne] with k hk
    rw [if_neg hk]
  · obtain ⟨xs, ys, node, hg⟩ := hs.external he
    refine .cons ?_ .nil
    have := C54_external_continuous hg p (hin he).1
    exact this.tendsto.comp (tendsto_nhdsWithin_iff.2 ⟨hp, Eventually.of_forall (hin he).2⟩)
  · split
    · next fs hfs =>
      refine .map _ fun f hfm => ?_
      have h2 := ((hs.functions hf fs hfs f hfm).tendsto (adj p 0, adj p 1)).comp ((hadj hp 0).prodMk_nhds (hadj hp 1))
      simpa only [Function.comp_def] using h2
    · exact .nil

theorem drift3_converges {args : UK3DArgs} {adj' : ℕ → ℝ × ℝ × ℝ → Fin 3 → ℝ} {adj : ℝ × ℝ × ℝ → Fin 3 → ℝ}
    (hadj : ∀ {q' : ℕ → ℝ × ℝ × ℝ} {q : ℝ × ℝ × ℝ}, Tendsto q' atTop (𝓝 q) → ∀ c, Tendsto (fun k => adj' k (q' k) c) atTop (𝓝 (adj q c)))
    {p' : ℕ → ℝ × ℝ × ℝ} {p : ℝ × ℝ × ℝ} (hp : Tendsto p' atTop (𝓝 p)) (hs : SmoothDrift3 args)
    (sv' : ℕ → List ℝ) (sv : List ℝ) :
    ListConverges (fun k => driftTerms3 args (adj' k) (sv' k) (p' k)) (driftTerms3 args adj sv p) := by
  unfold driftTerms3
  refine .append (.append (.when fun _ => ?_) (.when fun hc => absurd hc hs.noSpec)) (.when fun hf => ?_)
  · exact .cons (hadj hp 0) (.cons (hadj hp 1) (.cons (hadj hp 2) .nil))
  · split
    · next fs hfs =>
      refine .map _ fun f hfm => ?_
      have h2 := ((hs.functions hf fs hfs f hfm).tendsto (adj p 0, adj p 1, adj p 2)).comp
        ((hadj hp 0).prodMk_nhds ((hadj hp 1).prodMk_nhds (hadj hp 2)))
      simpa only [Function.comp_def] using h2
    · exact .nil

/-- `UniversalKriging`, no pseudo inverse, drift terms that vary continuously. -/
theorem C64_stable_uk {n : ℕ} {env : Env} {x y z : Fin n → ℝ} {args : UKArgs} {s : UK n}
    (h : UK.create env x y z args = .ok s) (hp : args.pseudoInv = false) {γ : ℝ → ℝ} (hγ : s.variogramFunction s.params = .ok γ)
    -- the same with other data, variogram and anisotropy
    {x' y' z' : ℕ → Fin n → ℝ} (vm' : ℕ → ModelArg) (ps' : ℕ → ParamArg) (fn' : ℕ → FunArg) (sc' an' : ℕ → ℝ) {s' : ℕ → UK n}
    (h' : ∀ k, UK.create env (x' k) (y' k) (z' k) { args with variogramModel := vm' k, params := ps' k, variogramFunction := fn' k, anisotropyScaling := sc' k, anisotropyAngle := an' k } = .ok (s' k))
    {γ' : ℕ → ℝ → ℝ} (hγ' : ∀ k, (s' k).variogramFunction (s' k).params = .ok (γ' k))
    -- queries
    {ea : UKExecArgs} {ea' : ℕ → UKExecArgs}
    {r : ExecResult} {r' : ℕ → ExecResult} (hr : s.execute ea = .ok r) (hr' : ∀ k, (s' k).execute (ea' k) = .ok (r' k))
    {j : ℕ} {j' : ℕ → ℕ} {p : ℝ × ℝ} {p' : ℕ → ℝ × ℝ} (hq : queryAt ea.toExec j = some p) (hq' : ∀ k, queryAt (ea' k).toExec (j' k) = some (p' k))
    (hm : maskedAt ea.toExec j = false) (hm' : ∀ k, maskedAt (ea' k).toExec (j' k) = false)
    -- convergence
    (hx : ∀ i, Tendsto (fun k => x' k i) atTop (𝓝 (x i))) (hy : ∀ i, Tendsto (fun k => y' k i) atTop (𝓝 (y i))) (hz : ∀ i, Tendsto (fun k => z' k i) atTop (𝓝 (z i)))
    (hvar : VariogramsConverge γ' γ)
    (hsc : Tendsto (fun k => effScaling (vm' k) (sc' k)) atTop (𝓝 (effScaling args.variogramModel args.anisotropyScaling)))
    (han : Tendsto (fun k => effAngle (vm' k) (an' k)) atTop (𝓝 (effAngle args.variogramModel args.anisotropyAngle)))
    (hpl : Tendsto p' atTop (𝓝 p)) (hne : args.exactValues = .bool true → ∀ i, ukDistance args p (x i, y i) ≠ 1 / 10 ^ 10)
    (hsm : SmoothDrift args p) (hsm' : ∀ i, SmoothDrift args (x i, y i)) :
    ∃ (est var : ℝ) (est' var' : ℕ → ℝ), r.z[j]? = some (some est) ∧ r.ss[j]? = some (some var) ∧
      (∀ k, (r' k).z[j' k]? = some (some (est' k)) ∧ (r' k).ss[j' k]? = some (some (var' k))) ∧
      Tendsto est' atTop (𝓝 est) ∧ Tendsto var' atTop (𝓝 var) := by
  have hadj : ∀ {q' : ℕ → ℝ × ℝ} {q : ℝ × ℝ}, Tendsto q' atTop (𝓝 q) → ∀ c, Tendsto (fun k => (s' k).adjustPoint (q' k) c) atTop
      (𝓝 (s.adjustPoint q c)) := fun hq c => UK.adjustPoint_tendsto h h' hx hy hsc han hq c
  have hd : ∀ p q, euclid (s.adjustPoint p) (s.adjustPoint q) = ukDistance args p q := fun p q => by
    obtain ⟨a1, a2⟩ := UK.create_aniso h
    unfold ukDistance
    rw [← a1, ← a2]
    exact adjust2_euclid ![s.XCENTER, s.YCENTER] s.anisotropyScaling s.anisotropyAngle p q
  have okq : "external_Z" ∈ args.driftTerms → (∃ v, externalAt args p = .ok v) ∧ ∀ k, ∃ v, externalAt args (p' k) = .ok v := fun ht =>
    ⟨(UK.extP_ok_iff h p).1 (((UK.create_pw h ea).ok_iff.1 ⟨r, hr⟩).2 j p hq (.inl hm)).1 ht,
      fun k => (UK.extP_ok_iff (h' k) (p' k)).1 (((UK.create_pw (h' k) (ea' k)).ok_iff.1 ⟨r' k, hr' k⟩).2 (j' k) (p' k) (hq' k) (.inl (hm' k))).1 ht⟩
  have okd : ∀ i, "external_Z" ∈ args.driftTerms → (∃ v, externalAt args (x i, y i) = .ok v) ∧
      ∀ k, ∃ v, externalAt args (x' k i, y' k i) = .ok v := fun i ht => by
    refine ⟨?_, fun k => ?_⟩
    · cases hv : externalAt args (x i, y i) with
      | ok v => exact ⟨v, rfl⟩
      | error er => exact absurd h (C23_create_refused ht hv s)
    · cases hv : externalAt args (x' k i, y' k i) with
      | ok v => exact ⟨v, rfl⟩
      | error er => exact absurd (h' k) (C23_create_refused (args := { args with variogramModel := vm' k, params := ps' k, variogramFunction := fn' k, anisotropyScaling := sc' k, anisotropyAngle := an' k }) ht hv (s' k))
  obtain ⟨exact, hex⟩ : ∃ b, args.exactValues = .bool b := by
    obtain ⟨-, he, -⟩ := UK.create_fields h
    exact ⟨_, he⟩
  have hsp : "specified" ∉ args.driftTerms := hsm.noSpec
  have cq := fun sv' sv => drift2_converges (adj := s.adjustPoint) (adj' := fun k => (s' k).adjustPoint) hadj hpl hsm (hd p) okq sv' sv
  have cd := fun i sv' sv => drift2_converges (adj := s.adjustPoint) (adj' := fun k => (s' k).adjustPoint) hadj ((hx i).prodMk_nhds (hy i)) (hsm' i) (hd _) (okd i) sv' sv
  obtain ⟨L, F, f, hF, hf, hall⟩ := C47_unique_uk h hp (fun hc => absurd hc hsp) hγ hex hr hq hm
  obtain ⟨hreg, ⟨w, ν, μ, e⟩, hu⟩ := canonical (C := AnswersTo (semivar γ fun i k => ukDistance args (x i, y i) (x k, y k)) (semivarTo exact γ fun i => ukDistance args p (x i, y i)) z r.z[j]? r.ss[j]?) hF hf rfl hall
  have all : ∀ k, AnswersTo (semivar (γ' k) fun i l => ukDistance { args with variogramModel := vm' k, params := ps' k, variogramFunction := fn' k, anisotropyScaling := sc' k, anisotropyAngle := an' k } (x' k i, y' k i) (x' k l, y' k l)) (semivarTo exact (γ' k) fun i => ukDistance { args with variogramModel := vm' k, params := ps' k, variogramFunction := fn' k, anisotropyScaling := sc' k, anisotropyAngle := an' k } (p' k) (x' k i, y' k i)) (z' k) (r' k).z[j' k]? (r' k).ss[j' k]? (driftTerms2 args s.adjustPoint (specAtQuery ea j) p).length
      (fun l i => ((fun i : Fin n => driftTerms2 args (s' k).adjustPoint (specAtDatum args.specifiedDrift i) (x' k i, y' k i)) i).getD l 0) (fun l => (driftTerms2 args (s' k).adjustPoint (specAtQuery (ea' k) (j' k)) (p' k)).getD l 0) := fun k => by
    obtain ⟨L', F', f', hF', hf', hall'⟩ := C47_unique_uk (h' k) hp (fun hc => absurd hc hsp) (hγ' k) hex (hr' k) (hq' k) (hm' k)
    exact canonical (C := AnswersTo (semivar (γ' k) fun i l => ukDistance { args with variogramModel := vm' k, params := ps' k, variogramFunction := fn' k, anisotropyScaling := sc' k, anisotropyAngle := an' k } (x' k i, y' k i) (x' k l, y' k l)) (semivarTo exact (γ' k) fun i => ukDistance { args with variogramModel := vm' k, params := ps' k, variogramFunction := fn' k, anisotropyScaling := sc' k, anisotropyAngle := an' k } (p' k) (x' k i, y' k i)) (z' k) (r' k).z[j' k]? (r' k).ss[j' k]?) hF' hf' ((cq (fun k => specAtQuery (ea' k) (j' k)) (specAtQuery ea j)).len k) hall'
  choose w' ν' μ' e' using fun k => (all k).2.1
  obtain ⟨t1, t2⟩ := answers_tendsto hreg (fun k => (all k).1) e e'
    (semivar_tendsto hvar (fun k _ _ => Real.sqrt_nonneg _) (fun _ _ => Real.sqrt_nonneg _) fun i i' => anisoDist2_tendsto hsc han ((hx i).prodMk_nhds (hy i)) ((hx i').prodMk_nhds (hy i')))
    (fun l i => (cd i _ _).lim l) (semivarTo_tendsto hvar (exact := exact) (fun k _ => Real.sqrt_nonneg _) (fun _ => Real.sqrt_nonneg _) (fun i => anisoDist2_tendsto hsc han hpl ((hx i).prodMk_nhds (hy i)))
      fun he => hne (by rw [hex, he])) (fun l => (cq _ _).lim l) hz
  exact ⟨_, _, _, _, (hu w ν μ e).1, (hu w ν μ e).2, fun k => (all k).2.2 (w' k) (ν' k) (μ' k) (e' k), t1, t2⟩

/-- `UniversalKriging3D`, no pseudo inverse, drift terms that vary continuously. -/
theorem C64_stable_uk3d {n : ℕ} {env : Env} {x y z v : Fin n → ℝ} {args : UK3DArgs} {s : UK3D n}
    (h : UK3D.create env x y z v args = .ok s) (hp : args.pseudoInv = false) {γ : ℝ → ℝ} (hγ : s.variogramFunction s.params = .ok γ)
    -- the same with other data, variogram and anisotropy
    {x' y' z' v' : ℕ → Fin n → ℝ} (vm' : ℕ → ModelArg) (ps' : ℕ → ParamArg) (fn' : ℕ → FunArg) (an' : ℕ → Aniso3) {s' : ℕ → UK3D n}
    (h' : ∀ k, UK3D.create env (x' k) (y' k) (z' k) (v' k) { args with variogramModel := vm' k, params := ps' k, variogramFunction := fn' k, aniso := an' k } = .ok (s' k))
    {γ' : ℕ → ℝ → ℝ} (hγ' : ∀ k, (s' k).variogramFunction (s' k).params = .ok (γ' k))
    -- queries
    {ea : UK3DExecArgs} {ea' : ℕ → UK3DExecArgs}
    {r : ExecResult} {r' : ℕ → ExecResult} (hr : s.execute ea = .ok r) (hr' : ∀ k, (s' k).execute (ea' k) = .ok (r' k))
    {j : ℕ} {j' : ℕ → ℕ} {p : ℝ × ℝ × ℝ} {p' : ℕ → ℝ × ℝ × ℝ} (hq : queryAt3 ea.toExec j = some p) (hq' : ∀ k, queryAt3 (ea' k).toExec (j' k) = some (p' k))
    (hm : maskedAt3 ea.toExec j = false) (hm' : ∀ k, maskedAt3 (ea' k).toExec (j' k) = false)
    -- convergence
    (hx : ∀ i, Tendsto (fun k => x' k i) atTop (𝓝 (x i))) (hy : ∀ i, Tendsto (fun k => y' k i) atTop (𝓝 (y i))) (hz : ∀ i, Tendsto (fun k => z' k i) atTop (𝓝 (z i))) (hv : ∀ i, Tendsto (fun k => v' k i) atTop (𝓝 (v i)))
    (hvar : VariogramsConverge γ' γ)
    (han : AnisoConverges (fun k => effAniso (vm' k) (an' k)) (effAniso args.variogramModel args.aniso))
    (hpl : Tendsto p' atTop (𝓝 p)) (hne : args.exactValues = .bool true → ∀ i, uk3Distance args p (x i, y i, z i) ≠ 1 / 10 ^ 10)
    (hsm : SmoothDrift3 args) :
    ∃ (est var : ℝ) (est' var' : ℕ → ℝ), r.z[j]? = some (some est) ∧ r.ss[j]? = some (some var) ∧
      (∀ k, (r' k).z[j' k]? = some (some (est' k)) ∧ (r' k).ss[j' k]? = some (some (var' k))) ∧
      Tendsto est' atTop (𝓝 est) ∧ Tendsto var' atTop (𝓝 var) := by
  have hadj : ∀ {q' : ℕ → ℝ × ℝ × ℝ} {q : ℝ × ℝ × ℝ}, Tendsto q' atTop (𝓝 q) → ∀ c, Tendsto (fun k => (s' k).adjustPoint (q' k) c) atTop
      (𝓝 (s.adjustPoint q c)) := fun hq c => UK3D.adjustPoint_tendsto h h' hx hy hz han hq c
  obtain ⟨exact, hex⟩ : ∃ b, args.exactValues = .bool b := by
    obtain ⟨-, he, -⟩ := UK3D.create_fields h
    exact ⟨_, he⟩
  have hsp : "specified" ∉ args.driftTerms := hsm.noSpec
  have cq := fun sv' sv => drift3_converges (adj := s.adjustPoint) (adj' := fun k => (s' k).adjustPoint) hadj hpl hsm sv' sv
  have cd := fun i sv' sv => drift3_converges (adj := s.adjustPoint) (adj' := fun k => (s' k).adjustPoint) hadj ((hx i).prodMk_nhds ((hy i).prodMk_nhds (hz i))) hsm sv' sv
  obtain ⟨L, F, f, hF, hf, hall⟩ := C47_unique_uk3d h hp (fun hc => absurd hc hsp) hγ hex hr hq hm
  obtain ⟨hreg, ⟨w, ν, μ, e⟩, hu⟩ := canonical (C := AnswersTo (semivar γ fun i k => uk3Distance args (x i, y i, z i) (x k, y k, z k)) (semivarTo exact γ fun i => uk3Distance args p (x i, y i, z i)) v r.z[j]? r.ss[j]?) hF hf rfl hall
  have all : ∀ k, AnswersTo (semivar (γ' k) fun i l => uk3Distance { args with variogramModel := vm' k, params := ps' k, variogramFunction := fn' k, aniso := an' k } (x' k i, y' k i, z' k i) (x' k l, y' k l, z' k l)) (semivarTo exact (γ' k) fun i => uk3Distance { args with variogramModel := vm' k, params := ps' k, variogramFunction := fn' k, aniso := an' k } (p' k) (x' k i, y' k i, z' k i)) (v' k) (r' k).z[j' k]? (r' k).ss[j' k]? (driftTerms3 args s.adjustPoint (specAtQuery3 ea j) p).length
      (fun l i => ((fun i : Fin n => driftTerms3 args (s' k).adjustPoint (specAtDatum args.specifiedDrift i) (x' k i, y' k i, z' k i)) i).getD l 0) (fun l => (driftTerms3 args (s' k).adjustPoint (specAtQuery3 (ea' k) (j' k)) (p' k)).getD l 0) := fun k => by
    obtain ⟨L', F', f', hF', hf', hall'⟩ := C47_unique_uk3d (h' k) hp (fun hc => absurd hc hsp) (hγ' k) hex (hr' k) (hq' k) (hm' k)
    exact canonical (C := AnswersTo (semivar (γ' k) fun i l => uk3Distance { args with variogramModel := vm' k, params := ps' k, variogramFunction := fn' k, aniso := an' k } (x' k i, y' k i, z' k i) (x' k l, y' k l, z' k l)) (semivarTo exact (γ' k) fun i => uk3Distance { args with variogramModel := vm' k, params := ps' k, variogramFunction := fn' k, aniso := an' k } (p' k) (x' k i, y' k i, z' k i)) (v' k) (r' k).z[j' k]? (r' k).ss[j' k]?) hF' hf' ((cq (fun k => specAtQuery3 (ea' k) (j' k)) (specAtQuery3 ea j)).len k) hall'
  choose w' ν' μ' e' using fun k => (all k).2.1
  obtain ⟨t1, t2⟩ := answers_tendsto hreg (fun k => (all k).1) e e'
    (semivar_tendsto hvar (fun k _ _ => Real.sqrt_nonneg _) (fun _ _ => Real.sqrt_nonneg _) fun i i' => distance3_tendsto han ((hx i).prodMk_nhds ((hy i).prodMk_nhds (hz i))) ((hx i').prodMk_nhds ((hy i').prodMk_nhds (hz i'))))
    (fun l i => (cd i _ _).lim l) (semivarTo_tendsto hvar (exact := exact) (fun k _ => Real.sqrt_nonneg _) (fun _ => Real.sqrt_nonneg _) (fun i => distance3_tendsto han hpl ((hx i).prodMk_nhds ((hy i).prodMk_nhds (hz i))))
      fun he => hne (by rw [hex, he])) (fun l => (cq _ _).lim l) hv
  exact ⟨_, _, _, _, (hu w ν μ e).1, (hu w ν μ e).2, fun k => (all k).2.2 (w' k) (ν' k) (μ' k) (e' k), t1, t2⟩

end
end PyKrige
