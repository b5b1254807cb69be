import Verif.Spec.Inexact
import Verif.Lemmas.Py
import Verif.Lemmas.OKExec
import Mathlib.Topology.Instances.Matrix
import Mathlib.Topology.Algebra.Order.LiminfLimsup
import Mathlib.Topology.MetricSpace.Pseudo.Pi

/-! Limits of computations that may raise. -/

namespace PyKrige
noncomputable section
open Matrix Spec Filter Topology

/-- If the exact computation returns, the others return in the end, with results that approach it in the sense of `R`. -/
def PyLim {α β : Type} (R : (ℕ → β) → α → Prop) (f : ℕ → Py β) (x : Py α) : Prop :=
  ∀ a, x = .ok a → ∃ g, (∀ᶠ m in atTop, f m = .ok (g m)) ∧ R g a

theorem PyLim.ok {α β : Type} {R : (ℕ → β) → α → Prop} {g : ℕ → β} {a : α} (h : R g a) :
    PyLim R (fun m => .ok (g m)) (.ok a) := fun b hb => by
  obtain rfl := Except.ok.inj hb
  exact ⟨g, .of_forall fun _ => rfl, h⟩

theorem PyLim.error {α β : Type} {R : (ℕ → β) → α → Prop} {f : ℕ → Py β} {e : PyErr} : PyLim R f (.error e) :=
  fun _ hb => nomatch hb

theorem PyLim.bind {α β γ δ : Type} {R : (ℕ → β) → α → Prop} {S : (ℕ → δ) → γ → Prop} {f : ℕ → Py β} {x : Py α}
    {F : ℕ → β → Py δ} {k : α → Py γ} (h : PyLim R f x)
    (hk : ∀ g a, x = .ok a → R g a → PyLim S (fun m => F m (g m)) (k a)) :
    PyLim S (fun m => f m >>= F m) (x >>= k) := by
  intro c hc
  obtain ⟨a, ha, hc⟩ := py_bind_eq_ok.1 hc
  obtain ⟨g, hg, hR⟩ := h a ha
  obtain ⟨d, hd, hS⟩ := hk g a ha hR c hc
  exact ⟨d, (hg.and hd).mono fun m hm => by beta_reduce; rw [hm.1]; exact hm.2, hS⟩

theorem PyLim.same {α γ δ : Type} {S : (ℕ → δ) → γ → Prop} {x : Py α}
    {F : ℕ → α → Py δ} {k : α → Py γ} (hk : ∀ a, x = .ok a → PyLim S (fun m => F m a) (k a)) :
    PyLim S (fun m => x >>= F m) (x >>= k) := by
  intro c hc
  obtain ⟨a, ha, hc⟩ := py_bind_eq_ok.1 hc
  obtain ⟨d, hd, hS⟩ := hk a ha c hc
  exact ⟨d, hd.mono fun m hm => by beta_reduce; rw [ha]; exact hm, hS⟩

/-- Lists of a fixed length whose elements approach those of `l`. -/
def ListLim {α β : Type} (S : (ℕ → β) → α → Prop) (g : ℕ → List β) (l : List α) : Prop :=
  ∃ hs : List (ℕ → β), List.Forall₂ S hs l ∧ ∀ m, g m = hs.map fun h => h m

theorem PyLim.mapM {α β γ : Type} {S : (ℕ → β) → γ → Prop} {F : ℕ → α → Py β} {k : α → Py γ} {l : List α}
    (h : ∀ a ∈ l, PyLim S (fun m => F m a) (k a)) : PyLim (ListLim S) (fun m => l.mapM (F m)) (l.mapM k) := by
  induction l with
  | nil =>
    intro r hr
    obtain rfl : [] = r := Except.ok.inj hr
    exact ⟨fun _ => [], .of_forall fun _ => rfl, [], .nil, fun _ => rfl⟩
  | cons a l ih =>
    simp only [List.mapM_cons]
    refine (h a (by simp)).bind fun g c _ hg => ?_
    refine (ih fun b hb => h b (by simp [hb])).bind fun gs cs _ ⟨hs, hh, he⟩ => ?_
    exact PyLim.ok ⟨g :: hs, .cons hg hh, fun m => by beta_reduce; rw [he m]; rfl⟩

theorem ListLim.map {α β γ δ : Type} {S : (ℕ → β) → α → Prop} {T : (ℕ → δ) → γ → Prop} {g : ℕ → List β} {l : List α}
    {p : β → δ} {q : α → γ} (h : ListLim S g l) (hT : ∀ h a, S h a → T (fun m => p (h m)) (q a)) :
    ListLim T (fun m => (g m).map p) (l.map q) := by
  obtain ⟨hs, hh, he⟩ := h
  refine ⟨hs.map fun h m => p (h m), ?_, fun m => ?_⟩
  · clear he
    induction hh with
    | nil => exact .nil
    | cons h1 _ ih => exact .cons (hT _ _ h1) ih
  · beta_reduce
    rw [he m, List.map_map, List.map_map]
    rfl

theorem ListLim.ofMap {α β γ : Type} {S : (ℕ → β) → γ → Prop} {p : ℕ → α → β} {q : α → γ} (l : List α)
    (h : ∀ a ∈ l, S (fun m => p m a) (q a)) : ListLim S (fun m => l.map (p m)) (l.map q) := by
  refine ⟨l.map fun a m => p m a, ?_, fun m => by beta_reduce; rw [List.map_map]; rfl⟩
  induction l with
  | nil => exact .nil
  | cons a l ih => exact .cons (h a (by simp)) (ih fun b hb => h b (by simp [hb]))

/-- Pairs that approach a pair. -/
abbrev To {X : Type} [TopologicalSpace X] (h : ℕ → X) (p : X) : Prop := Tendsto h atTop (𝓝 p)

/-! ### The routines -/

theorem pyLim_of {X : Type} [PseudoMetricSpace X] {f : ℕ → Py X} {a : X}
    (h : ∀ ε > 0, ∃ M, ∀ m ≥ M, ∃ b, f m = .ok b ∧ dist b a ≤ ε) : PyLim To f (.ok a) := by
  intro a' ha
  obtain rfl := Except.ok.inj ha
  refine ⟨fun m => match f m with | .ok b => b | .error _ => a, ?_, ?_⟩
  · obtain ⟨M, hM⟩ := h 1 one_pos
    filter_upwards [eventually_ge_atTop M] with m hm
    obtain ⟨b, hb, -⟩ := hM m hm
    simp only [hb]
  · refine Metric.tendsto_atTop.2 fun ε hε => ?_
    obtain ⟨M, hM⟩ := h (ε / 2) (by positivity)
    refine ⟨M, fun m hm => ?_⟩
    obtain ⟨b, hb, hd⟩ := hM m hm
    simp only [hb]
    linarith

/-- A matrix as a point of a metric space. -/
def asFun {k : ℕ} (A : Matrix (Fin k) (Fin k) ℝ) : Fin k → Fin k → ℝ := A

theorem pyLim_matrix {k : ℕ} {f : ℕ → Py (Matrix (Fin k) (Fin k) ℝ)} {A : Matrix (Fin k) (Fin k) ℝ}
    (h : ∀ ε > 0, ∃ M, ∀ m ≥ M, ∃ B, f m = .ok B ∧ ∀ i j, |B i j - A i j| ≤ ε) : PyLim To f (.ok A) := by
  refine pyLim_of (X := Fin k → Fin k → ℝ) (f := f) (a := A) fun ε hε => ?_
  obtain ⟨M, hM⟩ := h ε hε
  refine ⟨M, fun m hm => ?_⟩
  obtain ⟨B, hB, hd⟩ := hM m hm
  refine ⟨B, hB, (dist_pi_le_iff hε.le).2 fun i => (dist_pi_le_iff hε.le).2 fun j => ?_⟩
  rw [Real.dist_eq]
  exact hd i j

theorem pyLim_vector {k : ℕ} {f : ℕ → Py (Fin k → ℝ)} {x : Fin k → ℝ}
    (h : ∀ ε > 0, ∃ M, ∀ m ≥ M, ∃ y, f m = .ok y ∧ ∀ i, |y i - x i| ≤ ε) : PyLim To f (.ok x) := by
  refine pyLim_of fun ε hε => ?_
  obtain ⟨M, hM⟩ := h ε hε
  refine ⟨M, fun m hm => ?_⟩
  obtain ⟨y, hy, hd⟩ := hM m hm
  refine ⟨y, hy, (dist_pi_le_iff hε.le).2 fun i => ?_⟩
  rw [Real.dist_eq]
  exact hd i

variable {ar : ℕ → Arith} (ha : Accurate ar)
include ha

theorem Spec.Accurate.invertPython {N : ℕ} (p : Bool) (t : String) (A : Matrix (Fin N) (Fin N) ℝ) :
    PyLim To (fun m => (ar m).invertPython p t A) (PyKrige.invertPython p t A) := by
  unfold Arith.invertPython PyKrige.invertPython
  cases p with
  | true =>
    simp only [if_true]
    unfold P_INV
    by_cases h1 : t = "pinv"
    · simp only [h1, if_true]
      exact pyLim_matrix (ha.pinv A)
    · by_cases h2 : t = "pinvh"
      · simp only [h2, if_true]
        exact pyLim_matrix (ha.pinvh A)
      · simp only [h1, h2, if_false]
        exact PyLim.error
  | false =>
    simp only [Bool.false_eq_true, if_false]
    intro B hB
    exact pyLim_matrix (ha.inv A B hB) B rfl

theorem Spec.Accurate.invertC {N : ℕ} (p : Bool) (t : String) (A : Matrix (Fin N) (Fin N) ℝ) :
    PyLim To (fun m => (ar m).invertC p t A) (PyKrige.invertC p t A) := by
  unfold Arith.invertC PyKrige.invertC
  cases p with
  | true =>
    simp only [if_true]
    by_cases h1 : t = "pinv"
    · simp only [h1, if_true]
      exact pyLim_matrix (ha.pinv A)
    · by_cases h2 : t = "pinv2"
      · simp only [h2, if_true]
        exact PyLim.error
      · by_cases h3 : t = "pinvh"
        · simp [h3]
          exact pyLim_matrix (ha.pinvh A)
        · simp only [h1, h2, h3, if_false]
          exact PyLim.error
  | false =>
    simp only [Bool.false_eq_true, if_false]
    intro B hB
    exact pyLim_matrix (ha.inv A B hB) B rfl

theorem Spec.Accurate.solveLim {N : ℕ} (A : Matrix (Fin N) (Fin N) ℝ) (b : Fin N → ℝ) :
    PyLim To (fun m => (ar m).solve A b) (scipySolve A b) :=
  fun x hx => pyLim_vector (ha.solve A b x hx) x rfl

theorem Spec.Accurate.dgesvLim {N : ℕ} (A : Matrix (Fin N) (Fin N) ℝ) (b : Fin N → ℝ) :
    PyLim To (fun m => (ar m).dgesv A b) (PyKrige.dgesv A b) :=
  fun x hx => pyLim_vector (ha.dgesv A b x hx) x rfl

theorem Spec.Accurate.dotLim {k : ℕ} {x y : ℕ → Fin k → ℝ} {x₀ y₀ : Fin k → ℝ} (hx : To x x₀) (hy : To y y₀) :
    To (fun m => (ar m).dot (x m) (y m)) (∑ i, x₀ i * y₀ i) := by
  have h1 : To (fun m => ∑ i, x m i * y m i) (∑ i, x₀ i * y₀ i) :=
    tendsto_finsetSum _ fun i _ => ((tendsto_pi_nhds.1 hx) i).mul ((tendsto_pi_nhds.1 hy) i)
  have h2 : To (fun m => ∑ i, |x m i * y m i|) (∑ i, |x₀ i * y₀ i|) :=
    tendsto_finsetSum _ fun i _ => (((tendsto_pi_nhds.1 hx) i).mul ((tendsto_pi_nhds.1 hy) i)).abs
  have h5 : To (fun m => (ar m).dot (x m) (y m) - ∑ i, x m i * y m i) 0 := by
    refine Metric.tendsto_nhds.2 fun ε hε => ?_
    have hS : 0 ≤ ∑ i, |x₀ i * y₀ i| := Finset.sum_nonneg fun i _ => abs_nonneg _
    obtain ⟨M, hM⟩ := ha.dot k (ε / 2 / (∑ i, |x₀ i * y₀ i| + 1)) (by positivity)
    filter_upwards [eventually_ge_atTop M, h2.eventually_lt_const (lt_add_one _)] with m hm h3
    rw [Real.dist_eq, sub_zero]
    calc _ ≤ _ := hM m hm (x m) (y m)
      _ ≤ ε / 2 / (∑ i, |x₀ i * y₀ i| + 1) * (∑ i, |x₀ i * y₀ i| + 1) :=
          mul_le_mul_of_nonneg_left h3.le (by positivity)
      _ = ε / 2 := by field_simp
      _ < ε := by linarith
  have h6 := h5.add h1
  simpa using h6

theorem Spec.Accurate.mulVecLim {k : ℕ} {A : ℕ → Matrix (Fin k) (Fin k) ℝ} {A₀ : Matrix (Fin k) (Fin k) ℝ} {b : Fin k → ℝ}
    (hA : To A A₀) : To (fun m => (ar m).mulVec (A m) b) (A₀ *ᵥ b) := by
  refine tendsto_pi_nhds.2 fun i => ?_
  exact ha.dotLim ((tendsto_pi_nhds.1 hA) i) tendsto_const_nhds
omit ha

/-! ### Masked results -/

theorem forall₂_zipWith_mask {hs : List (ℕ → ℝ)} {l : List ℝ} {ε : ℝ} {m : ℕ} (mask : List Bool)
    (h : List.Forall₂ (fun h a => |h m - a| ≤ ε) hs l) :
    List.Forall₂ (EntryWithin ε) (List.zipWith (fun v b => if b then none else some v) (hs.map fun h => h m) mask)
      (List.zipWith (fun v b => if b then none else some v) l mask) := by
  induction h generalizing mask with
  | nil => exact .nil
  | cons h1 _ ih =>
    cases mask with
    | nil => exact .nil
    | cons b mask =>
      refine .cons ?_ (ih mask)
      cases b
      · exact .inr ⟨_, _, rfl, rfl, h1⟩
      · exact .inl ⟨rfl, rfl⟩

theorem applyMask_within {hs : List (ℕ → ℝ)} {l : List ℝ} {ε : ℝ} {m : ℕ} (st : String) (mask : List Bool)
    (h : List.Forall₂ (fun h a => |h m - a| ≤ ε) hs l) :
    List.Forall₂ (EntryWithin ε) (applyMask st mask (hs.map fun h => h m)) (applyMask st mask l) := by
  unfold applyMask
  split
  · exact forall₂_zipWith_mask mask h
  · induction h with
    | nil => exact .nil
    | cons h1 _ ih => exact .cons (.inr ⟨_, _, rfl, rfl, h1⟩) ih

theorem eventually_forall₂ {hs : List (ℕ → ℝ)} {l : List ℝ} (h : List.Forall₂ To hs l) {ε : ℝ} (hε : 0 < ε) :
    ∀ᶠ m in atTop, List.Forall₂ (fun h a => |h m - a| ≤ ε) hs l := by
  induction h with
  | nil => exact .of_forall fun _ => .nil
  | cons h1 _ ih =>
    filter_upwards [ih, Metric.tendsto_nhds.1 h1 ε hε] with m h2 h3
    exact .cons (by rw [Real.dist_eq] at h3; exact h3.le) h2

/-- Results and masks. -/
theorem within_of_listLim {g : ℕ → List (ℝ × ℝ)} {l : List (ℝ × ℝ)} (h : ListLim To g l) (st : String) (mask : List Bool)
    (sh : List ℕ) {ε : ℝ} (hε : 0 < ε) :
    ∀ᶠ m in atTop, ResultWithin ε ⟨sh, applyMask st mask ((g m).map Prod.fst), applyMask st mask ((g m).map Prod.snd)⟩
      ⟨sh, applyMask st mask (l.map Prod.fst), applyMask st mask (l.map Prod.snd)⟩ := by
  obtain ⟨h1, e1, w1⟩ := ListLim.map (p := Prod.fst) (q := Prod.fst) (T := To) h fun h a hh =>
    (continuous_fst.tendsto a).comp hh
  obtain ⟨h2, e2, w2⟩ := ListLim.map (p := Prod.snd) (q := Prod.snd) (T := To) h fun h a hh =>
    (continuous_snd.tendsto a).comp hh
  beta_reduce at w1 w2
  filter_upwards [eventually_forall₂ e1 hε, eventually_forall₂ e2 hε] with m k1 k2
  refine ⟨rfl, ?_, ?_⟩
  · rw [w1 m]; exact applyMask_within st mask k1
  · rw [w2 m]; exact applyMask_within st mask k2

/-- The results approach `r`. -/
def ResLim (g : ℕ → ExecResult) (r : ExecResult) : Prop := ∀ ε > 0, ∀ᶠ m in atTop, ResultWithin ε (g m) r

theorem PyLim.tends {f : ℕ → Py ExecResult} {x : Py ExecResult} {r : ExecResult} (h : PyLim ResLim f x) (hr : x = .ok r) :
    TendsToResult f r := by
  intro ε hε
  obtain ⟨g, hg, hw⟩ := h r hr
  obtain ⟨M, hM⟩ := eventually_atTop.1 (hg.and (hw ε hε))
  exact ⟨M, fun m hm => ⟨g m, hM m hm⟩⟩

end
end PyKrige
