import Verif.Lemmas.Inexact
import Verif.Model.InexactOK3D
import Verif.Model.InexactUK
import Verif.Model.InexactUK3D
import Verif.Spec.Setting

/-! The four `execute` methods with inexact linear algebra. -/

namespace PyKrige
noncomputable section
open Matrix Spec Filter Topology

theorem Spec.Accurate.pairLim {ar : ℕ → Arith} (ha : Accurate ar) {k n : ℕ} {A : ℕ → Matrix (Fin k) (Fin k) ℝ}
    {A₀ : Matrix (Fin k) (Fin k) ℝ} (hA : To A A₀) (b c : Fin k → ℝ) (z : Fin n → ℝ) (e : Fin n → Fin k) :
    To (fun m => ((ar m).dot (fun i => (ar m).mulVec (A m) b (e i)) z, (ar m).dot ((ar m).mulVec (A m) b) c))
      (∑ i, (A₀ *ᵥ b) (e i) * z i, ∑ i, (A₀ *ᵥ b) i * c i) := by
  have hx := ha.mulVecLim (b := b) hA
  exact (ha.dotLim (tendsto_pi_nhds.2 fun k => (tendsto_pi_nhds.1 hx) _) tendsto_const_nhds).prodMk_nhds
    (ha.dotLim hx tendsto_const_nhds)

theorem Spec.Accurate.pairLim' {ar : ℕ → Arith} (ha : Accurate ar) {k n : ℕ} {A : ℕ → Matrix (Fin k) (Fin k) ℝ}
    {A₀ : Matrix (Fin k) (Fin k) ℝ} (hA : To A A₀) (b : Fin k → ℝ) (z : Fin n → ℝ) (e : Fin n → Fin k) :
    To (fun m => ((ar m).dot (fun i => (ar m).mulVec (A m) b (e i)) z, -(ar m).dot ((ar m).mulVec (A m) b) b))
      (∑ i, (A₀ *ᵥ b) (e i) * z i, -∑ i, (A₀ *ᵥ b) i * b i) := by
  have hx := ha.mulVecLim (b := b) hA
  exact (ha.dotLim (tendsto_pi_nhds.2 fun k => (tendsto_pi_nhds.1 hx) _) tendsto_const_nhds).prodMk_nhds
    (ha.dotLim hx tendsto_const_nhds).neg

/-! ### OK -/

section
variable {ar : ℕ → Arith} (ha : Accurate ar)
include ha

theorem OK.loopBody_lim {n : ℕ} (s : OK n) {A : ℕ → Matrix (Fin (n + 1)) (Fin (n + 1)) ℝ}
    {A₀ : Matrix (Fin (n + 1)) (Fin (n + 1)) ℝ} (hA : To A A₀) (bd : Fin n → ℝ) :
    PyLim To (fun m => s.loopBodyWith (ar m) (A m) bd) (s.loopBody A₀ bd) := by
  unfold OK.loopBodyWith OK.loopBody
  refine PyLim.same fun γ _ => PyLim.ok ?_
  exact ha.pairLim hA _ _ _ _

theorem OK.execVector_lim {n : ℕ} (s : OK n) (a : Matrix (Fin (n + 1)) (Fin (n + 1)) ℝ) (bd : List (Fin n → ℝ)) :
    PyLim (ListLim To) (fun m => s.execVectorWith (ar m) a bd) (s.execVector a bd) := by
  unfold OK.execVectorWith OK.execVector
  refine (ha.invertPython _ _ a).bind fun A A₀ _ hA => PyLim.same fun γ _ => PyLim.ok ?_
  refine ListLim.ofMap _ fun b _ => ?_
  have hx := ha.mulVecLim (b := b) hA
  exact (ha.dotLim (tendsto_pi_nhds.2 fun k => (tendsto_pi_nhds.1 hx) _) tendsto_const_nhds).prodMk_nhds
    (ha.dotLim hx tendsto_const_nhds)

theorem OK.execLoop_lim {n : ℕ} (s : OK n) (a : Matrix (Fin (n + 1)) (Fin (n + 1)) ℝ) (bd : List (Fin n → ℝ))
    (mask : List Bool) : PyLim (ListLim To) (fun m => s.execLoopWith (ar m) a bd mask) (s.execLoop a bd mask) := by
  unfold OK.execLoopWith OK.execLoop
  refine (ha.invertPython _ _ a).bind fun A A₀ _ hA => PyLim.mapM fun p _ => ?_
  obtain ⟨q, b⟩ := p
  cases b
  · exact OK.loopBody_lim ha s hA q
  · exact PyLim.ok tendsto_const_nhds

theorem OK.windowBody_lim {n : ℕ} (s : OK n) (a : Matrix (Fin (n + 1)) (Fin (n + 1)) ℝ) (w : Window n) :
    PyLim To (fun m => s.windowBodyWith (ar m) a w) (s.windowBody a w) := by
  unfold OK.windowBodyWith OK.windowBody
  refine PyLim.same fun γ _ => (ha.solveLim _ _).bind fun x x₀ _ hx => PyLim.ok ?_
  exact (ha.dotLim (tendsto_pi_nhds.2 fun k => (tendsto_pi_nhds.1 hx) _) tendsto_const_nhds).prodMk_nhds
    (ha.dotLim hx tendsto_const_nhds).neg

theorem OK.execLoopMovingWindow_lim {n : ℕ} (s : OK n) (a : Matrix (Fin (n + 1)) (Fin (n + 1)) ℝ) (ws : List (Window n))
    (mask : List Bool) :
    PyLim (ListLim To) (fun m => s.execLoopMovingWindowWith (ar m) a ws mask) (s.execLoopMovingWindow a ws mask) := by
  unfold OK.execLoopMovingWindowWith OK.execLoopMovingWindow
  refine PyLim.mapM fun p _ => ?_
  obtain ⟨q, b⟩ := p
  cases b
  · exact OK.windowBody_lim ha s a q
  · exact PyLim.ok tendsto_const_nhds

theorem OK.cExecLoop_lim {n : ℕ} (s : OK n) (a : Matrix (Fin (n + 1)) (Fin (n + 1)) ℝ) (bd : List (Fin n → ℝ))
    (mask : List Bool) : PyLim (ListLim To) (fun m => s.cExecLoopWith (ar m) a bd mask) (s.cExecLoop a bd mask) := by
  unfold OK.cExecLoopWith OK.cExecLoop
  refine PyLim.same fun γ _ => (ha.invertC _ _ a).bind fun A A₀ _ hA => PyLim.ok (ListLim.ofMap _ fun p _ => ?_)
  obtain ⟨q, b⟩ := p
  cases b
  · unfold OK.cLoopBodyWith OK.cLoopBody
    exact (ha.pairLim' hA _ _ _)
  · exact tendsto_const_nhds

theorem OK.cWindowBody_lim {n : ℕ} (s : OK n) (γ : ℝ → ℝ) (a : Matrix (Fin (n + 1)) (Fin (n + 1)) ℝ) (w : Window n) :
    PyLim To (fun m => s.cWindowBodyWith (ar m) γ a w) (s.cWindowBody γ a w) := by
  unfold OK.cWindowBodyWith OK.cWindowBody
  refine (ha.dgesvLim _ _).bind fun x x₀ _ hx => PyLim.ok ?_
  exact (ha.dotLim (tendsto_pi_nhds.2 fun k => (tendsto_pi_nhds.1 hx) _) tendsto_const_nhds).prodMk_nhds
    (ha.dotLim hx tendsto_const_nhds).neg

theorem OK.cExecLoopMovingWindow_lim {n : ℕ} (s : OK n) (a : Matrix (Fin (n + 1)) (Fin (n + 1)) ℝ) (ws : List (Window n))
    (mask : List Bool) :
    PyLim (ListLim To) (fun m => s.cExecLoopMovingWindowWith (ar m) a ws mask) (s.cExecLoopMovingWindow a ws mask) := by
  unfold OK.cExecLoopMovingWindowWith OK.cExecLoopMovingWindow
  refine PyLim.same fun γ _ => PyLim.mapM fun p _ => ?_
  obtain ⟨q, b⟩ := p
  cases b
  · exact OK.cWindowBody_lim ha s γ a q
  · exact PyLim.ok tendsto_const_nhds

theorem OK.movingWindow_lim {n : ℕ} (env : Env) (s : OK n) (a : Matrix (Fin (n + 1)) (Fin (n + 1)) ℝ)
    (qs : List (Fin 2 → ℝ)) (mask : List Bool) (backend : String) (k : ℕ) (hk : k ≤ n) :
    PyLim (ListLim To) (fun m => s.movingWindowWith (ar m) env a qs mask backend k)
      (s.movingWindow env a qs mask backend k) := by
  unfold OK.movingWindowWith OK.movingWindow
  simp only [if_pos hk]
  by_cases h1 : backend = "loop"
  · simp only [if_pos h1]
    exact OK.execLoopMovingWindow_lim ha s a _ mask
  by_cases h2 : backend = "C"
  · simp only [if_neg h1, if_pos h2]
    exact OK.cExecLoopMovingWindow_lim ha s a _ mask
  · simp only [if_neg h1, if_neg h2]
    exact PyLim.error

theorem OK.globalKrige_lim {n : ℕ} (s : OK n) (a : Matrix (Fin (n + 1)) (Fin (n + 1)) ℝ)
    (qs : List (Fin 2 → ℝ)) (mask : List Bool) (backend : String) :
    PyLim (ListLim To) (fun m => s.globalKrigeWith (ar m) a qs mask backend) (s.globalKrige a qs mask backend) := by
  unfold OK.globalKrigeWith OK.globalKrige
  dsimp only
  by_cases h0 : backend = "vectorized"
  · simp only [if_pos h0]
    exact OK.execVector_lim ha s a _
  by_cases h1 : backend = "loop"
  · simp only [if_neg h0, if_pos h1]
    exact OK.execLoop_lim ha s a _ mask
  by_cases h2 : backend = "C"
  · simp only [if_neg h0, if_neg h1, if_pos h2]
    exact OK.cExecLoop_lim ha s a _ mask
  · simp only [if_neg h0, if_neg h1, if_neg h2]
    exact PyLim.error

theorem OK.execute_lim {n : ℕ} (env : Env) (s : OK n) (args : ExecArgs) (hw : WindowFits n args.nClosest) :
    PyLim ResLim (fun m => s.executeWith (ar m) env args) (s.execute env args) := by
  have fin : ∀ (mask : List Bool) (f : ℕ → Py (List (ℝ × ℝ))) x, PyLim (ListLim To) f x →
      PyLim ResLim (fun m => f m >>= fun res => pure ⟨resultShape args, applyMask args.style mask (res.map Prod.fst),
          applyMask args.style mask (res.map Prod.snd)⟩)
        (x >>= fun res => pure ⟨resultShape args, applyMask args.style mask (res.map Prod.fst),
          applyMask args.style mask (res.map Prod.snd)⟩) :=
    fun mask f x h => h.bind fun g l _ hl => PyLim.ok fun ε hε => within_of_listLim hl _ mask _ hε
  unfold OK.executeWith OK.execute
  by_cases hs : args.style ∈ ["grid", "masked", "points"]
  swap
  · simp only [if_pos hs]
    exact PyLim.error
  simp only [if_neg (not_not.2 hs)]
  cases hc : args.nClosest with
  | none =>
    dsimp only
    refine PyLim.same fun a _ => PyLim.same fun r hq => PyLim.same fun qs _ => ?_
    exact fin _ _ _ (OK.globalKrige_lim ha s a qs r.2 _)
  | some k =>
    dsimp only
    by_cases hk : k ≤ 1
    · simp only [if_pos hk]
      exact PyLim.error
    simp only [if_neg hk]
    refine PyLim.same fun a _ => PyLim.same fun r hq => PyLim.same fun qs _ => ?_
    exact fin _ _ _ (OK.movingWindow_lim ha env s a qs r.2 _ _ (Int.toNat_le.2 (hw k hc)))

end

/-! ### OK3D -/

section
variable {ar : ℕ → Arith} (ha : Accurate ar)
include ha

theorem OK3D.loopBody_lim {n : ℕ} (s : OK3D n) {A : ℕ → Matrix (Fin (n + 1)) (Fin (n + 1)) ℝ}
    {A₀ : Matrix (Fin (n + 1)) (Fin (n + 1)) ℝ} (hA : To A A₀) (bd : Fin n → ℝ) :
    PyLim To (fun m => s.loopBodyWith (ar m) (A m) bd) (s.loopBody A₀ bd) := by
  unfold OK3D.loopBodyWith OK3D.loopBody
  refine PyLim.same fun γ _ => PyLim.ok ?_
  exact ha.pairLim hA _ _ _ _

theorem OK3D.execVector_lim {n : ℕ} (s : OK3D n) (a : Matrix (Fin (n + 1)) (Fin (n + 1)) ℝ) (bd : List (Fin n → ℝ)) :
    PyLim (ListLim To) (fun m => s.execVectorWith (ar m) a bd) (s.execVector a bd) := by
  unfold OK3D.execVectorWith OK3D.execVector
  refine (ha.invertPython _ _ a).bind fun A A₀ _ hA => PyLim.same fun γ _ => PyLim.ok ?_
  refine ListLim.ofMap _ fun b _ => ?_
  have hx := ha.mulVecLim (b := b) hA
  exact (ha.dotLim (tendsto_pi_nhds.2 fun k => (tendsto_pi_nhds.1 hx) _) tendsto_const_nhds).prodMk_nhds
    (ha.dotLim hx tendsto_const_nhds)

theorem OK3D.execLoop_lim {n : ℕ} (s : OK3D n) (a : Matrix (Fin (n + 1)) (Fin (n + 1)) ℝ) (bd : List (Fin n → ℝ))
    (mask : List Bool) : PyLim (ListLim To) (fun m => s.execLoopWith (ar m) a bd mask) (s.execLoop a bd mask) := by
  unfold OK3D.execLoopWith OK3D.execLoop
  refine (ha.invertPython _ _ a).bind fun A A₀ _ hA => PyLim.mapM fun p _ => ?_
  obtain ⟨q, b⟩ := p
  cases b
  · exact OK3D.loopBody_lim ha s hA q
  · exact PyLim.ok tendsto_const_nhds

theorem OK3D.windowBody_lim {n : ℕ} (s : OK3D n) (a : Matrix (Fin (n + 1)) (Fin (n + 1)) ℝ) (w : Window n) :
    PyLim To (fun m => s.windowBodyWith (ar m) a w) (s.windowBody a w) := by
  unfold OK3D.windowBodyWith OK3D.windowBody
  refine PyLim.same fun γ _ => (ha.solveLim _ _).bind fun x x₀ _ hx => PyLim.ok ?_
  exact (ha.dotLim (tendsto_pi_nhds.2 fun k => (tendsto_pi_nhds.1 hx) _) tendsto_const_nhds).prodMk_nhds
    (ha.dotLim hx tendsto_const_nhds).neg

theorem OK3D.execLoopMovingWindow_lim {n : ℕ} (s : OK3D n) (a : Matrix (Fin (n + 1)) (Fin (n + 1)) ℝ) (ws : List (Window n))
    (mask : List Bool) :
    PyLim (ListLim To) (fun m => s.execLoopMovingWindowWith (ar m) a ws mask) (s.execLoopMovingWindow a ws mask) := by
  unfold OK3D.execLoopMovingWindowWith OK3D.execLoopMovingWindow
  refine PyLim.mapM fun p _ => ?_
  obtain ⟨q, b⟩ := p
  cases b
  · exact OK3D.windowBody_lim ha s a q
  · exact PyLim.ok tendsto_const_nhds

theorem OK3D.movingWindow_lim {n : ℕ} (env : Env) (s : OK3D n) (a : Matrix (Fin (n + 1)) (Fin (n + 1)) ℝ)
    (qs : List (Fin 3 → ℝ)) (mask : List Bool) (backend : String) (k : ℤ) (hk : k ≤ n) :
    PyLim (ListLim To) (fun m => s.movingWindowWith (ar m) env a qs mask backend k)
      (s.movingWindow env a qs mask backend k) := by
  unfold OK3D.movingWindowWith OK3D.movingWindow
  by_cases h0 : k ≤ 0
  · simp only [if_pos h0]
    exact PyLim.error
  by_cases h1 : backend = "loop"
  · by_cases h2 : k = 1
    · simp only [if_neg h0, if_pos h1, if_pos h2]
      exact PyLim.error
    · simp only [if_neg h0, if_pos h1, if_neg h2, if_pos hk]
      exact OK3D.execLoopMovingWindow_lim ha s a _ mask
  · simp only [if_neg h0, if_neg h1]
    exact PyLim.error

theorem OK3D.globalKrige_lim {n : ℕ} (s : OK3D n) (a : Matrix (Fin (n + 1)) (Fin (n + 1)) ℝ)
    (qs : List (Fin 3 → ℝ)) (mask : List Bool) (backend : String) :
    PyLim (ListLim To) (fun m => s.globalKrigeWith (ar m) a qs mask backend) (s.globalKrige a qs mask backend) := by
  unfold OK3D.globalKrigeWith OK3D.globalKrige
  dsimp only
  by_cases h0 : backend = "vectorized"
  · simp only [if_pos h0]
    exact OK3D.execVector_lim ha s a _
  by_cases h1 : backend = "loop"
  · simp only [if_neg h0, if_pos h1]
    exact OK3D.execLoop_lim ha s a _ mask
  · simp only [if_neg h0, if_neg h1]
    exact PyLim.error

theorem OK3D.execute_lim {n : ℕ} (env : Env) (s : OK3D n) (args : ExecArgs3) (hw : WindowFits n args.nClosest) :
    PyLim ResLim (fun m => s.executeWith (ar m) env args) (s.execute env args) := by
  have fin : ∀ (mask : List Bool) (f : ℕ → Py (List (ℝ × ℝ))) x, PyLim (ListLim To) f x →
      PyLim ResLim (fun m => f m >>= fun res => pure ⟨resultShape3 args, applyMask args.style mask (res.map Prod.fst),
          applyMask args.style mask (res.map Prod.snd)⟩)
        (x >>= fun res => pure ⟨resultShape3 args, applyMask args.style mask (res.map Prod.fst),
          applyMask args.style mask (res.map Prod.snd)⟩) :=
    fun mask f x h => h.bind fun g l _ hl => PyLim.ok fun ε hε => within_of_listLim hl _ mask _ hε
  unfold OK3D.executeWith OK3D.execute
  by_cases hs : args.style ∈ ["grid", "masked", "points"]
  swap
  · simp only [if_pos hs]
    exact PyLim.error
  simp only [if_neg (not_not.2 hs)]
  refine PyLim.same fun a _ => PyLim.same fun r hq => PyLim.same fun qs _ => ?_
  cases hc : args.nClosest with
  | none => exact fin _ _ _ (OK3D.globalKrige_lim ha s a qs r.2 _)
  | some k => exact fin _ _ _ (OK3D.movingWindow_lim ha env s a qs r.2 _ _ (hw k hc))

end

/-- Answers with a warning flag: the answers approach, the flags are equal. -/
def ToW (h : ℕ → (ℝ × ℝ) × Bool) (p : (ℝ × ℝ) × Bool) : Prop := To (fun m => (h m).1) p.1 ∧ ∀ m, (h m).2 = p.2

/-- Lists of answers with a common warning flag. -/
def ListToW (g : ℕ → List (ℝ × ℝ) × Bool) (r : List (ℝ × ℝ) × Bool) : Prop :=
  ListLim To (fun m => (g m).1) r.1 ∧ ∀ m, (g m).2 = r.2

theorem ListLim.any_eq {g : ℕ → List ((ℝ × ℝ) × Bool)} {l : List ((ℝ × ℝ) × Bool)} (h : ListLim ToW g l) (m : ℕ) :
    (g m).any Prod.snd = l.any Prod.snd := by
  obtain ⟨hs, hh, he⟩ := h
  rw [he m]
  clear he
  induction hh with
  | nil => rfl
  | cons h1 _ ih => rw [List.map_cons, List.any_cons, List.any_cons, ih, h1.2 m]

/-! ### UK -/

section
variable {ar : ℕ → Arith} (ha : Accurate ar)
include ha

theorem UK.loopBody_lim {n : ℕ} (s : UK n) {A : ℕ → Matrix (Fin (s.nWithDrifts + 1)) (Fin (s.nWithDrifts + 1)) ℝ}
    {A₀ : Matrix (Fin (s.nWithDrifts + 1)) (Fin (s.nWithDrifts + 1)) ℝ} (hA : To A A₀) (spec : List (List ℝ)) (q : (UKQuery n)) :
    PyLim ToW (fun m => s.loopBodyWith (ar m) (A m) spec q) (s.loopBody A₀ spec q) := by
  unfold UK.loopBodyWith UK.loopBody
  refine PyLim.same fun γ _ => PyLim.same fun st _ => PyLim.ok ?_
  have hx := ha.mulVecLim (b := setAt st.1 s.nWithDrifts 1) hA
  exact ⟨(ha.dotLim (tendsto_pi_nhds.2 fun k => (tendsto_pi_nhds.1 hx) _) tendsto_const_nhds).prodMk_nhds
    (ha.dotLim hx tendsto_const_nhds), fun _ => rfl⟩

theorem UK.execVector_lim {n : ℕ} (s : UK n) (a : Matrix (Fin (s.nWithDrifts + 1)) (Fin (s.nWithDrifts + 1)) ℝ)
    (qs : List (UKQuery n)) (spec : List (List ℝ)) :
    PyLim ListToW (fun m => s.execVectorWith (ar m) a qs spec) (s.execVector a qs spec) := by
  unfold UK.execVectorWith UK.execVector
  refine (ha.invertPython _ _ a).bind fun A A₀ _ hA => PyLim.same fun γ _ => PyLim.same fun exts _ => PyLim.ok ?_
  refine ⟨ListLim.ofMap _ fun b _ => ?_, fun _ => rfl⟩
  have hx := ha.mulVecLim (b := b.1) hA
  exact (ha.dotLim (tendsto_pi_nhds.2 fun k => (tendsto_pi_nhds.1 hx) _) tendsto_const_nhds).prodMk_nhds
    (ha.dotLim hx tendsto_const_nhds)

theorem UK.execLoop_lim {n : ℕ} (s : UK n) (a : Matrix (Fin (s.nWithDrifts + 1)) (Fin (s.nWithDrifts + 1)) ℝ)
    (qs : List (UKQuery n)) (mask : List Bool) (spec : List (List ℝ)) :
    PyLim ListToW (fun m => s.execLoopWith (ar m) a qs mask spec) (s.execLoop a qs mask spec) := by
  unfold UK.execLoopWith UK.execLoop
  refine (ha.invertPython _ _ a).bind fun A A₀ _ hA => (PyLim.mapM (S := ToW) fun p _ => ?_).bind fun g l _ hl =>
    PyLim.ok ⟨hl.map fun _ _ h => h.1, fun m => hl.any_eq m⟩
  obtain ⟨q, b⟩ := p
  cases b
  · exact UK.loopBody_lim ha s hA spec q
  · exact PyLim.ok ⟨tendsto_const_nhds, fun _ => rfl⟩

theorem UK.executeW_lim {n : ℕ} (s : UK n) (args : UKExecArgs) :
    PyLim (fun (g : ℕ → ExecResult × Bool) r => ResLim (fun m => (g m).1) r.1 ∧ ∀ m, (g m).2 = r.2)
      (fun m => s.executeWWith (ar m) args) (s.executeW args) := by
  have fin : ∀ (mask : List Bool) (wa : Bool) (f : ℕ → Py (List (ℝ × ℝ) × Bool)) x, PyLim ListToW f x →
      PyLim (fun (g : ℕ → ExecResult × Bool) r => ResLim (fun m => (g m).1) r.1 ∧ ∀ m, (g m).2 = r.2)
        (fun m => f m >>= fun p => pure (⟨resultShape args.toExec, applyMask args.toExec.style mask (p.1.map Prod.fst),
          applyMask args.toExec.style mask (p.1.map Prod.snd)⟩, wa || p.2))
        (x >>= fun p => pure (⟨resultShape args.toExec, applyMask args.toExec.style mask (p.1.map Prod.fst),
          applyMask args.toExec.style mask (p.1.map Prod.snd)⟩, wa || p.2)) :=
    fun mask wa f x h => h.bind fun g l _ hl => PyLim.ok
      ⟨fun ε hε => within_of_listLim hl.1 _ mask _ hε, fun m => by beta_reduce; rw [hl.2 m]⟩
  unfold UK.executeWWith UK.executeW
  by_cases hs : args.toExec.style ∈ ["grid", "masked", "points"]
  swap
  · simp only [if_pos hs]
    exact PyLim.error
  simp only [if_neg (not_not.2 hs)]
  refine PyLim.same fun a _ => PyLim.same fun r hq => PyLim.same fun spec _ => ?_
  by_cases hi : (args.toExec.xpoints.isInt && args.toExec.ypoints.isInt) = true
  · simp only [if_pos hi]
    exact PyLim.error
  simp only [if_neg hi]
  by_cases h1 : args.toExec.backend = "vectorized"
  · simp only [if_pos h1]
    exact fin _ _ _ _ (UK.execVector_lim ha s a.1 _ spec)
  by_cases h2 : args.toExec.backend = "loop"
  · simp only [if_neg h1, if_pos h2]
    exact fin _ _ _ _ (UK.execLoop_lim ha s a.1 _ r.2 spec)
  · simp only [if_neg h1, if_neg h2]
    exact PyLim.error

theorem UK.execute_lim {n : ℕ} (s : UK n) (args : UKExecArgs) :
    PyLim ResLim (fun m => s.executeWith (ar m) args) (s.execute args) := by
  intro r hr
  unfold UK.execute at hr
  obtain ⟨p, hp, rfl⟩ := py_map_eq_ok.1 hr
  obtain ⟨g, hg, hR⟩ := UK.executeW_lim ha s args p hp
  refine ⟨fun m => (g m).1, hg.mono fun m hm => ?_, hR.1⟩
  beta_reduce at hm ⊢
  unfold UK.executeWith
  rw [hm]
  rfl

end

/-! ### UK3D -/

section
variable {ar : ℕ → Arith} (ha : Accurate ar)
include ha

theorem UK3D.loopBody_lim {n : ℕ} (s : UK3D n) {A : ℕ → Matrix (Fin (s.nWithDrifts + 1)) (Fin (s.nWithDrifts + 1)) ℝ}
    {A₀ : Matrix (Fin (s.nWithDrifts + 1)) (Fin (s.nWithDrifts + 1)) ℝ} (hA : To A A₀) (spec : List (List ℝ)) (q : (UK3Query n)) :
    PyLim ToW (fun m => s.loopBodyWith (ar m) (A m) spec q) (s.loopBody A₀ spec q) := by
  unfold UK3D.loopBodyWith UK3D.loopBody
  refine PyLim.same fun γ _ => PyLim.same fun st _ => PyLim.ok ?_
  have hx := ha.mulVecLim (b := setAt st.1 s.nWithDrifts 1) hA
  exact ⟨(ha.dotLim (tendsto_pi_nhds.2 fun k => (tendsto_pi_nhds.1 hx) _) tendsto_const_nhds).prodMk_nhds
    (ha.dotLim hx tendsto_const_nhds), fun _ => rfl⟩

theorem UK3D.execVector_lim {n : ℕ} (s : UK3D n) (a : Matrix (Fin (s.nWithDrifts + 1)) (Fin (s.nWithDrifts + 1)) ℝ)
    (qs : List (UK3Query n)) (spec : List (List ℝ)) :
    PyLim ListToW (fun m => s.execVectorWith (ar m) a qs spec) (s.execVector a qs spec) := by
  unfold UK3D.execVectorWith UK3D.execVector
  refine (ha.invertPython _ _ a).bind fun A A₀ _ hA => PyLim.same fun γ _ => PyLim.ok ?_
  refine ⟨ListLim.ofMap _ fun b _ => ?_, fun _ => rfl⟩
  have hx := ha.mulVecLim (b := b.1) hA
  exact (ha.dotLim (tendsto_pi_nhds.2 fun k => (tendsto_pi_nhds.1 hx) _) tendsto_const_nhds).prodMk_nhds
    (ha.dotLim hx tendsto_const_nhds)

theorem UK3D.execLoop_lim {n : ℕ} (s : UK3D n) (a : Matrix (Fin (s.nWithDrifts + 1)) (Fin (s.nWithDrifts + 1)) ℝ)
    (qs : List (UK3Query n)) (mask : List Bool) (spec : List (List ℝ)) :
    PyLim ListToW (fun m => s.execLoopWith (ar m) a qs mask spec) (s.execLoop a qs mask spec) := by
  unfold UK3D.execLoopWith UK3D.execLoop
  refine (ha.invertPython _ _ a).bind fun A A₀ _ hA => (PyLim.mapM (S := ToW) fun p _ => ?_).bind fun g l _ hl =>
    PyLim.ok ⟨hl.map fun _ _ h => h.1, fun m => hl.any_eq m⟩
  obtain ⟨q, b⟩ := p
  cases b
  · exact UK3D.loopBody_lim ha s hA spec q
  · exact PyLim.ok ⟨tendsto_const_nhds, fun _ => rfl⟩

theorem UK3D.executeW_lim {n : ℕ} (s : UK3D n) (args : UK3DExecArgs) :
    PyLim (fun (g : ℕ → ExecResult × Bool) r => ResLim (fun m => (g m).1) r.1 ∧ ∀ m, (g m).2 = r.2)
      (fun m => s.executeWWith (ar m) args) (s.executeW args) := by
  have fin : ∀ (mask : List Bool) (wa : Bool) (f : ℕ → Py (List (ℝ × ℝ) × Bool)) x, PyLim ListToW f x →
      PyLim (fun (g : ℕ → ExecResult × Bool) r => ResLim (fun m => (g m).1) r.1 ∧ ∀ m, (g m).2 = r.2)
        (fun m => f m >>= fun p => pure (⟨resultShape3 args.toExec, applyMask args.toExec.style mask (p.1.map Prod.fst),
          applyMask args.toExec.style mask (p.1.map Prod.snd)⟩, wa || p.2))
        (x >>= fun p => pure (⟨resultShape3 args.toExec, applyMask args.toExec.style mask (p.1.map Prod.fst),
          applyMask args.toExec.style mask (p.1.map Prod.snd)⟩, wa || p.2)) :=
    fun mask wa f x h => h.bind fun g l _ hl => PyLim.ok
      ⟨fun ε hε => within_of_listLim hl.1 _ mask _ hε, fun m => by beta_reduce; rw [hl.2 m]⟩
  unfold UK3D.executeWWith UK3D.executeW
  by_cases hs : args.toExec.style ∈ ["grid", "masked", "points"]
  swap
  · simp only [if_pos hs]
    exact PyLim.error
  simp only [if_neg (not_not.2 hs)]
  refine PyLim.same fun a _ => PyLim.same fun r hq => PyLim.same fun spec _ => ?_
  by_cases hi : (args.toExec.xpoints.isInt && args.toExec.ypoints.isInt && args.toExec.zpoints.isInt) = true
  · simp only [if_pos hi]
    exact PyLim.error
  simp only [if_neg hi]
  by_cases h1 : args.toExec.backend = "vectorized"
  · simp only [if_pos h1]
    exact fin _ _ _ _ (UK3D.execVector_lim ha s a.1 _ spec)
  by_cases h2 : args.toExec.backend = "loop"
  · simp only [if_neg h1, if_pos h2]
    exact fin _ _ _ _ (UK3D.execLoop_lim ha s a.1 _ r.2 spec)
  · simp only [if_neg h1, if_neg h2]
    exact PyLim.error

theorem UK3D.execute_lim {n : ℕ} (s : UK3D n) (args : UK3DExecArgs) :
    PyLim ResLim (fun m => s.executeWith (ar m) args) (s.execute args) := by
  intro r hr
  unfold UK3D.execute at hr
  obtain ⟨p, hp, rfl⟩ := py_map_eq_ok.1 hr
  obtain ⟨g, hg, hR⟩ := UK3D.executeW_lim ha s args p hp
  refine ⟨fun m => (g m).1, hg.mono fun m hm => ?_, hR.1⟩
  beta_reduce at hm ⊢
  unfold UK3D.executeWith
  rw [hm]
  rfl

end

end
end PyKrige
