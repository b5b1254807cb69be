import Verif.Spec.Verbose
import Verif.Spec.Env
import Verif.Lemmas.Accepted
import Verif.Lemmas.FitUnit

/-! Printing does not change results. -/

namespace PyKrige
noncomputable section
open Spec

@[simp] theorem out_pure {α : Type} (a : α) : (pure a : Out α) = ⟨[], .ok a⟩ := rfl

theorem out_bind_snd {α β : Type} (x : Out α) (f : α → Out β) : (x >>= f).result = (x.result >>= fun a => (f a).result) := by
  show (Out.bind x f).result = _
  obtain ⟨l, r⟩ := x
  cases r <;> rfl

theorem out_bind_fst_ok {α β : Type} {x : Out α} {a : α} (h : x.result = .ok a) (f : α → Out β) :
    (x >>= f).lines = x.lines ++ (f a).lines := by
  show (Out.bind x f).lines = _
  unfold Out.bind
  rw [h]

theorem out_bind_nil {α β : Type} {x : Out α} {f : α → Out β} (hx : x.lines = []) (hf : ∀ a, (f a).lines = []) : (x >>= f).lines = [] := by
  show (Out.bind x f).lines = _
  obtain ⟨l, r⟩ := x
  change l = [] at hx
  subst hx
  cases r with
  | error e => rfl
  | ok a => exact (List.nil_append _).trans (hf a)

@[simp] theorem quiet_fst {α : Type} (x : Py α) : (Out.quiet x).lines = [] := rfl
@[simp] theorem quiet_snd {α : Type} (x : Py α) : (Out.quiet x).result = x := rfl
@[simp] theorem say_false (l : Printed) : (say false l).lines = [] := rfl
@[simp] theorem say_true (l : Printed) : (say true l).lines = [l] := rfl
@[simp] theorem say_snd (b : Bool) (l : Printed) : (say b l).result = .ok () := rfl

@[simp] theorem numbers_append (l k : List Printed) : numbers (l ++ k) = numbers l ++ numbers k := by
  induction l with
  | nil => rfl
  | cons a l ih => cases a <;> simp [numbers, ih]

/-- Text in front of the output of a call. -/
def Out.after {α : Type} (l : List Printed) (x : Out α) : Out α := ⟨l ++ x.lines, x.result⟩

@[simp] theorem after_fst {α : Type} (l : List Printed) (x : Out α) : (Out.after l x).lines = l ++ x.lines := rfl
@[simp] theorem after_snd {α : Type} (l : List Printed) (x : Out α) : (Out.after l x).result = x.result := rfl

@[simp] theorem quiet_ok_bind {α β : Type} (a : α) (f : α → Out β) : (Out.quiet (.ok a) >>= f) = f a := by
  show Out.bind _ f = _
  simp only [Out.bind, Out.quiet, List.nil_append]

@[simp] theorem pair_ok_bind {α β : Type} (l : List Printed) (a : α) (f : α → Out β) :
    ((show Out α from ⟨l, .ok a⟩) >>= f) = Out.after l (f a) := rfl

@[simp] theorem quiet_error_bind {α β : Type} (e : PyErr) (f : α → Out β) :
    (Out.quiet (.error e) >>= f) = ⟨[], .error e⟩ := rfl

theorem out_ok_bind {α β : Type} {x : Out α} {a : α} (h : x.result = .ok a) (f : α → Out β) :
    (x >>= f) = Out.after x.lines (f a) := by
  show Out.bind x f = _
  unfold Out.bind
  rw [h]
  rfl

theorem out_error_bind {α β : Type} {x : Out α} {e : PyErr} (h : x.result = .error e) (f : α → Out β) :
    (x >>= f) = ⟨x.lines, .error e⟩ := by
  show Out.bind x f = _
  unfold Out.bind
  rw [h]

theorem say_bind {β : Type} (b : Bool) (l : Printed) (f : Unit → Out β) :
    (say b l >>= f) = Out.after (say b l).lines (f ()) := out_ok_bind rfl f

theorem say_numbers_text (b : Bool) (t : String) : numbers (say b (.text t)).lines = [] := by cases b <;> rfl

theorem lsqProblem_length {lags sv : List ℝ} {model : String} {p : LsqProblem} (h : lsqProblem lags sv model = .ok p) :
    p.lb.length = p.x0.length ∧ p.ub.length = p.x0.length ∧ p.x0.length = if model = "linear" then 2 else 3 := by
  unfold lsqProblem at h
  split_ifs at h with h1 h2
  · simp only [py_bind_eq_ok, py_pure] at h
    obtain ⟨_, -, _, -, _, -, _, -, h⟩ := h
    cases h
    rw [if_pos h1]; exact ⟨rfl, rfl, rfl⟩
  · simp only [py_bind_eq_ok, py_pure] at h
    obtain ⟨_, -, _, -, _, -, _, -, h⟩ := h
    cases h
    rw [if_neg h1]; exact ⟨rfl, rfl, rfl⟩
  · simp only [py_bind_eq_ok, py_pure] at h
    obtain ⟨_, -, _, -, _, -, h⟩ := h
    cases h
    rw [if_neg h1]; exact ⟨rfl, rfl, rfl⟩

theorem initialize_length {n m : ℕ} {env : Env} (hl : LsqSpec env) {X : Fin n → Fin m → ℝ} {y : Fin n → ℝ}
    {name : String} {p : ParamArg} {vp : Option (List ℝ)} {f : VFun} {nlags : ℕ} {weight : Bool} {ct : String}
    {lags : List (ℝ × ℝ)} {ps : List ℝ} (hp : makeVariogramParameterList name p = .ok vp)
    (h : initializeVariogramModel env X y name vp f nlags weight ct = .ok (lags, ps)) :
    (name = "linear" → ps.length = 2) ∧
      (name ∈ ["power", "spherical", "exponential", "gaussian", "hole-effect"] → ps.length = 3) := by
  cases vp with
  | some l =>
    have := initialize_params h rfl
    subst this
    exact makeParams_length hp
  | none =>
    obtain ⟨hc, -, hf, -⟩ := init_auto h
    unfold calculateVariogramModel at hf
    simp only [py_bind_eq_ok, py_pure] at hf
    obtain ⟨q, hq, u, hck, -, -, hf⟩ := hf
    cases hf
    obtain ⟨h1, h2, h3⟩ := lsqProblem_length hq
    have := (hl (fun params => variogramResiduals params (lags.map Prod.fst) (lags.map Prod.snd) f weight) q hck h1 h2).1
    rw [this, h3]
    refine ⟨fun e => if_pos e, fun e => if_neg fun e2 => ?_⟩
    subst e2
    simp at e

/-- What the report about the model amounts to. -/
theorem printModel_true {name : String} {fArg : FunArg} {f : VFun} {fname : String} {ps : List ℝ}
    (hf : chooseFunction name fArg = .ok (f, fname))
    (hp : (name = "linear" → ps.length = 2) ∧
      (name ∈ ["power", "spherical", "exponential", "gaussian", "hole-effect"] → ps.length = 3)) :
    (printModel true name ps).result = .ok () ∧ modelLine name ∈ (printModel true name ps).lines ∧
      Describes name (numbers (printModel true name ps).lines) (f ps) := by
  unfold chooseFunction at hf
  split_ifs at hf with h1 h2
  · subst h2
    refine ⟨rfl, ?_, .custom _⟩
    exact List.mem_singleton.2 rfl
  · have hd : variogramDict name = some f := by
      split at hf
      · next g hg => cases hf; exact hg
      · cases hf
    have h3 : ∀ l : List ℝ, l.length = 3 → ∃ a b c, l = [a, b, c] := by
      intro l hl; match l, hl with | [a, b, c], _ => exact ⟨a, b, c, rfl⟩
    clear hf h1
    unfold variogramDict at hd
    split_ifs at hd with e e e e e e
    · subst e; cases hd
      obtain ⟨a, b, rfl⟩ : ∃ a b, ps = [a, b] := by
        have := hp.1 rfl
        match ps, this with | [a, b], _ => exact ⟨a, b, rfl⟩
      exact ⟨rfl, List.mem_cons_self, .linear a b⟩
    · subst e; cases hd
      obtain ⟨a, b, c, rfl⟩ := h3 _ (hp.2 (by simp))
      exact ⟨rfl, List.mem_cons_self, .power a b c⟩
    · subst e; cases hd
      obtain ⟨a, b, c, rfl⟩ := h3 _ (hp.2 (by simp))
      exact ⟨rfl, List.mem_cons_self, .gaussian a _ b c rfl⟩
    · subst e; cases hd
      obtain ⟨a, b, c, rfl⟩ := h3 _ (hp.2 (by simp))
      refine ⟨rfl, List.mem_cons_self, ?_⟩
      convert Describes.spherical a _ b c rfl using 2
      · rfl
      show (Except.ok (sphericalFormula a b c) : Py (ℝ → ℝ)) = _
      congr 1
    · subst e; cases hd
      obtain ⟨a, b, c, rfl⟩ := h3 _ (hp.2 (by simp))
      exact ⟨rfl, List.mem_cons_self, .exponential a _ b c rfl⟩
    · subst e; cases hd
      obtain ⟨a, b, c, rfl⟩ := h3 _ (hp.2 (by simp))
      exact ⟨rfl, List.mem_cons_self, .hole_effect a _ b c rfl⟩

theorem printModel_false (name : String) (ps : List ℝ) : printModel false name ps = ⟨[], .ok ()⟩ := rfl

theorem printStatistics_snd (b : Bool) (st : Stats) : (printStatistics b st).result = .ok () := rfl
theorem printStatistics_false (st : Stats) : (printStatistics false st).lines = [] := rfl
theorem printStatistics_true (st : Stats) :
    numbers (printStatistics true st).lines = statisticsLines (some st.summary) := rfl

end
end PyKrige
