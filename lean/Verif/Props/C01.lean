import Verif.Model.OK3D
import Verif.Model.UK3D
import Verif.Lemmas.Create

/-!
# C01  Variogram parameters mean the same in every accepted format
-/

namespace PyKrige
noncomputable section

/-- The models with a sill. -/
def sillModels : List String := ["gaussian", "spherical", "exponential", "hole-effect"]

/-- All model names a user may pass as a string, except "custom". -/
def builtinModels : List String := ["linear", "power"] ++ sillModels

/-- A dict whose entries are given by a list of key/value pairs (first match wins). -/
def dictOf (l : List (String × ℝ)) : ParamArg := .dict fun k => l.lookup k

/-- The two ways of giving parameters configure the same object in all four classes: the constructors
return the same object or raise the same exception, whatever the other arguments are. -/
def SameConfiguration (m : String) (p q : ParamArg) : Prop :=
  (∀ (n : ℕ) env (x y z : Fin n → ℝ) (args : OKArgs),
    OK.create env x y z { args with variogramModel := .name m, params := p } =
    OK.create env x y z { args with variogramModel := .name m, params := q }) ∧
  (∀ (n : ℕ) env (x y z v : Fin n → ℝ) (args : OK3DArgs),
    OK3D.create env x y z v { args with variogramModel := .name m, params := p } =
    OK3D.create env x y z v { args with variogramModel := .name m, params := q }) ∧
  (∀ (n : ℕ) env (x y z : Fin n → ℝ) (args : UKArgs),
    UK.create env x y z { args with variogramModel := .name m, params := p } =
    UK.create env x y z { args with variogramModel := .name m, params := q }) ∧
  (∀ (n : ℕ) env (x y z v : Fin n → ℝ) (args : UK3DArgs),
    UK3D.create env x y z v { args with variogramModel := .name m, params := p } =
    UK3D.create env x y z v { args with variogramModel := .name m, params := q }) ∧
  (∀ (n : ℕ) env (s : OK n) (u : OKUpdate),
    OK.update env s { u with variogramModel := .name m, params := p } =
    OK.update env s { u with variogramModel := .name m, params := q }) ∧
  (∀ (n : ℕ) env (s : OK3D n) (u : Update3D),
    OK3D.update env s { u with variogramModel := .name m, params := p } =
    OK3D.update env s { u with variogramModel := .name m, params := q }) ∧
  (∀ (n : ℕ) env (s : UK n) (u : OKUpdate),
    UK.update env s { u with variogramModel := .name m, params := p } =
    UK.update env s { u with variogramModel := .name m, params := q }) ∧
  (∀ (n : ℕ) env (s : UK3D n) (u : Update3D),
    UK3D.update env s { u with variogramModel := .name m, params := p } =
    UK3D.update env s { u with variogramModel := .name m, params := q })

private theorem same_of_list {m : String} {p q : ParamArg}
    (h : makeVariogramParameterList m p = makeVariogramParameterList m q)
    (hp : p ≠ .none) (hq : q ≠ .none) : SameConfiguration m p q := by
  have hint : intParams p = intParams q := by
    funext ps b
    cases p <;> cases q <;> simp_all [intParams]
  refine ⟨?_, ?_, ?_, ?_, ?_, ?_, ?_, ?_⟩
  · intro n env x y z args
    simp only [OK.create, OK.resolveModel, py_ok_bind, h, hint]
  · intro n env x y z v args
    simp only [OK3D.create, OK3D.resolveModel, py_ok_bind, h]
  · intro n env x y z args
    simp only [UK.create, UK.resolveModel, py_ok_bind, h]
    rfl
  · intro n env x y z v args
    simp only [UK3D.create, OK3D.resolveModel, py_ok_bind, h]
  · intro n env s u
    simp only [OK.update, OK.resolveModel, h, hint]
  · intro n env s u
    simp only [OK3D.update, OK3D.resolveModel, h]
  · intro n env s u
    simp only [UK.update, UK.resolveModel, h]
  · intro n env s u
    simp only [UK3D.update, OK3D.resolveModel, h]

/-- Sill models: the list `[sill, range, nugget]`, the dict with 'sill' and the dict with 'psill' =
sill - nugget configure the same object; further dict entries (also a 'psill' beside a 'sill') are
ignored. -/
theorem C01_formats_agree (m : String) (hm : m ∈ sillModels) (sill range nugget : ℝ)
    (d d' : String → Option ℝ)
    (hd : d "sill" = some sill ∧ d "range" = some range ∧ d "nugget" = some nugget)
    (hd' : d' "sill" = none ∧ d' "psill" = some (sill - nugget) ∧ d' "range" = some range ∧
      d' "nugget" = some nugget) :
    SameConfiguration m (.list [sill, range, nugget]) (.dict d) ∧
    SameConfiguration m (.list [sill, range, nugget]) (.dict d') := by
  obtain ⟨h1, h2, h3⟩ := hd
  obtain ⟨h0', h1', h2', h3'⟩ := hd'
  constructor <;> refine same_of_list ?_ (by simp) (by simp) <;>
    simp only [sillModels, List.mem_cons, List.not_mem_nil, or_false] at hm <;>
    rcases hm with rfl | rfl | rfl | rfl <;>
    simp [makeVariogramParameterList, pyGet, *]

/-- A dict with both 'sill' and 'psill' follows 'sill': changing 'psill' changes nothing. -/
theorem C01_sill_wins (m : String) (hm : m ∈ sillModels) (d : String → Option ℝ) (s : ℝ)
    (hs : d "sill" = some s) (ps : Option ℝ) :
    SameConfiguration m (.dict d) (.dict fun k => if k = "psill" then ps else d k) := by
  refine same_of_list ?_ (by simp) (by simp)
  simp only [sillModels, List.mem_cons, List.not_mem_nil, or_false] at hm
  rcases hm with rfl | rfl | rfl | rfl <;> simp [makeVariogramParameterList, hs]

/-- Linear: list `[slope, nugget]` and dict agree. -/
theorem C01_linear_agree (slope nugget : ℝ) (d : String → Option ℝ)
    (h1 : d "slope" = some slope) (h2 : d "nugget" = some nugget) :
    SameConfiguration "linear" (.list [slope, nugget]) (.dict d) := by
  refine same_of_list ?_ (by simp) (by simp)
  simp [makeVariogramParameterList, h1, h2]

/-- Power: list `[scale, exponent, nugget]` and dict agree. -/
theorem C01_power_agree (scale exponent nugget : ℝ) (d : String → Option ℝ)
    (h1 : d "scale" = some scale) (h2 : d "exponent" = some exponent)
    (h3 : d "nugget" = some nugget) :
    SameConfiguration "power" (.list [scale, exponent, nugget]) (.dict d) := by
  refine same_of_list ?_ (by simp) (by simp)
  simp [makeVariogramParameterList, h1, h2, h3]

/-- What is configured: a constructed object's variogram is the documented formula in the given
numbers, with partial sill = sill - nugget. -/
theorem C01_meaning {n : ℕ} (env : Env) (x y z : Fin n → ℝ) (args : OKArgs) (s : OK n)
    (a b c : ℝ) (m : String)
    (h : OK.create env x y z { args with variogramModel := .name m, params := .list [a, b, c] } =
      .ok s) :
    (m = "gaussian" → s.variogramFunction s.params = .ok fun d =>
      (a - c) * (1 - Real.exp (-(d ^ 2) / (b * 4 / 7) ^ 2)) + c) ∧
    (m = "exponential" → s.variogramFunction s.params = .ok fun d =>
      (a - c) * (1 - Real.exp (-d / (b / 3))) + c) ∧
    (m = "spherical" → s.variogramFunction s.params = .ok fun d =>
      if d ≤ b then (a - c) * (3 * d / (2 * b) - d ^ 3 / (2 * b ^ 3)) + c else (a - c) + c) ∧
    (m = "hole-effect" → s.variogramFunction s.params = .ok fun d =>
      (a - c) * (1 - (1 - d / (b / 3)) * Real.exp (-d / (b / 3))) + c) ∧
    (m = "power" → s.variogramFunction s.params = .ok fun d => a * d ^ b + c) := by
  obtain ⟨-, _, name, _, _, pArg, _, _, f, _, _, _, _, _, _, vp, _, ps, _, -, h1, h2, -, h3, h4, -,
    rfl⟩ := OK.create_ok h
  simp only [OK.resolveModel, Except.ok.injEq, Prod.mk.injEq] at h1
  obtain ⟨rfl, -, rfl, rfl, -, -⟩ := h1
  obtain ⟨ev, -, h4⟩ := py_bind_eq_ok.1 h4
  refine ⟨?_, ?_, ?_, ?_, ?_⟩ <;> rintro rfl <;>
    simp [makeVariogramParameterList, pyGet] at h3 <;> subst h3 <;> simp at h4 <;>
    obtain ⟨-, rfl⟩ := h4 <;>
    simp [chooseFunction, variogramDict] at h2 <;> obtain ⟨rfl, -⟩ := h2 <;> rfl

/-- What a rejected parameter argument does: every one of the four constructors and the update method
raise instead of building an object (`update` never reports success). -/
def RejectedConfiguration (m : String) (p : ParamArg) : Prop :=
  (∀ (n : ℕ) env (x y z : Fin n → ℝ) (args : OKArgs), ∃ e,
    OK.create env x y z { args with variogramModel := .name m, params := p } = .error e) ∧
  (∀ (n : ℕ) env (x y z v : Fin n → ℝ) (args : OK3DArgs), ∃ e,
    OK3D.create env x y z v { args with variogramModel := .name m, params := p } = .error e) ∧
  (∀ (n : ℕ) env (x y z : Fin n → ℝ) (args : UKArgs), ∃ e,
    UK.create env x y z { args with variogramModel := .name m, params := p } = .error e) ∧
  (∀ (n : ℕ) env (x y z v : Fin n → ℝ) (args : UK3DArgs), ∃ e,
    UK3D.create env x y z v { args with variogramModel := .name m, params := p } = .error e) ∧
  (∀ (n : ℕ) env (s : OK n) (u : OKUpdate), ∃ e,
    (OK.update env s { u with variogramModel := .name m, params := p }).1 = .error e) ∧
  (∀ (n : ℕ) env (s : OK3D n) (u : Update3D), ∃ e,
    (OK3D.update env s { u with variogramModel := .name m, params := p }).1 = .error e) ∧
  (∀ (n : ℕ) env (s : UK n) (u : OKUpdate), ∃ e,
    (UK.update env s { u with variogramModel := .name m, params := p }).1 = .error e) ∧
  (∀ (n : ℕ) env (s : UK3D n) (u : Update3D), ∃ e,
    (UK3D.update env s { u with variogramModel := .name m, params := p }).1 = .error e)

private theorem exists_error_of_ne_ok {α : Type} {x : Py α} (h : ∀ a, x ≠ .ok a) :
    ∃ e, x = .error e := by
  cases x with
  | ok a => exact absurd rfl (h a)
  | error e => exact ⟨e, rfl⟩

private theorem rejected_of {m : String} {p : ParamArg} {e : PyErr}
    (h : makeVariogramParameterList m p = .error e) : RejectedConfiguration m p := by
  refine ⟨?_, ?_, ?_, ?_, ?_, ?_, ?_, ?_⟩
  · intro n env x y z args
    refine exists_error_of_ne_ok fun s hs => ?_
    obtain ⟨-, _, name, _, _, pArg, _, _, f, _, _, _, _, _, _, vp, _, ps, _, -, h1, -, -, h3, -⟩ :=
      OK.create_ok hs
    simp only [OK.resolveModel, Except.ok.injEq, Prod.mk.injEq] at h1
    obtain ⟨rfl, -, -, rfl, -, -⟩ := h1
    simp [h] at h3
  · intro n env x y z v args
    refine exists_error_of_ne_ok fun s hs => ?_
    obtain ⟨-, _, name, _, _, pArg, _, _, _, _, _, _, _, _, _, _, -, h1, -, -, -, -, h3, -⟩ :=
      OK3D.create_ok hs
    simp only [OK3D.resolveModel, Except.ok.injEq, Prod.mk.injEq] at h1
    obtain ⟨rfl, -, -, rfl, -⟩ := h1
    simp [h] at h3
  · intro n env x y z args
    refine exists_error_of_ne_ok fun s hs => ?_
    obtain ⟨-, _, name, _, _, pArg, _, _, _, _, _, _, _, _, _, _, _, _, _, _, -, h1, -, -, -, h3, -⟩ :=
      UK.create_ok hs
    simp only [UK.resolveModel, Except.ok.injEq, Prod.mk.injEq] at h1
    obtain ⟨rfl, -, -, rfl, -⟩ := h1
    simp [h] at h3
  · intro n env x y z v args
    refine exists_error_of_ne_ok fun s hs => ?_
    obtain ⟨-, _, name, _, _, pArg, _, _, _, _, _, _, _, _, _, _, _, _, -, h1, -, -, -, -, h3, -⟩ :=
      UK3D.create_ok hs
    simp only [OK3D.resolveModel, Except.ok.injEq, Prod.mk.injEq] at h1
    obtain ⟨rfl, -, -, rfl, -⟩ := h1
    simp [h] at h3
  · intro n env s u
    simp only [OK.update, OK.resolveModel, h]
    split <;> exact ⟨_, rfl⟩
  · intro n env s u
    simp only [OK3D.update, OK3D.resolveModel, h]
    split <;> exact ⟨_, rfl⟩
  · intro n env s u
    simp only [UK.update, UK.resolveModel, h]
    split <;> exact ⟨_, rfl⟩
  · intro n env s u
    simp only [UK3D.update, OK3D.resolveModel, h]
    split <;> exact ⟨_, rfl⟩

/-- The keys a parameter dict must have. -/
def requiredKeys (m : String) : List String :=
  if m = "linear" then ["slope", "nugget"]
  else if m = "power" then ["scale", "exponent", "nugget"]
  else ["range", "nugget"]

/-- The number of entries a parameter list must have. -/
def requiredLength (m : String) : ℕ := if m = "linear" then 2 else 3

/-- A dict lacking a key (for the sill models also: lacking both 'sill' and 'psill') is a `KeyError`
of the parameter reader, and nothing is constructed or updated. -/
theorem C01_missing_key (m : String) (hm : m ∈ builtinModels) (d : String → Option ℝ)
    (h : (∃ k ∈ requiredKeys m, d k = none) ∨
      (m ∈ sillModels ∧ d "sill" = none ∧ d "psill" = none)) :
    makeVariogramParameterList m (.dict d) = .error .keyError ∧
    RejectedConfiguration m (.dict d) := by
  have key : makeVariogramParameterList m (.dict d) = .error .keyError := by
    simp only [builtinModels, sillModels, List.cons_append, List.nil_append, List.mem_cons,
      List.not_mem_nil, or_false] at hm
    rcases hm with rfl | rfl | rfl | rfl | rfl | rfl <;>
      simp [requiredKeys, sillModels] at h <;>
      simp only [makeVariogramParameterList, List.mem_cons, List.not_mem_nil, or_false] <;>
      simp <;>
      (repeat' split) <;> simp_all
  exact ⟨key, rejected_of key⟩

/-- A list of the wrong length is a `ValueError`, and nothing is constructed or updated. -/
theorem C01_wrong_length (m : String) (hm : m ∈ builtinModels) (l : List ℝ)
    (h : l.length ≠ requiredLength m) :
    makeVariogramParameterList m (.list l) = .error .valueError ∧
    RejectedConfiguration m (.list l) := by
  have key : makeVariogramParameterList m (.list l) = .error .valueError := by
    simp only [builtinModels, sillModels, List.cons_append, List.nil_append, List.mem_cons,
      List.not_mem_nil, or_false] at hm
    rcases hm with rfl | rfl | rfl | rfl | rfl | rfl <;>
      simp [requiredLength] at h <;> simp [makeVariogramParameterList, h]
  exact ⟨key, rejected_of key⟩

/-- A dict for the custom model, and anything that is neither a list nor a dict, is a `TypeError`. -/
theorem C01_type_errors :
    (∀ d, makeVariogramParameterList "custom" (.dict d) = .error .typeError ∧
      RejectedConfiguration "custom" (.dict d)) ∧
    (∀ m, makeVariogramParameterList m .other = .error .typeError ∧
      RejectedConfiguration m .other) := by
  have h1 : ∀ d, makeVariogramParameterList "custom" (.dict d) = .error .typeError := fun d => by
    simp [makeVariogramParameterList]
  have h2 : ∀ m, makeVariogramParameterList m .other = .error .typeError := fun m => rfl
  exact ⟨fun d => ⟨h1 d, rejected_of (h1 d)⟩, fun m => ⟨h2 m, rejected_of (h2 m)⟩⟩

/-- An unknown model name raises whatever the parameters are. -/
theorem C01_unknown_model (m : String) (hm : m ∉ builtinModels) (hc : m ≠ "custom") (p : ParamArg) :
    RejectedConfiguration m p := by
  have hd : variogramDict m = none := by
    simp [builtinModels, sillModels] at hm
    simp [variogramDict, hm]
  have hch : ∀ f, chooseFunction m f = .error .valueError := fun f => by
    simp [chooseFunction, hd, hc]
  refine ⟨?_, ?_, ?_, ?_, ?_, ?_, ?_, ?_⟩
  · intro n env x y z args
    refine exists_error_of_ne_ok fun s hs => ?_
    obtain ⟨-, _, name, _, _, pArg, _, _, f, _, _, _, _, _, _, vp, _, ps, _, -, h1, h3, -⟩ :=
      OK.create_ok hs
    simp only [OK.resolveModel, Except.ok.injEq, Prod.mk.injEq] at h1
    obtain ⟨rfl, -, -, rfl, -, -⟩ := h1
    simp [hch] at h3
  · intro n env x y z v args
    refine exists_error_of_ne_ok fun s hs => ?_
    obtain ⟨-, _, name, _, _, pArg, _, _, _, _, _, _, _, _, _, _, -, h1, h3, -⟩ :=
      OK3D.create_ok hs
    simp only [OK3D.resolveModel, Except.ok.injEq, Prod.mk.injEq] at h1
    obtain ⟨rfl, -, -, rfl, -⟩ := h1
    simp [hch] at h3
  · intro n env x y z args
    refine exists_error_of_ne_ok fun s hs => ?_
    obtain ⟨-, _, name, _, _, pArg, _, _, _, _, _, _, _, _, _, _, _, _, _, _, -, h1, h3, -⟩ :=
      UK.create_ok hs
    simp only [UK.resolveModel, Except.ok.injEq, Prod.mk.injEq] at h1
    obtain ⟨rfl, -, -, rfl, -⟩ := h1
    simp [hch] at h3
  · intro n env x y z v args
    refine exists_error_of_ne_ok fun s hs => ?_
    obtain ⟨-, _, name, _, _, pArg, _, _, _, _, _, _, _, _, _, _, _, _, -, h1, h3, -⟩ :=
      UK3D.create_ok hs
    simp only [OK3D.resolveModel, Except.ok.injEq, Prod.mk.injEq] at h1
    obtain ⟨rfl, -, -, rfl, -⟩ := h1
    simp [hch] at h3
  · intro n env s u
    simp only [OK.update, OK.resolveModel, hch]
    exact ⟨_, rfl⟩
  · intro n env s u
    simp only [OK3D.update, OK3D.resolveModel, hch]
    exact ⟨_, rfl⟩
  · intro n env s u
    simp only [UK.update, UK.resolveModel, hch]
    exact ⟨_, rfl⟩
  · intro n env s u
    simp only [UK3D.update, OK3D.resolveModel, hch]
    exact ⟨_, rfl⟩

/-- `None`: the parameters of the constructed object are what the least-squares fit of the
experimental variogram returned. -/
theorem C01_none_is_fitted {n : ℕ} (env : Env) (x y z : Fin n → ℝ) (args : OKArgs) (s : OK n)
    (m : String)
    (h : OK.create env x y z { args with variogramModel := .name m, params := .none } = .ok s) :
    calculateVariogramModel env (s.lags.map Prod.fst) (s.lags.map Prod.snd) m s.variogramFunction
      args.weight = .ok s.params := by
  obtain ⟨-, _, name, _, _, pArg, _, _, f, _, _, _, _, _, _, vp, _, ps, _, -, h1, h2, -, h3, h4, -,
    rfl⟩ := OK.create_ok h
  simp only [OK.resolveModel, Except.ok.injEq, Prod.mk.injEq] at h1
  obtain ⟨rfl, -, rfl, rfl, -, -⟩ := h1
  obtain ⟨ev, -, h4⟩ := py_bind_eq_ok.1 h4
  simp [makeVariogramParameterList] at h3
  subst h3
  split at h4
  · simp_all
  · split at h4
    · simp at h4
    · obtain ⟨ps', h5, h6⟩ := py_bind_eq_ok.1 h4
      simp at h6
      obtain ⟨rfl, rfl⟩ := h6
      exact h5

end
end PyKrige
