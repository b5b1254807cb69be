import Verif.Spec.Accept
import Verif.Lemmas.Py

/-! The checks of the code are those of `Spec/Accept.lean`. -/

namespace PyKrige
noncomputable section
open Spec

theorem validateGstools_iff (version : Option (ℕ × ℕ)) (m : GsModel) :
    validateGstools version m = .ok () ↔ GsUsable version m := by
  unfold validateGstools GsUsable
  cases version with
  | none => simp
  | some v =>
    obtain ⟨a, b⟩ := v
    have h3 : versionLt (a, b) (1, 3) = true ↔ ¬ (1 < a ∨ a = 1 ∧ 3 ≤ b) := by
      simp only [versionLt, Bool.or_eq_true, decide_eq_true_eq, Bool.and_eq_true, beq_iff_eq]; omega
    have h4 : versionLt (a, b) (1, 4) = true ↔ ¬ (1 < a ∨ a = 1 ∧ 4 ≤ b) := by
      simp only [versionLt, Bool.or_eq_true, decide_eq_true_eq, Bool.and_eq_true, beq_iff_eq]; omega
    cases hm : m.isCovModel with
    | false => simp
    | true =>
      simp only [not_true_eq_false, if_false, h3, true_and, Bool.and_eq_true, h4]
      by_cases h : (1 < a ∨ a = 1 ∧ 3 ≤ b)
      · rw [if_neg (not_not.2 h)]
        cases hl : m.latlon
        · simp [h]
        · by_cases h' : (1 < a ∨ a = 1 ∧ 4 ≤ b)
          · simp [h, h']
          · simp [h, h']
      · rw [if_pos h]
        simp [h]

theorem validateGstools_err {version : Option (ℕ × ℕ)} {m : GsModel} (h : ¬ GsUsable version m) :
    validateGstools version m = .error .gstoolsException := by
  have h' := mt (validateGstools_iff version m).1 h
  unfold validateGstools at h' ⊢
  revert h'
  cases version with
  | none => simp
  | some v =>
    dsimp only
    split_ifs <;> simp

theorem variogramDict_isNone (s : String) : (variogramDict s).isNone = true ↔ s ∉ builtins := by
  unfold variogramDict builtins
  split_ifs <;> simp_all

theorem chooseFunction_iff (s : String) (f : FunArg) : (∃ r, chooseFunction s f = .ok r) ↔ NameUsable s f := by
  unfold chooseFunction NameUsable
  have hN := variogramDict_isNone s
  by_cases hb : s ∈ builtins
  · have hc : s ≠ "custom" := by rintro rfl; simp [builtins] at hb
    have : ∃ g, variogramDict s = some g := by
      by_contra hn
      push Not at hn
      have h0 : (variogramDict s).isNone = true := by
        cases h : variogramDict s with
        | none => rfl
        | some g => exact absurd h (hn g)
      exact (variogramDict_isNone s).1 h0 hb
    obtain ⟨g, hg⟩ := this
    rw [if_neg (by tauto), if_neg hc, hg]
    simp [hb]
  · by_cases hc : s = "custom"
    · rw [if_neg (by tauto), if_pos hc]
      subst hc
      cases f <;> simp [hb]
    · rw [if_pos ⟨hN.2 hb, hc⟩]
      simp [hb, hc]

theorem chooseFunction_err {s : String} {f : FunArg} (h : ¬ NameUsable s f) :
    chooseFunction s f = .error .valueError := by
  have h' := mt (chooseFunction_iff s f).1 h
  push Not at h'
  unfold chooseFunction at h' ⊢
  split_ifs at h' ⊢ with h1 h2
  · rfl
  · cases f
    case callable g nm => exact absurd rfl (h' (g, nm))
    all_goals rfl
  · cases hg : variogramDict s with
    | none => rfl
    | some g => rw [hg] at h'; exact absurd rfl (h' (g, variogramFunctionName s))

theorem makeParams_iff {s : String} (hs : s ∈ builtins ∨ s = "custom") (p : ParamArg) :
    (∃ r, makeVariogramParameterList s p = .ok r) ↔ ParamsWellFormed s p := by
  cases p with
  | none => simp [makeVariogramParameterList, ParamsWellFormed]
  | other => simp [makeVariogramParameterList, ParamsWellFormed]
  | list l =>
    have key : l.length = 3 → ∃ r, (do
        let p0 ← pyGet l 0
        let p1 ← pyGet l 1
        let p2 ← pyGet l 2
        return some [p0 - p2, p1, p2] : Py (Option (List ℝ))) = .ok r := by
      intro h
      match l, h with
      | [a, b, c], _ => exact ⟨_, rfl⟩
    simp only [builtins, List.mem_cons, List.not_mem_nil, or_false] at hs
    rcases hs with (rfl | rfl | rfl | rfl | rfl | rfl) | rfl <;>
      simp [makeVariogramParameterList, ParamsWellFormed]
    · by_cases h : l.length = 2 <;> simp [h]
    · by_cases h : l.length = 3 <;> simp [h]
    all_goals
      by_cases h : l.length = 3
      · simpa [h] using key h
      · simp [h]
  | dict d =>
    simp only [builtins, List.mem_cons, List.not_mem_nil, or_false] at hs
    rcases hs with (rfl | rfl | rfl | rfl | rfl | rfl) | rfl <;>
      simp only [makeVariogramParameterList, ParamsWellFormed, List.mem_cons, List.not_mem_nil, or_false, or_true,
        if_true, reduceIte, String.reduceEq]
    · cases d "slope" <;> cases d "nugget" <;> simp
    · cases d "scale" <;> cases d "exponent" <;> cases d "nugget" <;> simp
    all_goals
      cases d "sill" <;> cases d "psill" <;> cases d "range" <;> cases d "nugget" <;> simp

theorem makeParams_err {s : String} (hs : s ∈ builtins ∨ s = "custom") {p : ParamArg} (h : ¬ ParamsWellFormed s p) :
    ∃ e, makeVariogramParameterList s p = .error e := by
  have h' := mt (makeParams_iff hs p).1 h
  push Not at h'
  cases hm : makeVariogramParameterList s p with
  | error e => exact ⟨e, rfl⟩
  | ok r => exact absurd hm (h' r)

theorem OK.resolve_iff (env : Env) (ct : String) (vm : ModelArg) (f : FunArg) (p : ParamArg) (sc an : ℝ) :
    (∃ name model fArg pArg sc' an' r, OK.resolveModel env ct vm f p sc an = .ok (name, model, fArg, pArg, sc', an') ∧
      chooseFunction name fArg = .ok r) ↔ OKModelUsable env ct vm f := by
  unfold OK.resolveModel OKModelUsable
  cases vm with
  | name s =>
    simp only [Except.ok.injEq, Prod.mk.injEq]
    rw [← chooseFunction_iff]
    constructor
    · rintro ⟨name, model, fArg, pArg, sc', an', r, ⟨rfl, rfl, rfl, rfl, rfl, rfl⟩, h⟩; exact ⟨r, h⟩
    · rintro ⟨r, h⟩; exact ⟨_, _, _, _, _, _, r, ⟨rfl, rfl, rfl, rfl, rfl, rfl⟩, h⟩
  | gstools m =>
    dsimp only
    constructor
    · rintro ⟨name, model, fArg, pArg, sc', an', r, h, -⟩
      obtain ⟨⟨⟩, h1, h⟩ := py_bind_eq_ok.1 h
      split_ifs at h with h2 h3 h3 <;> try cases h
      exact ⟨(validateGstools_iff _ _).1 h1, h2, h3⟩
    · rintro ⟨h1, h2, h3⟩
      rw [(validateGstools_iff _ _).2 h1, py_ok_bind, if_neg h2]
      refine ⟨"custom", some m, .callable (fun _ => .ok m.vario) "pykrige_vario", .list [], m.anis, m.angle,
        ((fun _ => .ok m.vario), "pykrige_vario"), ?_, by simp [chooseFunction]⟩
      rw [if_neg h3]
      rfl

theorem UK.resolve_iff (env : Env) (vm : ModelArg) (f : FunArg) (p : ParamArg) (sc an : ℝ) :
    (∃ name model fArg pArg sc' an' r, UK.resolveModel env vm f p sc an = .ok (name, model, fArg, pArg, sc', an') ∧
      chooseFunction name fArg = .ok r) ↔ UKModelUsable env vm f := by
  unfold UK.resolveModel UKModelUsable
  cases vm with
  | name s =>
    simp only [Except.ok.injEq, Prod.mk.injEq]
    rw [← chooseFunction_iff]
    constructor
    · rintro ⟨name, model, fArg, pArg, sc', an', r, ⟨rfl, rfl, rfl, rfl, rfl, rfl⟩, h⟩; exact ⟨r, h⟩
    · rintro ⟨r, h⟩; exact ⟨_, _, _, _, _, _, r, ⟨rfl, rfl, rfl, rfl, rfl, rfl⟩, h⟩
  | gstools m =>
    dsimp only
    constructor
    · rintro ⟨name, model, fArg, pArg, sc', an', r, h, -⟩
      obtain ⟨⟨⟩, h1, h⟩ := py_bind_eq_ok.1 h
      split_ifs at h with h2 h3 h3 <;> try cases h
      exact ⟨(validateGstools_iff _ _).1 h1, h2, by simpa using h3⟩
    · rintro ⟨h1, h2, h3⟩
      rw [(validateGstools_iff _ _).2 h1, py_ok_bind, if_neg h2]
      refine ⟨"custom", some m, .callable (fun _ => .ok m.vario) "pykrige_vario", .list [], m.anis, m.angle,
        ((fun _ => .ok m.vario), "pykrige_vario"), ?_, by simp [chooseFunction]⟩
      rw [if_neg (by simp [h3])]
      rfl

theorem OK3D.resolve_iff (env : Env) (vm : ModelArg) (f : FunArg) (p : ParamArg) (an : Aniso3) :
    (∃ name model fArg pArg an' r, OK3D.resolveModel env vm f p an = .ok (name, model, fArg, pArg, an') ∧
      chooseFunction name fArg = .ok r) ↔ ModelUsable3 env vm f := by
  unfold OK3D.resolveModel ModelUsable3
  cases vm with
  | name s =>
    simp only [Except.ok.injEq, Prod.mk.injEq]
    rw [← chooseFunction_iff]
    constructor
    · rintro ⟨name, model, fArg, pArg, an', r, ⟨rfl, rfl, rfl, rfl, rfl⟩, h⟩; exact ⟨r, h⟩
    · rintro ⟨r, h⟩; exact ⟨_, _, _, _, _, r, ⟨rfl, rfl, rfl, rfl, rfl⟩, h⟩
  | gstools m =>
    dsimp only
    constructor
    · rintro ⟨name, model, fArg, pArg, an', r, h, -⟩
      obtain ⟨⟨⟩, h1, h⟩ := py_bind_eq_ok.1 h
      split_ifs at h with h2
      · cases h
      · exact ⟨(validateGstools_iff _ _).1 h1, not_lt.1 h2⟩
    · rintro ⟨h1, h2⟩
      rw [(validateGstools_iff _ _).2 h1, py_ok_bind, if_neg (not_lt.2 h2)]
      refine ⟨_, _, _, _, _, ((fun _ => .ok m.vario), "pykrige_vario"), rfl, by simp [chooseFunction]⟩

end
end PyKrige
