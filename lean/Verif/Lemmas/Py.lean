import Verif.Py
import Mathlib.Data.List.Basic

/-! Lemmas about `Py` (exceptions as values). -/

namespace PyKrige

@[simp] theorem py_ok_bind {α β : Type _} (a : α) (f : α → Py β) :
    ((Except.ok a : Py α) >>= f) = f a := rfl

@[simp] theorem py_error_bind {α β : Type _} (e : PyErr) (f : α → Py β) :
    ((Except.error e : Py α) >>= f) = .error e := rfl

@[simp] theorem py_pure {α : Type _} (a : α) : (pure a : Py α) = .ok a := rfl

@[simp] theorem py_throw {α : Type _} (e : PyErr) : (throw e : Py α) = .error e := rfl

@[simp] theorem py_map_ok {α β : Type _} (f : α → β) (a : α) :
    (f <$> (Except.ok a : Py α)) = .ok (f a) := rfl

@[simp] theorem py_map_error {α β : Type _} (f : α → β) (e : PyErr) :
    (f <$> (Except.error e : Py α)) = .error e := rfl

theorem py_bind_eq_ok {α β : Type _} {x : Py α} {f : α → Py β} {b : β} :
    (x >>= f) = .ok b ↔ ∃ a, x = .ok a ∧ f a = .ok b := by
  cases x <;> simp

theorem py_map_eq_ok {α β : Type _} {x : Py α} {f : α → β} {b : β} :
    (f <$> x) = .ok b ↔ ∃ a, x = .ok a ∧ f a = b := by
  cases x <;> simp

theorem pyGet_eq_ok {α : Type _} {l : List α} {i : Nat} {v : α} :
    pyGet l i = .ok v ↔ l[i]? = some v := by
  unfold pyGet; cases l[i]? <;> simp

theorem py_ite_ok {α : Type _} {c : Prop} [Decidable c] {x y : Py α} {a : α} :
    (if c then x else y) = .ok a ↔ (c ∧ x = .ok a) ∨ (¬ c ∧ y = .ok a) := by
  split <;> simp_all

/-- `mapM` over a list succeeds iff every element does. -/
theorem py_mapM_eq_ok {α β : Type _} {f : α → Py β} {l : List α} {r : List β} :
    l.mapM f = .ok r ↔ List.Forall₂ (fun a b => f a = .ok b) l r := by
  induction l generalizing r with
  | nil => cases r with
    | nil => simp
    | cons b r => simp only [List.mapM_nil, py_pure]; constructor <;> intro h <;> cases h
  | cons a l ih =>
    rw [List.mapM_cons, py_bind_eq_ok]
    constructor
    · rintro ⟨b, hb, h⟩
      rw [py_bind_eq_ok] at h
      obtain ⟨bs, hbs, h⟩ := h
      simp at h
      subst h
      exact List.Forall₂.cons hb (ih.1 hbs)
    · intro h
      cases h with
      | cons h1 h2 =>
        refine ⟨_, h1, ?_⟩
        rw [py_bind_eq_ok]
        exact ⟨_, ih.2 h2, rfl⟩

theorem py_mapM_pure {α β : Type _} (f : α → β) (l : List α) :
    l.mapM (fun a => (Except.ok (f a) : Py β)) = .ok (l.map f) := by
  rw [py_mapM_eq_ok]
  induction l <;> simp_all

theorem ok_of_ite {α : Type} {c : Prop} [Decidable c] {e : PyErr} {a b : α}
    (h : (if c then (.error e : Py α) else .ok a) = .ok b) : ¬ c ∧ a = b := by
  split at h
  · cases h
  · next hc => exact ⟨hc, Except.ok.inj h⟩

end PyKrige
