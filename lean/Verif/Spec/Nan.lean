import Verif.Model.Nan
import Mathlib.Data.Fintype.Prod
import Mathlib.Data.Fin.SuccPred

/-!
# Missing values: what the theorems of C77 say
-/

namespace PyKrige.Spec
noncomputable section

/-- `v` is `z` with some numbers in place of the nans. -/
def Replaces {ι : Type} (v : ι → ℝ) (z : ι → Option ℝ) : Prop := ∀ i a, z i = some a → v i = a

/-- The same arrays with every estimate (except the masked ones) nan. -/
def allNan (r : ExecResult) : NanResult := ⟨r.shape, r.z.map (Option.map fun _ => none), r.ss⟩

/-- The same arrays: no estimate is nan. -/
def asNumbers (r : ExecResult) : NanResult := ⟨r.shape, r.z.map (Option.map some), r.ss⟩

/-- The same statistics: no residual is nan. -/
def asNumbersStats (st : Stats) : NanStats := ⟨st.delta.map some, st.sigma, st.epsilon.map some⟩

/-- All pairs of data: their distance, and half the squared difference of their values, nan if one of them is. -/
def nanPairsBy {n : ℕ} (D : Fin n → Fin n → ℝ) (z : Fin n → Option ℝ) : Multiset (ℝ × Option ℝ) :=
  (Finset.univ.filter fun p : Fin n × Fin n => p.1 < p.2).val.map fun p =>
    (D p.1 p.2, match z p.1, z p.2 with
      | some a, some b => some ((a - b) ^ 2 / 2)
      | _, _ => none)

/-- The arithmetic mean. -/
def average (l : List ℝ) : ℝ := l.sum / l.length

open Classical in
/-- Lag and semivariance of a group of pairs; a group that contains a nan is dropped. -/
def groupMean (g : List (ℝ × Option ℝ)) : Option (ℝ × ℝ) :=
  if ∃ p ∈ g, p.2 = none then none
  else some (average (g.map Prod.fst), average (g.map fun p => p.2.getD 0))

end
end PyKrige.Spec
