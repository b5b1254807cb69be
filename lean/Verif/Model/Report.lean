import Verif.Model.History

/-! The methods that report on the variogram in use.  They only read attributes.
(`OK.getVariogramPoints` is in `Model/OK.lean`.) -/

namespace PyKrige
noncomputable section

/-- `get_variogram_points`; uk.py:804-822 -/
def UK.getVariogramPoints {n : ℕ} (s : UK n) : Py (List ℝ × List ℝ) := do
  let g ← s.variogramFunction s.params
  return (s.lags.map Prod.fst, s.lags.map fun l => g l.1)

/-- `get_statistics` of an object whose statistics were computed; the attributes `Q1`, `Q2`, `cR` are assigned together
with `epsilon` and `sigma`; ok.py:361-375, 539-553, 611-615, ok3d.py:352-366, 536-550, 588-592, uk.py:380-394, 774-788,
846-850, uk3d.py:363-377, 621-635, 673-677.  Division by zero (fewer than two statistics) is not modelled. -/
def Stats.summary (st : Stats) : ℝ × ℝ × ℝ :=
  (calcQ1 st.epsilon, calcQ2 st.epsilon, calcCR (calcQ2 st.epsilon) st.sigma)

/-- `get_statistics`; `None, None, None` without statistics; ok.py:377, 611-615 -/
def OK.getStatistics {n : ℕ} (s : OK n) : Option (ℝ × ℝ × ℝ) := s.stats.map Stats.summary

/-- `get_epsilon_residuals`; ok.py:377, 597-599 -/
def OK.getEpsilonResiduals {n : ℕ} (s : OK n) : Option (List ℝ) := s.stats.map Stats.epsilon

/-- `get_statistics`; ok3d.py:588-592 -/
def OK3D.getStatistics {n : ℕ} (s : OK3D n) : Option (ℝ × ℝ × ℝ) := s.stats.map Stats.summary

/-- `get_epsilon_residuals`; ok3d.py:574-576 -/
def OK3D.getEpsilonResiduals {n : ℕ} (s : OK3D n) : Option (List ℝ) := s.stats.map Stats.epsilon

/-- `get_statistics`; uk.py:846-850 -/
def UK.getStatistics {n : ℕ} (s : UK n) : Option (ℝ × ℝ × ℝ) := s.stats.map Stats.summary

/-- `get_epsilon_residuals`; uk.py:832-834 -/
def UK.getEpsilonResiduals {n : ℕ} (s : UK n) : Option (List ℝ) := s.stats.map Stats.epsilon

/-- `get_statistics`; uk3d.py:673-677 -/
def UK3D.getStatistics {n : ℕ} (s : UK3D n) : Option (ℝ × ℝ × ℝ) := s.stats.map Stats.summary

/-- `get_epsilon_residuals`; uk3d.py:659-661 -/
def UK3D.getEpsilonResiduals {n : ℕ} (s : UK3D n) : Option (List ℝ) := s.stats.map Stats.epsilon

end
end PyKrige
