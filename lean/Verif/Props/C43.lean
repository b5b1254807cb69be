import Verif.Props.C25
import Verif.Props.C09

/-!
# C43: point-log drift at a well location

The claim "evaluating universal kriging with point_log drift exactly at a well returns the same with backend 'loop' as
with 'vectorized'" is false of the code (uk.py:1059-1060 assigns into a numpy scalar): `C43_loop_raises` shows that
the loop never answers a request with a visible query point at a well, `C43_wrong` that "vectorized" does.
`C43_same_partial`: away from wells the two agree.
-/

namespace PyKrige
noncomputable section
open Spec

/-- With backend "loop", a visible query point at a well makes `execute` raise. -/
theorem C43_loop_raises {n : ℕ} {env : Env} {x y z : Fin n → ℝ} {args : UKArgs} {s : UK n}
    (h : UK.create env x y z args = .ok s) {ea : UKExecArgs} (hb : ea.toExec.backend = "loop") {j : ℕ} {p : ℝ × ℝ}
    (hj : queryAt ea.toExec j = some p) (hm : maskedAt ea.toExec j = false)
    (hw : AtWell args s.anisotropyScaling s.anisotropyAngle p) : ∃ e, s.execute ea = .error e := by
  cases hr : s.execute ea with
  | error e => exact ⟨e, rfl⟩
  | ok r =>
    obtain ⟨-, hv⟩ := (UK.create_pw h ea).ok_iff.1 ⟨r, hr⟩
    exact absurd ((UK.atWell_iff h p).2 hw) ((hv j p hj (.inl hm)).2 hb).1

/-- The claim fails: data at `(0, 0)` and `(1, 0)`, one well at `(0, 1)`, and a query there.  "vectorized" returns a number,
"loop" raises. -/
theorem C43_wrong : ∃ (s : UK 2) (r : ExecResult) (v : ℝ) (e : PyErr),
    UK.create stdEnv Demo.X Demo.O ![3, 5] (Demo.wargs 1) = .ok s ∧
    s.execute { toExec := Demo.pts [(0, 1)] "vectorized" } = .ok r ∧ r.z = [some v] ∧
    s.execute { toExec := Demo.pts [(0, 1)] "loop" } = .error e := by
  obtain ⟨s, h, hp, hv, hsc, han, hrl, hpl, hez, hsp, hfu, hxc, hyc, hX, hY⟩ := Demo.wuk 1 ![3, 5]
  have hpt : s.pseudoInvType ∈ ["pinv", "pinvh"] := by
    have hf := UK.create_fields h
    rw [hf.2.2.2.1]; exact hf.1
  have m0 : logDist 0 0 0 1 = 0 := by
    unfold logDist
    norm_num
  have m1 : logDist 1 0 0 1 = Real.log (Real.sqrt 2) := by
    unfold logDist
    norm_num
  have n2 : 0 < Real.log (Real.sqrt 2) := Real.log_pos (by rw [Real.lt_sqrt (by norm_num)]; norm_num)
  have hadj : s.adjustPoint (0, 1) = ![0, 1] := by
    rw [UK.adjustPoint, hxc, hyc, hsc, han, Demo.adjust_sc]
    norm_num
  obtain ⟨r, v, hr, hz, -⟩ := Demo.well_run hpt hp hv hrl hpl hez hsp hfu hX hY (by rw [m0, m1]; exact n2.ne) (0, 1) hadj
  obtain ⟨e, he⟩ := C43_loop_raises h (ea := { toExec := Demo.pts [(0, 1)] "loop" }) rfl (j := 0) (p := (0, 1))
    (by simp [queryAt, Demo.pts]) (by simp [maskedAt, Demo.pts])
    ⟨by simp [Demo.wargs], (0, 1, -1), by simp [Demo.wargs], by simp [anisoDist2]⟩
  exact ⟨s, r, v, e, h, hr, hz, he⟩

/-- If no visible query point is at a well (and no drift is specified, see C24; and the external drift covers the masked
points, see C09), "loop" answers whenever "vectorized" does and conversely, with equal results. -/
theorem C43_same_partial {n : ℕ} {env : Env} {x y z : Fin n → ℝ} {args : UKArgs} {s : UK n}
    (h : UK.create env x y z args = .ok s) (hs : "specified" ∉ args.driftTerms) {ea : UKExecArgs}
    (hw : ∀ j p, queryAt ea.toExec j = some p → maskedAt ea.toExec j = false →
      ¬ AtWell args s.anisotropyScaling s.anisotropyAngle p)
    (he : ∀ j p, queryAt ea.toExec j = some p → maskedAt ea.toExec j = true → ExternalCovers args p) (r : ExecResult) :
    s.execute { ea with toExec := { ea.toExec with backend := "loop" } } = .ok r ↔
      s.execute { ea with toExec := { ea.toExec with backend := "vectorized" } } = .ok r :=
  ⟨fun hr => C09_vectorized_accepts_uk h hs he hr, fun hr => C09_loop_accepts_uk h hs hw hr⟩

/-- The hypotheses are met: the well of `C43_wrong`, queries away from it. -/
example : ∃ (s : UK 2) (r : ExecResult), UK.create stdEnv Demo.X Demo.O ![3, 5] (Demo.wargs 1) = .ok s ∧
    s.execute { toExec := Demo.pts [(0, 2)] "loop" } = .ok r ∧
    s.execute { toExec := Demo.pts [(0, 2)] "vectorized" } = .ok r := by
  obtain ⟨s, h, hp, hv, hsc, han, hrl, hpl, hez, hsp, hfu, hxc, hyc, hX, hY⟩ := Demo.wuk 1 ![3, 5]
  have hpt : s.pseudoInvType ∈ ["pinv", "pinvh"] := by
    have hf := UK.create_fields h
    rw [hf.2.2.2.1]; exact hf.1
  have m0 : logDist 0 0 0 1 = 0 := by
    unfold logDist
    norm_num
  have m1 : logDist 1 0 0 1 = Real.log (Real.sqrt 2) := by
    unfold logDist
    norm_num
  have n2 : 0 < Real.log (Real.sqrt 2) := Real.log_pos (by rw [Real.lt_sqrt (by norm_num)]; norm_num)
  have hadj : s.adjustPoint (0, 2) = ![0, 2] := by
    rw [UK.adjustPoint, hxc, hyc, hsc, han, Demo.adjust_sc]
    norm_num
  obtain ⟨r, v, hr, hz, -⟩ := Demo.well_run hpt hp hv hrl hpl hez hsp hfu hX hY (by rw [m0, m1]; exact n2.ne) (0, 2) hadj
  refine ⟨s, r, h, (C43_same_partial h (by simp [Demo.wargs]) (ea := { toExec := Demo.pts [(0, 2)] "vectorized" }) ?_ ?_ r).2 hr, hr⟩
  · intro j p hj _
    match j, hj with
    | 0, hj =>
      obtain rfl : (0, 2) = p := by simpa [queryAt, Demo.pts] using hj
      rintro ⟨-, w, hw, hd⟩
      obtain rfl : w = (0, 1, -1) := by simpa [Demo.wargs] using hw
      rw [hsc, han] at hd
      norm_num [anisoDist2, rad] at hd
    | j + 1, hj => simp [queryAt, Demo.pts] at hj
  · intro j p _ hm
    simp [maskedAt, Demo.pts] at hm

end
end PyKrige
