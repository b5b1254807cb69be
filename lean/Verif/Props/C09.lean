import Verif.Lemmas.Backend
import Verif.Lemmas.UKValid
import Verif.Examples.Demo

/-!
# C09: all backends return the same answer
-/

set_option linter.unusedSectionVars false

namespace PyKrige
noncomputable section
open Matrix Spec

/-- Two calls with the same table of answers. -/
theorem Pointwise.same {α : Type} {run run' : ExecResult → Prop} {shape : List ℕ}
    {query : ℕ → Option α} {masked : ℕ → Bool} {acc acc' : Prop}
    {need need' : ℕ → Prop} {valid valid' : ℕ → α → Prop} {ans ans' : ℕ → α → ℝ × ℝ}
    (h : Pointwise run shape query masked acc need valid ans)
    (h' : Pointwise run' shape query masked acc' need' valid' ans')
    (ha : ∀ j p, query j = some p → masked j = false → ans' j p = ans j p)
    {r r' : ExecResult} (hr : run r) (hr' : run' r') : r' = r :=
  (h.table r hr).eq (h'.table r' hr') (fun _ _ _ => rfl) ha

/-- `OrdinaryKriging`: any two backends that are offered return the same arrays, or both raise; with or
without moving window. -/
theorem C09_backends_2d {n : ℕ} {env : Env} {x y z : Fin n → ℝ} {args : OKArgs} {s : OK n}
    (h : OK.create env x y z args = .ok s) {ea : ExecArgs} (ha : Admissible env args s ea.nClosest)
    (b b' : String) (hb : Supports env args ea.nClosest b) (hb' : Supports env args ea.nClosest b')
    (r : ExecResult) :
    s.execute env { ea with backend := b } = .ok r ↔ s.execute env { ea with backend := b' } = .ok r := by
  have key : ∀ b b' r, Supports env args ea.nClosest b → Supports env args ea.nClosest b' →
      s.execute env { ea with backend := b } = .ok r → s.execute env { ea with backend := b' } = .ok r := by
    intro b b' r hb hb' hr
    have h1 := OK.create_pw h (ea := { ea with backend := b }) ha
    have h2 := OK.create_pw h (ea := { ea with backend := b' }) ha
    obtain ⟨r', hr'⟩ := h1.success h2 hr (fun a => ⟨a.style, a.win, a.vario, a.query, a.noInt,
      (OK.check_iff h ha.noClash a.vario _).2 hb', a.solvable⟩) (fun _ hv => hv)
    have := h1.same h2 (fun _ _ _ _ => rfl) hr hr'
    rw [hr', this]
  exact ⟨key b b' r hb hb', key b' b r hb' hb⟩

/-- A backend that is not offered is refused. -/
theorem C09_refused_2d {n : ℕ} {env : Env} {x y z : Fin n → ℝ} {args : OKArgs} {s : OK n}
    (h : OK.create env x y z args = .ok s) {ea : ExecArgs} (ha : Admissible env args s ea.nClosest)
    (hb : ¬ Supports env args ea.nClosest ea.backend) (r : ExecResult) : s.execute env ea ≠ .ok r := by
  intro hr
  have h1 := OK.create_pw h ha
  obtain ⟨a, -⟩ := h1.ok_iff.1 ⟨r, hr⟩
  exact hb ((OK.check_iff h ha.noClash a.vario ea).1 a.backend)

/-- `OrdinaryKriging3D`: without moving window both backends return the same arrays, or both raise. -/
theorem C09_backends_3d {n : ℕ} {env : Env} {x y z v : Fin n → ℝ} {args : OK3DArgs} {s : OK3D n}
    (h : OK3D.create env x y z v args = .ok s) {ea : ExecArgs3} (hk : KnnSpec env) (hw : ea.nClosest = none)
    (r : ExecResult) :
    s.execute env { ea with backend := "loop" } = .ok r ↔
    s.execute env { ea with backend := "vectorized" } = .ok r := by
  have key : ∀ b b' r, (b = "loop" ∨ b = "vectorized") → (b' = "loop" ∨ b' = "vectorized") →
      s.execute env { ea with backend := b } = .ok r → s.execute env { ea with backend := b' } = .ok r := by
    intro b b' r hb hb' hr
    have hf : WindowFits n ea.nClosest := by simp [WindowFits, hw]
    have h1 := OK3D.create_pw h (ea := { ea with backend := b }) hk hf
    have h2 := OK3D.create_pw h (ea := { ea with backend := b' }) hk hf
    obtain ⟨r', hr'⟩ := h1.success h2 hr (fun a => ⟨a.style, a.win, a.vario, a.query, a.noInt,
      hb'.imp id fun e => ⟨hw, e⟩, a.solvable⟩) (fun _ hv => hv)
    have := h1.same h2 (fun _ _ _ _ => rfl) hr hr'
    rw [hr', this]
  exact ⟨key _ _ r (.inl rfl) (.inr rfl), key _ _ r (.inr rfl) (.inl rfl)⟩

/-- `UniversalKriging` (no specified drift, see C24): if both backends answer they answer the same. -/
theorem C09_backends_uk {n : ℕ} {env : Env} {x y z : Fin n → ℝ} {args : UKArgs} {s : UK n}
    (h : UK.create env x y z args = .ok s) (hs : "specified" ∉ args.driftTerms) {ea : UKExecArgs}
    {r r' : ExecResult}
    (hr : s.execute { ea with toExec := { ea.toExec with backend := "loop" } } = .ok r)
    (hr' : s.execute { ea with toExec := { ea.toExec with backend := "vectorized" } } = .ok r') : r' = r := by
  have h1 := UK.create_pw h { ea with toExec := { ea.toExec with backend := "loop" } }
  have h2 := UK.create_pw h { ea with toExec := { ea.toExec with backend := "vectorized" } }
  refine h1.same h2 (fun j p _ _ => ?_) hr hr'
  unfold UK.ans
  rw [UK.sv_none (UK.specified_none h hs), UK.sv_none (UK.specified_none h hs)]

/-- `UniversalKriging`: what `'vectorized'` accepts `'loop'` accepts, unless a visible query point is on
a well of the point-log drift (see C43). -/
theorem C09_loop_accepts_uk {n : ℕ} {env : Env} {x y z : Fin n → ℝ} {args : UKArgs} {s : UK n}
    (h : UK.create env x y z args = .ok s) (hs : "specified" ∉ args.driftTerms) {ea : UKExecArgs}
    (hw : ∀ j p, queryAt ea.toExec j = some p → maskedAt ea.toExec j = false →
      ¬ AtWell args s.anisotropyScaling s.anisotropyAngle p)
    {r : ExecResult}
    (hr : s.execute { ea with toExec := { ea.toExec with backend := "vectorized" } } = .ok r) :
    s.execute { ea with toExec := { ea.toExec with backend := "loop" } } = .ok r := by
  have h1 := UK.create_pw h { ea with toExec := { ea.toExec with backend := "vectorized" } }
  have h2 := UK.create_pw h { ea with toExec := { ea.toExec with backend := "loop" } }
  obtain ⟨r', hr'⟩ := h1.success h2 hr (fun a => ⟨a.style, a.vario, a.query, a.spec, a.noInt, .inr rfl, a.solvable⟩)
    (fun _ hv j q hq hn => by
      have := hv j q hq (.inr rfl)
      rw [UK.valid_iff h hs] at this ⊢
      exact ⟨this.1, fun _ => hw j q hq (hn.resolve_right (by simp))⟩)
  have := C09_backends_uk h hs hr' hr
  rw [hr', this]

/-- `UniversalKriging`: what `'loop'` accepts `'vectorized'` accepts, unless the external drift grid does
not cover a masked query point. -/
theorem C09_vectorized_accepts_uk {n : ℕ} {env : Env} {x y z : Fin n → ℝ} {args : UKArgs} {s : UK n}
    (h : UK.create env x y z args = .ok s) (hs : "specified" ∉ args.driftTerms) {ea : UKExecArgs}
    (hw : ∀ j p, queryAt ea.toExec j = some p → maskedAt ea.toExec j = true → ExternalCovers args p)
    {r : ExecResult}
    (hr : s.execute { ea with toExec := { ea.toExec with backend := "loop" } } = .ok r) :
    s.execute { ea with toExec := { ea.toExec with backend := "vectorized" } } = .ok r := by
  have h1 := UK.create_pw h { ea with toExec := { ea.toExec with backend := "loop" } }
  have h2 := UK.create_pw h { ea with toExec := { ea.toExec with backend := "vectorized" } }
  obtain ⟨r', hr'⟩ := h1.success h2 hr (fun a => ⟨a.style, a.vario, a.query, a.spec, a.noInt, .inl rfl, a.solvable⟩)
    (fun _ hv j q hq _ => by
      rw [UK.valid_iff h hs]
      refine ⟨?_, fun e => by simp at e⟩
      cases hm : maskedAt ea.toExec j with
      | true => exact hw j q hq hm
      | false =>
        have := hv j q hq (.inl hm)
        rw [UK.valid_iff h hs] at this
        exact this.1)
  have := C09_backends_uk h hs hr hr'
  rw [hr', this]

/-- `UniversalKriging3D` (no specified drift, see C24): both backends return the same arrays, or both
raise. -/
theorem C09_backends_uk3d {n : ℕ} {env : Env} {x y z v : Fin n → ℝ} {args : UK3DArgs} {s : UK3D n}
    (h : UK3D.create env x y z v args = .ok s) (hs : "specified" ∉ args.driftTerms) {ea : UK3DExecArgs}
    (r : ExecResult) :
    s.execute { ea with toExec := { ea.toExec with backend := "loop" } } = .ok r ↔
    s.execute { ea with toExec := { ea.toExec with backend := "vectorized" } } = .ok r := by
  have key : ∀ b b' r, (b = "vectorized" ∨ b = "loop") → (b' = "vectorized" ∨ b' = "loop") →
      s.execute { ea with toExec := { ea.toExec with backend := b } } = .ok r →
      s.execute { ea with toExec := { ea.toExec with backend := b' } } = .ok r := by
    intro b b' r hb hb' hr
    have h1 := UK3D.create_pw h { ea with toExec := { ea.toExec with backend := b } }
    have h2 := UK3D.create_pw h { ea with toExec := { ea.toExec with backend := b' } }
    obtain ⟨r', hr'⟩ := h1.success h2 hr (fun a => ⟨a.style, a.vario, a.query, a.spec, a.noInt, hb', a.solvable⟩)
      (fun _ _ j q _ _ => UK3D.valid_none (UK3D.specified_none h hs) _ _)
    have := h1.same h2 (fun j p _ _ => by
      unfold UK3D.ans
      rw [UK3D.sv_none (UK3D.specified_none h hs), UK3D.sv_none (UK3D.specified_none h hs)]) hr hr'
    rw [hr', this]
  exact ⟨key _ _ r (.inr rfl) (.inl rfl), key _ _ r (.inl rfl) (.inr rfl)⟩

/-- Not vacuous: the three backends are offered and answer on the example. -/
example : ∃ s r, OK.create stdEnv Demo.X Demo.O ![3, 5] (Demo.args 1 true false) = .ok s ∧
    s.execute stdEnv (Demo.pts [(0, 0), (2, 5)] "vectorized") = .ok r ∧
    s.execute stdEnv (Demo.pts [(0, 0), (2, 5)] "loop") = .ok r ∧
    s.execute stdEnv (Demo.pts [(0, 0), (2, 5)] "C") = .ok r := by
  obtain ⟨s, h, -⟩ := Demo.ok ![3, 5] 1 true false
  obtain ⟨ha, r, hr⟩ := Demo.ok_run zero_le_one h [(0, 0), (2, 5)] (b := "vectorized") (.inl rfl)
  have hC : Supports stdEnv (Demo.args 1 true false) none "C" :=
    .inr (.inr ⟨rfl, .inr ⟨⟨"linear", by simp [compiledModels], rfl⟩, .inr rfl⟩⟩)
  have hv : Supports stdEnv (Demo.args 1 true false) none "vectorized" := .inr (.inl ⟨rfl, rfl⟩)
  exact ⟨s, r, h, hr, (C09_backends_2d (ea := Demo.pts [(0, 0), (2, 5)] "vectorized") h ha _ _ hv (.inl rfl) r).1 hr,
    (C09_backends_2d (ea := Demo.pts [(0, 0), (2, 5)] "vectorized") h ha _ _ hv hC r).1 hr⟩

example : ∃ s r, UK.create stdEnv Demo.X Demo.O ![3, 5] (Demo.uargs 1 true false) = .ok s ∧
    s.execute { toExec := Demo.pts [(0, 0), (2, 5)] "loop" } = .ok r ∧
    s.execute { toExec := Demo.pts [(0, 0), (2, 5)] "vectorized" } = .ok r := by
  obtain ⟨s, h, -⟩ := Demo.uk ![3, 5] 1 true false
  obtain ⟨r, hr⟩ := Demo.uk_run h [(0, 0), (2, 5)] (b := "loop") (.inr rfl)
  exact ⟨s, r, h, hr, C09_vectorized_accepts_uk (ea := { toExec := Demo.pts [(0, 0), (2, 5)] "loop" }) h
    (by simp [Demo.uargs]) (by simp [ExternalCovers, Demo.uargs]) hr⟩

example : ∃ s r, OK3D.create stdEnv Demo.X Demo.O Demo.O ![3, 5] (Demo.args3 1 true false) = .ok s ∧
    s.execute stdEnv (Demo.pts3 [(0, 0, 1), (2, 5, 0)] "loop") = .ok r ∧
    s.execute stdEnv (Demo.pts3 [(0, 0, 1), (2, 5, 0)] "vectorized") = .ok r := by
  obtain ⟨s, h, -⟩ := Demo.ok3 ![3, 5] 1 true false
  obtain ⟨-, r, hr⟩ := Demo.ok3_run zero_le_one h [(0, 0, 1), (2, 5, 0)] (b := "loop") (.inr rfl)
  exact ⟨s, r, h, hr, (C09_backends_3d (ea := Demo.pts3 [(0, 0, 1), (2, 5, 0)] "loop") h stdEnv_knn rfl r).1 hr⟩

example : ∃ s r, UK3D.create stdEnv Demo.X Demo.O Demo.O ![3, 5] (Demo.uargs3 1 true false) = .ok s ∧
    s.execute { toExec := Demo.pts3 [(0, 0, 1), (2, 5, 0)] "loop" } = .ok r ∧
    s.execute { toExec := Demo.pts3 [(0, 0, 1), (2, 5, 0)] "vectorized" } = .ok r := by
  obtain ⟨s, h, -⟩ := Demo.uk3 ![3, 5] 1 true false
  obtain ⟨r, hr⟩ := Demo.uk3_run h [(0, 0, 1), (2, 5, 0)] (b := "loop") (.inr rfl)
  exact ⟨s, r, h, hr, (C09_backends_uk3d (ea := { toExec := Demo.pts3 [(0, 0, 1), (2, 5, 0)] "loop" }) h
    (by simp [Demo.uargs3]) r).1 hr⟩

end
end PyKrige
