import Verif.Lemmas.Backend
import Verif.Lemmas.Perm
import Verif.Lemmas.SameModel
import Verif.Examples.Demo

/-!
# C10: a moving window that holds every datum is ordinary kriging
-/

set_option linter.unusedSectionVars false

namespace PyKrige
noncomputable section
open Matrix Spec

/-- `OrdinaryKriging`: what global kriging returns, kriging with `n_closest_points = n` returns too, with any
KD-tree and any backend offered for moving windows (`pseudo_inv=False`). -/
theorem C10_full_window_2d {n : ℕ} {env : Env} {x y z : Fin n → ℝ} {args : OKArgs} {s : OK n}
    (h : OK.create env x y z args = .ok s) {ea : ExecArgs} (ha : Admissible env args s (some (n : ℤ)))
    (hp : args.pseudoInv = false) {b b' : String} (hb : Supports env args (some (n : ℤ)) b') {r : ExecResult}
    (hr : s.execute env { ea with nClosest := none, backend := b } = .ok r) :
    s.execute env { ea with nClosest := some (n : ℤ), backend := b' } = .ok r := by
  have h1 := OK.create_pw h (ea := { ea with nClosest := none, backend := b })
    ⟨ha.knn, ha.noClash, ha.range, by simp [WindowFits]⟩
  have h2 := OK.create_pw h (ea := { ea with nClosest := some (n : ℤ), backend := b' }) ha
  have hn := OK.create_two_le h
  have hpi : s.pseudoInv = false := (OK.create_fields h).2.2.1.trans hp
  have hsel : ∀ p, (s.sel env ((n : ℤ).toNat) p).length = n ∧ (s.sel env ((n : ℤ).toNat) p).Nodup :=
    fun p => by simpa using OK.sel_spec ha.knn s (le_refl n) p
  obtain ⟨r', hr'⟩ := h1.success h2 hr
    (fun a => ⟨a.style, fun k hk => by cases hk; exact_mod_cast hn, a.vario, a.query, a.noInt,
      (OK.check_iff h ha.noClash a.vario _).2 hb, fun e => by cases e⟩)
    (fun a _ j q _ _ k hk => by
      cases hk
      have := (a.solvable rfl).resolve_left (by simp [hpi])
      exact (selRegular_all (hsel q).1 (hsel q).2 _ _).2 this)
  have e : r' = r := by
    refine (h1.table r hr).eq (h2.table r' hr') (fun _ _ _ => rfl) (fun j p _ _ => ?_)
    change selAnswer _ _ _ _ _ _ = s.answer _ _
    rw [selAnswer_all (hsel p).1 (hsel p).2, OK.answer, hpi]
    rfl
  rw [hr', e]

/-- Conversely: if the call with `n_closest_points = n` returns something for at least one visible point then
global kriging returns the same (also with `pseudo_inv=True`). -/
theorem C10_full_window_conv_2d {n : ℕ} {env : Env} {x y z : Fin n → ℝ} {args : OKArgs} {s : OK n}
    (h : OK.create env x y z args = .ok s) {ea : ExecArgs} (ha : Admissible env args s (some (n : ℤ)))
    {b b' : String} (hb : Supports env args none b') {r : ExecResult}
    (hr : s.execute env { ea with nClosest := some (n : ℤ), backend := b } = .ok r)
    (hv : ∃ j p, queryAt ea j = some p ∧ maskedAt ea j = false) :
    s.execute env { ea with nClosest := none, backend := b' } = .ok r := by
  have h1 := OK.create_pw h (ea := { ea with nClosest := some (n : ℤ), backend := b }) ha
  have h2 := OK.create_pw h (ea := { ea with nClosest := none, backend := b' })
    ⟨ha.knn, ha.noClash, ha.range, by simp [WindowFits]⟩
  have hsel : ∀ p, (s.sel env ((n : ℤ).toNat) p).length = n ∧ (s.sel env ((n : ℤ).toNat) p).Nodup :=
    fun p => by simpa using OK.sel_spec ha.knn s (le_refl n) p
  obtain ⟨a, hval⟩ := h1.ok_iff.1 ⟨r, hr⟩
  obtain ⟨j, p, hj, hm⟩ := hv
  have hreg : Regular (semivar s.gam s.dataDist) noF :=
    (selRegular_all (hsel p).1 (hsel p).2 _ _).1 (hval j p hj hm _ rfl)
  obtain ⟨r', hr'⟩ := h2.ok_iff.2 ⟨⟨a.style, fun k hk => (by cases hk), a.vario, a.query, a.noInt,
    (OK.check_iff h ha.noClash a.vario _).2 hb, fun _ => .inr hreg⟩, fun _ _ _ _ k hk => by cases hk⟩
  have e : r' = r := by
    refine (h1.table r hr).eq (h2.table r' hr') (fun _ _ _ => rfl) (fun j p _ _ => ?_)
    change s.answer _ _ = selAnswer _ _ _ _ _ _
    rw [selAnswer_all (hsel p).1 (hsel p).2, OK.answer]
    exact krigAnswer_of_regular hreg _ _ _ _
  rw [hr', e]

/-- `OrdinaryKriging3D`. -/
theorem C10_full_window_3d {n : ℕ} {env : Env} {x y z v : Fin n → ℝ} {args : OK3DArgs} {s : OK3D n}
    (h : OK3D.create env x y z v args = .ok s) {ea : ExecArgs3} (hk : KnnSpec env)
    (hp : args.pseudoInv = false) {b : String} {r : ExecResult}
    (hr : s.execute env { ea with nClosest := none, backend := b } = .ok r) :
    s.execute env { ea with nClosest := some (n : ℤ), backend := "loop" } = .ok r := by
  have h1 := OK3D.create_pw h (ea := { ea with nClosest := none, backend := b }) hk (by simp [WindowFits])
  have h2 := OK3D.create_pw h (ea := { ea with nClosest := some (n : ℤ), backend := "loop" }) hk
    (by simp [WindowFits])
  have hn := OK3D.create_two_le h
  have hpi : s.pseudoInv = false := (OK3D.create_fields h).2.2.1.trans hp
  have hsel : ∀ p, (s.sel env ((n : ℤ).toNat) p).length = n ∧ (s.sel env ((n : ℤ).toNat) p).Nodup :=
    fun p => by simpa using OK3D.sel_spec hk s (le_refl n) p
  obtain ⟨r', hr'⟩ := h1.success h2 hr
    (fun a => ⟨a.style, fun k hk => by cases hk; exact_mod_cast hn, a.vario, a.query, a.noInt,
      .inl rfl, fun e => by cases e⟩)
    (fun a _ j q _ _ k hk => by
      cases hk
      have := (a.solvable rfl).resolve_left (by simp [hpi])
      exact (selRegular_all (hsel q).1 (hsel q).2 _ _).2 this)
  have e : r' = r := by
    refine (h1.table r hr).eq (h2.table r' hr') (fun _ _ _ => rfl) (fun j p _ _ => ?_)
    change selAnswer _ _ _ _ _ _ = s.answer _ _
    rw [selAnswer_all (hsel p).1 (hsel p).2, OK3D.answer, hpi]
    rfl
  rw [hr', e]

theorem C10_full_window_conv_3d {n : ℕ} {env : Env} {x y z v : Fin n → ℝ} {args : OK3DArgs} {s : OK3D n}
    (h : OK3D.create env x y z v args = .ok s) {ea : ExecArgs3} (hk : KnnSpec env)
    {b b' : String} (hb : b' = "loop" ∨ b' = "vectorized") {r : ExecResult}
    (hr : s.execute env { ea with nClosest := some (n : ℤ), backend := b } = .ok r)
    (hv : ∃ j p, queryAt3 ea j = some p ∧ maskedAt3 ea j = false) :
    s.execute env { ea with nClosest := none, backend := b' } = .ok r := by
  have h1 := OK3D.create_pw h (ea := { ea with nClosest := some (n : ℤ), backend := b }) hk (by simp [WindowFits])
  have h2 := OK3D.create_pw h (ea := { ea with nClosest := none, backend := b' }) hk (by simp [WindowFits])
  have hsel : ∀ p, (s.sel env ((n : ℤ).toNat) p).length = n ∧ (s.sel env ((n : ℤ).toNat) p).Nodup :=
    fun p => by simpa using OK3D.sel_spec hk s (le_refl n) p
  obtain ⟨a, hval⟩ := h1.ok_iff.1 ⟨r, hr⟩
  obtain ⟨j, p, hj, hm⟩ := hv
  have hreg : Regular (semivar s.gam s.dataDist) noF :=
    (selRegular_all (hsel p).1 (hsel p).2 _ _).1 (hval j p hj hm _ rfl)
  obtain ⟨r', hr'⟩ := h2.ok_iff.2 ⟨⟨a.style, fun k hk => (by cases hk), a.vario, a.query, a.noInt,
    hb.imp id fun e => ⟨rfl, e⟩, fun _ => .inr hreg⟩, fun _ _ _ _ k hk => by cases hk⟩
  have e : r' = r := by
    refine (h1.table r hr).eq (h2.table r' hr') (fun _ _ _ => rfl) (fun j p _ _ => ?_)
    change s.answer _ _ = selAnswer _ _ _ _ _ _
    rw [selAnswer_all (hsel p).1 (hsel p).2, OK3D.answer]
    exact krigAnswer_of_regular hreg _ _ _ _
  rw [hr', e]

/-- Two KD-trees that select the same data, in whatever order, lead to the same result. -/
theorem C10_order_2d {n : ℕ} {env : Env} {x y z : Fin n → ℝ} {args : OKArgs} {s : OK n}
    (h : OK.create env x y z args = .ok s) {ea : ExecArgs} {k : ℤ} (hn : ea.nClosest = some k)
    (ha : Admissible env args s ea.nClosest)
    (knn' : {m n : ℕ} → (Fin n → Fin m → ℝ) → (Fin m → ℝ) → ℕ → List (Fin n))
    (hk' : KnnSpec { env with knn := knn' })
    (hsame : ∀ {m n : ℕ} (X : Fin n → Fin m → ℝ) q, k.toNat ≤ n →
      (env.knn X q k.toNat).Perm (knn' X q k.toNat)) (r : ExecResult) :
    s.execute { env with knn := knn' } ea = .ok r ↔ s.execute env ea = .ok r := by
  have hwf := OK.create_wf h ha.noClash ha.range
  have h1 := OK.pointwise ha.knn hwf ea ha.window
  have h2 := OK.pointwise hk' hwf ea ha.window
  have hkn : k.toNat ≤ n := by have := ha.window k hn; omega
  have hperm : ∀ p, (s.sel env k.toNat p).Perm (s.sel { env with knn := knn' } k.toNat p) := by
    intro p
    unfold OK.sel OK.neighbours
    dsimp only
    split <;> exact hsame _ _ hkn
  have hnd := fun p => (OK.sel_spec ha.knn s hkn p).2
  have hans : ∀ p, s.ans { env with knn := knn' } ea.nClosest p = s.ans env ea.nClosest p := by
    intro p
    rw [hn]
    exact (selAnswer_perm (hperm p) (hnd p) _ _ _ _ _).symm
  have hval : ∀ p, s.Valid { env with knn := knn' } ea.nClosest p ↔ s.Valid env ea.nClosest p := by
    intro p
    unfold OK.Valid
    rw [hn]
    simp only [Option.some.injEq, forall_eq']
    exact (selRegular_perm (hperm p) (hnd p) _ _).symm
  have hacc : s.Acc { env with knn := knn' } ea ↔ s.Acc env ea :=
    ⟨fun a => ⟨a.style, a.win, a.vario, a.query, a.noInt, a.backend, a.solvable⟩,
      fun a => ⟨a.style, a.win, a.vario, a.query, a.noInt, a.backend, a.solvable⟩⟩
  constructor
  · intro hr
    obtain ⟨r', hr'⟩ := h2.success h1 hr hacc.1 (fun _ hv j q hq hm => (hval q).1 (hv j q hq hm))
    rw [hr', (h2.table r hr).eq (h1.table r' hr') (fun _ _ _ => rfl) fun j p _ _ => (hans p).symm]
  · intro hr
    obtain ⟨r', hr'⟩ := h1.success h2 hr hacc.2 (fun _ hv j q hq hm => (hval q).2 (hv j q hq hm))
    rw [hr', (h1.table r hr).eq (h2.table r' hr') (fun _ _ _ => rfl) fun j p _ _ => hans p]

/-- `OrdinaryKriging3D`. -/
theorem C10_order_3d {n : ℕ} {env : Env} {x y z v : Fin n → ℝ} {args : OK3DArgs} {s : OK3D n}
    (h : OK3D.create env x y z v args = .ok s) {ea : ExecArgs3} {k : ℤ} (hn : ea.nClosest = some k)
    (hk : KnnSpec env) (hw : WindowFits n ea.nClosest)
    (knn' : {m n : ℕ} → (Fin n → Fin m → ℝ) → (Fin m → ℝ) → ℕ → List (Fin n))
    (hk' : KnnSpec { env with knn := knn' })
    (hsame : ∀ {m n : ℕ} (X : Fin n → Fin m → ℝ) q, k.toNat ≤ n →
      (env.knn X q k.toNat).Perm (knn' X q k.toNat)) (r : ExecResult) :
    s.execute { env with knn := knn' } ea = .ok r ↔ s.execute env ea = .ok r := by
  have hpt : s.pseudoInvType ∈ ["pinv", "pinvh"] := by
    have := OK3D.create_fields h; rw [this.2.2.2.1]; exact this.1
  have h1 := OK3D.pointwise hk hpt ea hw
  have h2 := OK3D.pointwise hk' hpt ea hw
  have hkn : k.toNat ≤ n := by have := hw k hn; omega
  have hperm : ∀ p, (s.sel env k.toNat p).Perm (s.sel { env with knn := knn' } k.toNat p) :=
    fun p => hsame _ _ hkn
  have hnd := fun p => (OK3D.sel_spec hk s hkn p).2
  have hans : ∀ p, s.ans { env with knn := knn' } ea.nClosest p = s.ans env ea.nClosest p := by
    intro p
    rw [hn]
    exact (selAnswer_perm (hperm p) (hnd p) _ _ _ _ _).symm
  have hval : ∀ p, s.Valid { env with knn := knn' } ea.nClosest p ↔ s.Valid env ea.nClosest p := by
    intro p
    unfold OK3D.Valid
    rw [hn]
    simp only [Option.some.injEq, forall_eq']
    exact (selRegular_perm (hperm p) (hnd p) _ _).symm
  constructor
  · intro hr
    obtain ⟨r', hr'⟩ := h2.success h1 hr id (fun _ hv j q hq hm => (hval q).1 (hv j q hq hm))
    rw [hr', (h2.table r hr).eq (h1.table r' hr') (fun _ _ _ => rfl) fun j p _ _ => (hans p).symm]
  · intro hr
    obtain ⟨r', hr'⟩ := h1.success h2 hr id (fun _ hv j q hq hm => (hval q).2 (hv j q hq hm))
    rw [hr', (h1.table r hr).eq (h2.table r' hr') (fun _ _ _ => rfl) fun j p _ _ => hans p]

/-- The Python and the C moving-window loops agree for every window size. -/
theorem C10_python_c {n : ℕ} {env : Env} {x y z : Fin n → ℝ} {args : OKArgs} {s : OK n}
    (h : OK.create env x y z args = .ok s) {ea : ExecArgs} {k : ℤ}
    (ha : Admissible env args s (some k)) (hb : Supports env args (some k) "C")
    (r : ExecResult) : s.execute env { ea with nClosest := some k, backend := "loop" } = .ok r ↔
      s.execute env { ea with nClosest := some k, backend := "C" } = .ok r := by
  have key : ∀ b b' r, Supports env args (some k) b' →
      s.execute env { ea with nClosest := some k, backend := b } = .ok r →
      s.execute env { ea with nClosest := some k, backend := b' } = .ok r := by
    intro b b' r hb' hr
    have h1 := OK.create_pw h (ea := { ea with nClosest := some k, backend := b }) ha
    have h2 := OK.create_pw h (ea := { ea with nClosest := some k, backend := b' }) ha
    obtain ⟨r', hr'⟩ := h1.success h2 hr (fun a => ⟨a.style, a.win, a.vario, a.query, a.noInt,
      (OK.check_iff h ha.noClash a.vario _).2 hb', fun e => by cases e⟩) (fun _ hv => hv)
    have e := (h1.table r hr).eq (h2.table r' hr') (fun _ _ _ => rfl) fun _ _ _ _ => rfl
    rw [hr', e]
  exact ⟨key _ _ r hb, key _ _ r (.inl rfl)⟩

/-- Not vacuous: two data, window of two, two query points; the Python and C window loops return what global
kriging returns. -/
example : ∃ s r, OK.create stdEnv Demo.X Demo.O ![3, 5] (Demo.args 1 true false) = .ok s ∧
    s.execute stdEnv (Demo.pts [(0, 0), (2, 5)] "vectorized") = .ok r ∧
    s.execute stdEnv { Demo.pts [(0, 0), (2, 5)] "loop" with nClosest := some 2 } = .ok r ∧
    s.execute stdEnv { Demo.pts [(0, 0), (2, 5)] "C" with nClosest := some 2 } = .ok r := by
  obtain ⟨s, h, -⟩ := Demo.ok ![3, 5] 1 true false
  obtain ⟨ha, r, hr⟩ := Demo.ok_run zero_le_one h [(0, 0), (2, 5)] (b := "vectorized") (.inl rfl)
  have ha' : Admissible stdEnv (Demo.args 1 true false) s (some ((2 : ℕ) : ℤ)) :=
    ⟨ha.knn, ha.noClash, ha.range, by simp [WindowFits]⟩
  have hC : Supports stdEnv (Demo.args 1 true false) (some ((2 : ℕ) : ℤ)) "C" :=
    .inr (.inr ⟨rfl, .inr ⟨⟨"linear", by simp [compiledModels], rfl⟩, .inr rfl⟩⟩)
  exact ⟨s, r, h, hr, C10_full_window_2d (ea := Demo.pts [(0, 0), (2, 5)] "loop") h ha' rfl (.inl rfl) hr,
    C10_full_window_2d (ea := Demo.pts [(0, 0), (2, 5)] "C") h ha' rfl hC hr⟩

example : ∃ s r, OK3D.create stdEnv Demo.X Demo.O Demo.O ![3, 5] (Demo.args3 1 true false) = .ok s ∧
    s.execute stdEnv (Demo.pts3 [(0, 0, 1), (2, 5, 0)] "vectorized") = .ok r ∧
    s.execute stdEnv { Demo.pts3 [(0, 0, 1), (2, 5, 0)] "loop" with nClosest := some 2 } = .ok r := by
  obtain ⟨s, h, -⟩ := Demo.ok3 ![3, 5] 1 true false
  obtain ⟨-, r, hr⟩ := Demo.ok3_run zero_le_one h [(0, 0, 1), (2, 5, 0)] (b := "vectorized") (.inl rfl)
  exact ⟨s, r, h, hr, C10_full_window_3d (ea := Demo.pts3 [(0, 0, 1), (2, 5, 0)] "loop") h stdEnv_knn rfl hr⟩

/-- A KD-tree that returns the neighbours in reverse order meets the hypotheses of `C10_order_2d`. -/
example : KnnSpec { stdEnv with knn := fun X q k => (stdEnv.knn X q k).reverse } ∧
    ∀ {m n : ℕ} (X : Fin n → Fin m → ℝ) q k, (stdEnv.knn X q k).Perm (stdEnv.knn X q k).reverse :=
  ⟨fun X q k hk => by
    obtain ⟨h1, h2, h3⟩ := stdEnv_knn X q k hk
    simpa using ⟨h1, h2, h3⟩, fun X q k => (List.reverse_perm _).symm⟩

end
end PyKrige
