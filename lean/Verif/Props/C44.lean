import Verif.Lemmas.LawsOK
import Verif.Props.C26

/-!
C44: no call modifies what the caller passed in, calls of `execute`, failing or not, leave later results unchanged,
and what a call returns depends on the contents of its arguments at the time of the call only.

The memory is explicit here: arrays are references into buffers (`Model/Heap.lean`), and a *session* is an arbitrary
program that makes arrays, overwrites arrays it holds references to, and calls `execute` and
`update_variogram_model` (`Spec/Memory.lean`).
-/

namespace PyKrige
noncomputable section
open Spec

/-- The constructor changes no array that existed before, and does what it does with the values of its arguments. -/
theorem C44_create {n : ℕ} (env : Env) (h : Heap) (x y z : Arr) (hx : x.cols = n) (bx : x.buf < h.next)
    (byy : y.buf < h.next) (bz : z.buf < h.next) (args : OKRefArgs)
    (hp : ∀ b ∈ listBuffers args.paramRef, b < h.next) :
    (∀ b < h.next, (OKRef.create n env x y z args h).2.buf b = h.buf b) ∧
      (OKRef.create n env x y z args h).1.map (fun o => o.deref (OKRef.create n env x y z args h).2 n) =
        OK.create env (x.vec h n) (y.vec h n) (z.vec h n) (args.deref h) := by
  rcases (Does.create (h := h) env x y z hx bx byy bz args (ParamRef.below_of hp)).cases with
    ⟨e, h2, r1, r2, f⟩ | ⟨o, h2, s, r1, r2, f, q1, -⟩
  · rw [r1, r2]; exact ⟨f.same, rfl⟩
  · rw [r1, r2]; exact ⟨f.same, congrArg Except.ok q1⟩

/-- A program that starts with the construction of an object gets from every call what the call would return if
arrays were values: the object as built from the contents of `x`, `y`, `z`, and the arguments as they are at
the time of the call.  In particular, overwriting the data arrays, query arrays, masks or results afterwards, and all
earlier calls of `execute`, have no influence. -/
theorem C44_session {n : ℕ} (env : Env) {h h' : Heap} {x y z : Arr} (hx : x.cols = n) (bx : x.buf < h.next)
    (byy : y.buf < h.next) (bz : z.buf < h.next) {args : OKRefArgs}
    (hp : ∀ b ∈ listBuffers args.paramRef, b < h.next) {o : OKRef}
    (hc : OKRef.create n env x y z args h = (.ok o, h')) (l : List (Event (okClass n env)))
    (ha : (Session.start (C := okClass n env) h.next args.paramRef o h').AllowsAll l) :
    ∃ s, OK.create env (x.vec h n) (y.vec h n) (z.vec h n) (args.deref h) = .ok s ∧
      (Session.start (C := okClass n env) h.next args.paramRef o h').outcomes l =
        (OK.run env s ((Session.start (C := okClass n env) h.next args.paramRef o h').calls l)).1 := by
  obtain ⟨b, e⟩ := okLaws_built env hx bx byy bz hp hc
  exact ⟨_, e, (okLaws n env).session b l ha⟩

/-- Between calls of `update_variogram_model` every result of `execute` depends only on the contents of its arguments
at the time of the call: after any steps `l` the call `execute(b)` gives what `execute(a)` gave before, if the
arguments have the same contents. -/
theorem C44_execute_harmless {n : ℕ} (env : Env) {h h' : Heap} {x y z : Arr} (hx : x.cols = n) (bx : x.buf < h.next)
    (byy : y.buf < h.next) (bz : z.buf < h.next) {args : OKRefArgs}
    (hp : ∀ b ∈ listBuffers args.paramRef, b < h.next) {o : OKRef}
    (hc : OKRef.create n env x y z args h = (.ok o, h')) (l₀ l : List (Event (okClass n env)))
    (ha : (Session.start (C := okClass n env) h.next args.paramRef o h').AllowsAll l₀) (hl : ∀ e ∈ l, e.NotUpdate)
    {s s' : Session (okClass n env)} (hs : (Session.start h.next args.paramRef o h').final l₀ = s)
    (ha' : s.AllowsAll l) (hs' : s.final l = s') (a b : ExecRefs) (ra : s.Allows (.execute a))
    (rb : s'.Allows (.execute b)) (hab : b.deref s'.heap = a.deref s.heap) :
    s'.outcome (.execute b) = s.outcome (.execute a) :=
  (okLaws n env).harmless (okLaws_built env hx bx byy bz hp hc).1 l₀ l ha hl hs ha' hs' a b ra rb hab

/-- Whatever the program does not overwrite itself keeps its contents: no call, failing or not, modifies an array that
existed before the call, be it an argument, an earlier result or anything else. -/
theorem C44_memory_kept {n : ℕ} (env : Env) {h h' : Heap} {x y z : Arr} (hx : x.cols = n) (bx : x.buf < h.next)
    (byy : y.buf < h.next) (bz : z.buf < h.next) {args : OKRefArgs}
    (hp : ∀ b ∈ listBuffers args.paramRef, b < h.next) {o : OKRef}
    (hc : OKRef.create n env x y z args h = (.ok o, h')) (l₀ l : List (Event (okClass n env)))
    (ha : (Session.start (C := okClass n env) h.next args.paramRef o h').AllowsAll l₀)
    {s : Session (okClass n env)} (hs : (Session.start h.next args.paramRef o h').final l₀ = s)
    (ha' : s.AllowsAll l) (b : ℕ) (hb : b < s.heap.next) (hw : ∀ v, Event.write b v ∉ l) :
    (s.final l).heap.buf b = s.heap.buf b := by
  have hi := ((okLaws n env).steps l₀ (okLaws_built env hx bx byy bz hp hc).1.inv ha).1
  rw [hs] at hi
  exact (okLaws n env).kept l hi ha' hb hw

/-- The arrays `execute` returns are new: none of them shares memory with anything that existed before the call, the
object included. -/
theorem C44_results_new {n : ℕ} (env : Env) {h h' : Heap} {x y z : Arr} (hx : x.cols = n) (bx : x.buf < h.next)
    (byy : y.buf < h.next) (bz : z.buf < h.next) {args : OKRefArgs}
    (hp : ∀ b ∈ listBuffers args.paramRef, b < h.next) {o : OKRef}
    (hc : OKRef.create n env x y z args h = (.ok o, h')) (l : List (Event (okClass n env)))
    (ha : (Session.start (C := okClass n env) h.next args.paramRef o h').AllowsAll l)
    {s : Session (okClass n env)} (hs : (Session.start h.next args.paramRef o h').final l = s) (a : ExecRefs)
    (ra : s.Allows (.execute a)) {r : ResultRef} {h'' : Heap} (hr : s.obj.execute n env a s.heap = (.ok r, h'')) :
    s.heap.next ≤ r.z.buf ∧ s.heap.next ≤ r.ss.buf ∧ ∀ m ∈ r.mask, s.heap.next ≤ m.buf :=
  (okLaws n env).new_results (okLaws_built env hx bx byy bz hp hc).1 l ha hs a ra hr

/-! ### The exception: lists passed as `variogram_parameters` -/

theorem H.bind_ok {α β : Type} {m : H α} {k : α → H β} {h h' : Heap} {b : β} (e : (m >>= k) h = (.ok b, h')) :
    ∃ a h1, m h = (.ok a, h1) ∧ k a h1 = (.ok b, h') := by
  change (match m h with
    | (.ok a, h') => k a h'
    | (.error e, h') => (.error e, h')) = _ at e
  generalize m h = r at e
  obtain ⟨r, h1⟩ := r
  cases r with
  | ok a => exact ⟨a, h1, rfl, e⟩
  | error x => cases e

theorem H.lift_ok {α : Type} {p : Py α} {h h' : Heap} {a : α} (e : H.lift p h = (.ok a, h')) : p = .ok a ∧ h' = h := by
  cases e; exact ⟨rfl, rfl⟩

theorem H.pure_ok {α : Type} {a b : α} {h h' : Heap} (e : (pure a : H α) h = (.ok b, h')) : a = b ∧ h' = h := by
  cases e; exact ⟨rfl, rfl⟩

/-- For the models 'linear', 'power' and 'custom' a list passed as `variogram_parameters` becomes part of the object:
it is not copied. -/
theorem C44_list_kept_by_reference {n : ℕ} {env : Env} {h h' : Heap} {x y z : Arr} {args : OKRefArgs} {o : OKRef}
    {name : String} (hm : args.variogramModel = .name name) (hn : name ∈ ["linear", "power", "custom"])
    {a : Arr} (hp : args.paramRef = .list a) (hc : OKRef.create n env x y z args h = (.ok o, h')) : o.params = a := by
  unfold OKRef.create at hc
  by_cases h1 : args.pseudoInvType ∉ ["pinv", "pinvh"]
  · rw [if_pos h1] at hc; cases hc
  rw [if_neg h1, hm, hp] at hc
  dsimp only at hc
  revert hc
  cases args.exactValues with
  | notBool => intro hc; cases hc
  | bool exact =>
  intro hc
  obtain ⟨_, h1, -, hc⟩ := H.bind_ok hc
  obtain ⟨⟨nm, model, fArg, pArg, sc, an⟩, h2, e2, hc⟩ := H.bind_ok hc
  have e2' := (H.pure_ok e2).1
  cases e2'
  obtain ⟨⟨f, fname⟩, h3, -, hc⟩ := H.bind_ok hc
  obtain ⟨X, h4, -, hc⟩ := H.bind_ok hc
  obtain ⟨Y, h5, -, hc⟩ := H.bind_ok hc
  obtain ⟨Z, h6, -, hc⟩ := H.bind_ok hc
  obtain ⟨⟨xc, yc, sc', an', XA, YA⟩, h7, -, hc⟩ := H.bind_ok hc
  obtain ⟨vp, h8, e8, hc⟩ := H.bind_ok hc
  have hvp : vp = some a := by
    unfold makeVariogramParameterListRef at e8
    dsimp only at e8
    simp only [List.mem_cons, List.not_mem_nil, or_false] at hn
    rcases hn with rfl | rfl | rfl
    · rw [if_pos (by decide)] at e8
      by_cases hc2 : a.cols ≠ 2
      · rw [if_pos hc2] at e8; cases e8
      · rw [if_neg hc2] at e8; exact (H.pure_ok e8).1.symm
    · rw [if_neg (by decide), if_pos (by decide)] at e8
      by_cases hc2 : a.cols ≠ 3
      · rw [if_pos hc2] at e8; cases e8
      · rw [if_neg hc2] at e8; exact (H.pure_ok e8).1.symm
    · rw [if_neg (by decide), if_neg (by decide), if_neg (by decide), if_pos (by decide)] at e8
      exact (H.pure_ok e8).1.symm
  subst hvp
  obtain ⟨hh, h9, -, hc⟩ := H.bind_ok hc
  obtain ⟨⟨lags, ps⟩, h10, e10, hc⟩ := H.bind_ok hc
  have hps : ps = a := by
    unfold initializeVariogramModelRef at e10
    obtain ⟨_, _, -, e10⟩ := H.bind_ok e10
    obtain ⟨r, _, -, e10⟩ := H.bind_ok e10
    exact (congrArg Prod.snd (H.pure_ok e10).1).symm
  subst hps
  obtain ⟨hh2, h11, -, hc⟩ := H.bind_ok hc
  dsimp only at hc
  by_cases he : args.enableStatistics = true
  · rw [if_pos he] at hc
    obtain ⟨st, h12, -, hc⟩ := H.bind_ok hc
    rw [← (H.pure_ok hc).1]
  · rw [if_neg he] at hc
    rw [← (H.pure_ok hc).1]

namespace Demo

/-- A one-dimensional array of floats that fills buffer `b`. -/
def arr (b n : ℕ) : Arr := { buf := b, rows := 1, cols := n, cell := fun r c => (r, c) }

/-- Buffer 0: `x = [0, 1]`, also the data values; buffer 1: `y = [0, 0]`; buffer 2: the list `[1, 0]`; buffer 3:
the query coordinates `[2]`; buffer 4: `[0]`. -/
def mem : Heap :=
  { next := 5
    buf := fun b p => if b = 0 then (if p.2 = 1 then 1 else 0) else if b = 2 then (if p.2 = 0 then 1 else 0)
      else if b = 3 then 2 else 0 }

def refArgs : OKRefArgs := { (args 0 true false) with paramRef := .list (arr 2 2) }

/-- `execute('points', [2], [0])` -/
def refCall : ExecRefs := { style := "points", xpoints := arr 3 1, ypoints := arr 4 1 }

/-- The list `[2, 0]`. -/
def two : ℕ × ℕ → ℝ := fun p => if p.2 = 0 then 2 else 0

theorem mem_x : (arr 0 2).vec mem 2 = X := by
  funext i; fin_cases i <;> simp [Arr.vec, Arr.get, arr, mem, X]

theorem mem_y : (arr 1 2).vec mem 2 = O := by
  funext i; fin_cases i <;> simp [Arr.vec, Arr.get, arr, mem, O]

theorem mem_args : refArgs.deref mem = args 0 true false := by
  simp [refArgs, OKRefArgs.deref, ParamRef.deref, args, Arr.list, Arr.get, arr, mem, List.range_succ]

/-- The object can be built. -/
theorem ref_created : ∃ o h' s, OKRef.create 2 stdEnv (arr 0 2) (arr 1 2) (arr 0 2) refArgs mem = (.ok o, h') ∧
    OK.create stdEnv X O X (args 0 true false) = .ok s ∧ o.deref h' 2 = s ∧
    (okLaws 2 stdEnv).Inv (Session.start 5 refArgs.paramRef o h') ∧ o.params = arr 2 2 ∧ (∀ b < 5, h'.buf b = mem.buf b) := by
  obtain ⟨s, hs, -⟩ := ok X 0 true false
  have hp : ∀ b ∈ listBuffers refArgs.paramRef, b < mem.next := by
    rintro b rfl; decide
  have hb : (arr 0 2).buf < mem.next := by decide
  have hb1 : (arr 1 2).buf < mem.next := by decide
  rcases (Does.create (h := mem) (n := 2) stdEnv (arr 0 2) (arr 1 2) (arr 0 2) rfl hb hb1 hb refArgs
    (ParamRef.below_of hp)).cases with ⟨e, h2, r1, r2, f⟩ | ⟨o, h2, s', r1, r2, f, q1, -⟩
  · rw [mem_x, mem_y, mem_args, hs] at r2; cases r2
  · rw [mem_x, mem_y, mem_args, hs] at r2
    cases Except.ok.inj r2
    exact ⟨o, h2, s, r1, hs, q1, (okLaws_built stdEnv rfl hb hb1 hb hp r1).1.inv,
      C44_list_kept_by_reference (name := "linear") rfl (by simp) rfl r1, f.same⟩

end Demo

/-- `C44_session` really needs the program to leave lists alone that it passed as `variogram_parameters`: the object is
built with `l = [1, 0]` (slope 1, no nugget), the program then sets `l[0] = 2`, and the variance at `(2, 0)`, which was
2, is 4. -/
theorem C44_list_shared : ∃ (h h' : Heap) (x y z : Arr) (args : OKRefArgs) (o : OKRef) (a : ExecRefs)
    (v : ℕ × ℕ → ℝ) (r r' : ExecResult) (b : ℕ), OKRef.create 2 stdEnv x y z args h = (.ok o, h') ∧
    (Session.start (C := okClass 2 stdEnv) h.next args.paramRef o h').outcomes [.execute a, .write b v, .execute a] =
      [.execute (.ok r), .execute (.ok r')] ∧ b ∈ listBuffers args.paramRef ∧ r.ss = [some 2] ∧ r'.ss = [some 4] := by
  obtain ⟨o, h', s, hc, hs, hd, hi, hps, hm⟩ := Demo.ref_created
  obtain ⟨s', h, hp, hv, hn, hsc, han, hint⟩ := Demo.ok Demo.X 0 true false
  rw [hs] at h; cases h
  have hct : s.coordinatesType = "euclidean" := (OK.create_fields hs).2.2.2.2.1
  have ha := Demo.admissible (c := 0) (exact := true) (pseudo := false) hn [] "loop"
  have hwf := OK.create_wf hs ha.noClash ha.range
  have hpts := Demo.ok_pts hs
  have hk := (OK.create_keeps hs).coords
  have hq : s.queryPt (2, 0) = ![2, 0] := by
    unfold OK.setupCoordinates at hk
    rw [if_pos (by rfl), Demo.midrange_X, Demo.midrange_O] at hk
    simp only [py_ok_bind, py_pure, Except.ok.injEq, Prod.mk.injEq] at hk
    unfold OK.queryPt
    rw [if_pos hct, ← hk.1, ← hk.2.1, hsc, han, Demo.adjust_sc, one_mul]
  obtain ⟨r, hr, e⟩ := Demo.run20 hwf hct one_pos (by rw [hv, hp, Demo.vario]; simp) hpts hq
  have hwf' : ({ s with params := [2, 0] } : OK 2).Wf := by
    refine ⟨hwf.ptype, hwf.ctype, fun γ γc h1 h2 => ?_⟩
    have h2' : ({ s with params := [2, 0] } : OK 2).cVariogram = .ok γc := h2
    have h1' : linearVariogramModel [2, 0] = .ok γ := by rw [← hv]; exact h1
    simp only [OK.cVariogram, hn, cGetVariogramModel, if_true, py_ok_bind, hint, Bool.false_eq_true, if_false] at h2'
    have h2'' : cLinear [2, 0] = .ok γc := h2'
    simp [cLinear, pyGet] at h2''
    simp [linearVariogramModel, pyGet] at h1'
    intro d _
    rw [← h1', ← h2'']
    simp [linearFormula]
  obtain ⟨r', hr', e'⟩ := Demo.run20 (s := { s with params := [2, 0] }) hwf' hct two_pos (by
    show s.variogramFunction [2, 0] = _
    rw [hv]
    have : linearFormula 2 0 = fun d => 2 * d := by funext d; simp [linearFormula]
    simp [linearVariogramModel, pyGet, this]) hpts hq
  -- the situation after the first call
  set t := Session.start (C := okClass 2 stdEnv) 5 Demo.refArgs.paramRef o h' with ht
  have lt : ∀ b, b < 5 → b ∈ t.mine := fun b hb => hb
  have al : t.Allows (.execute Demo.refCall) := by
    rintro b (rfl | rfl | ⟨m, hm, -⟩)
    · exact lt 3 (by decide)
    · exact lt 4 (by decide)
    · cases hm
  obtain ⟨i1, i2⟩ := (okLaws 2 stdEnv).step hi _ al
  have f1 := ((okLaws 2 stdEnv).exec hi.sound (a := Demo.refCall) fun b hb => hi.mine b (al hb)).frame
  have same : ∀ b < 5, (t.after (.execute Demo.refCall)).heap.buf b = Demo.mem.buf b := fun b hb =>
    (f1.same b (hi.mine b hb)).trans (hm b hb)
  have ob : (t.after (.execute Demo.refCall)).obj = o := rfl
  have call : ∀ h2 : Heap, (∀ b, b = 3 ∨ b = 4 → h2.buf b = Demo.mem.buf b) →
      Demo.refCall.deref h2 = Demo.pts [(2, 0)] "vectorized" := by
    intro h2 e2
    simp [ExecRefs.deref, Demo.refCall, Arr.list, Arr.get, Demo.arr, e2 3 (Or.inl rfl), e2 4 (Or.inr rfl), Demo.mem,
      Demo.pts]
  have h't : t.obj.deref t.heap 2 = s := hd
  have call0 : Demo.refCall.deref t.heap = Demo.pts [(2, 0)] "vectorized" :=
    call _ (fun b hb => hm b (by omega))
  have o1 : t.outcome (.execute Demo.refCall) = [.execute (.ok r)] := by
    have := congrArg Prod.fst i2
    dsimp only at this
    rw [this]
    show [Outcome.execute (OK.execute stdEnv (t.obj.deref t.heap 2) (Demo.refCall.deref t.heap))] = _
    rw [h't, call0, hr]
  have d1 : (t.after (.execute Demo.refCall)).obj.deref
      (t.after (.execute Demo.refCall)).heap 2 = s := by
    have := congrArg Prod.snd i2
    exact this.trans h't
  generalize ht1 : t.after (.execute Demo.refCall) = t1 at i1 same ob d1
  -- the list is overwritten
  set h2 : Heap := { t1.heap with buf := Function.update t1.heap.buf 2 Demo.two } with hh2
  have d2 : o.deref h2 2 = { s with params := [2, 0] } := by
    have ev : ∀ a : Arr, a.buf ∉ t1.mine → a.vec h2 2 = a.vec t1.heap 2 := by
      intro a ha
      have : a.buf ≠ 2 := by
        rintro h; rw [h, ← ht1] at ha; exact ha (Or.inl (lt 2 (by decide)))
      funext i
      show h2.buf a.buf _ = t1.heap.buf a.buf _
      rw [hh2]
      dsimp only
      rw [Function.update_of_ne this]
    have ep : o.params.list h2 = [2, 0] := by
      rw [hps]
      simp [Arr.list, Arr.get, Demo.arr, hh2, Demo.two, List.range_succ]
    rw [← d1, ob]
    have e1 := ev _ (i1.own _ (Or.inl rfl))
    have e2 := ev _ (i1.own _ (Or.inr (Or.inl rfl)))
    have e3 := ev _ (i1.own _ (Or.inr (Or.inr (Or.inl rfl))))
    have e4 := ev _ (i1.own _ (Or.inr (Or.inr (Or.inr (Or.inl rfl)))))
    have e5 := ev _ (i1.own _ (Or.inr (Or.inr (Or.inr (Or.inr rfl)))))
    rw [ob] at e1 e2 e3 e4 e5
    unfold OKRef.deref
    rw [e1, e2, e3, e4, e5, ep]
  have lv : o.Sound 2 h2.next := by
    have := i1.sound
    rw [ob] at this
    exact this
  have bnd : ∀ b < 5, b < h2.next := fun b hb => i1.mine b (by rw [← ht1]; exact Or.inl (lt b hb))
  have o2 := ((okLaws 2 stdEnv).exec (o := o) (h := h2) (a := Demo.refCall) lv (by
    rintro b (rfl | rfl | ⟨m, hm, -⟩)
    · exact bnd 3 (by decide)
    · exact bnd 4 (by decide)
    · cases hm)).outcome
  change (o.execute 2 stdEnv Demo.refCall h2).1.map (fun x => x.deref (o.execute 2 stdEnv Demo.refCall h2).2) =
    OK.execute stdEnv (o.deref h2 2) (Demo.refCall.deref h2) at o2
  rw [d2, call h2 (fun b hb => by
    show Function.update t1.heap.buf 2 Demo.two b = _
    rw [Function.update_of_ne (by omega), same b (by omega)]), hr'] at o2
  refine ⟨Demo.mem, h', Demo.arr 0 2, Demo.arr 1 2, Demo.arr 0 2, Demo.refArgs, o, Demo.refCall, Demo.two, r, r', 2, hc,
    ?_, rfl, by rw [e]; norm_num, by rw [e']; norm_num⟩
  show t.outcome (.execute Demo.refCall) ++ Session.outcomes
    (t.after (.execute Demo.refCall)) [.write 2 Demo.two, .execute Demo.refCall] = _
  rw [o1, ht1]
  show [Outcome.execute (.ok r)] ++ ([] ++ ([Outcome.execute ((t1.obj.execute 2 stdEnv Demo.refCall h2).1.map
    fun x => x.deref (t1.obj.execute 2 stdEnv Demo.refCall h2).2)] ++ [])) = _
  rw [ob, o2]
  rfl

/-- A program in the sense of `C44_session`: it calls `execute`, overwrites the data arrays and a query array, makes a
new array, asks for something impossible, calls `execute` again, overwrites what it got and updates the variogram. -/
example : ∃ o h', OKRef.create 2 stdEnv (Demo.arr 0 2) (Demo.arr 1 2) (Demo.arr 0 2) Demo.refArgs Demo.mem =
      (.ok o, h') ∧
    (Session.start (C := okClass 2 stdEnv) Demo.mem.next Demo.refArgs.paramRef o h').AllowsAll
      [.execute Demo.refCall, .write 0 fun _ => 7, .write 3 fun _ => -1, .alloc fun _ => 3,
        .execute { Demo.refCall with style := "circle" }, .execute Demo.refCall,
        .update { variogramModel := .name "power", paramRef := .none }] := by
  obtain ⟨o, h', s, hc, -⟩ := Demo.ref_created
  refine ⟨o, h', hc, ?_⟩
  have l3 : (3 : ℕ) < Demo.mem.next := by decide
  have l4 : (4 : ℕ) < Demo.mem.next := by decide
  have pass : ∀ (st : String) (m : Set ℕ), 3 ∈ m → 4 ∈ m → passed2 { Demo.refCall with style := st } ⊆ m := by
    rintro st m h3 h4 b (rfl | rfl | ⟨_, hm, -⟩)
    · exact h3
    · exact h4
    · cases hm
  refine ⟨pass _ _ l3 l4, ⟨Or.inl (show (0 : ℕ) < Demo.mem.next by decide), ?_⟩, ⟨Or.inl l3, ?_⟩,
    trivial, pass _ _ (Or.inl (Or.inl l3)) (Or.inl (Or.inl l4)),
    pass _ _ (Or.inl (Or.inl (Or.inl l3))) (Or.inl (Or.inl (Or.inl l4))), ?_, trivial⟩
  · show (0 : ℕ) ∉ ({2} : Set ℕ)
    simp
  · show (3 : ℕ) ∉ ({2} : Set ℕ)
    simp
  · show listBuffers .none ⊆ _
    exact fun b hb => hb.elim

end
end PyKrige
