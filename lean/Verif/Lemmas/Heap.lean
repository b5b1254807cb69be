import Verif.Model.Heap
import Verif.Lemmas.Py

/-! The heap programs compute what the functions on values compute, and write only into new buffers. -/

namespace PyKrige
noncomputable section
open Matrix

/-- Buffers below `w` are the same, and no buffer was given up. -/
structure Heap.Frame (w : ℕ) (h h' : Heap) : Prop where
  next_le : h.next ≤ h'.next
  same : ∀ b < w, h'.buf b = h.buf b

theorem Heap.Frame.refl (w : ℕ) (h : Heap) : Heap.Frame w h h := ⟨le_rfl, fun _ _ => rfl⟩

theorem Heap.Frame.trans {w : ℕ} {h h' h'' : Heap} (a : Heap.Frame w h h') (b : Heap.Frame w h' h'') :
    Heap.Frame w h h'' :=
  ⟨a.next_le.trans b.next_le, fun x hx => (b.same x hx).trans (a.same x hx)⟩

theorem Heap.Frame.mono {w w' : ℕ} {h h' : Heap} (a : Heap.Frame w h h') (hw : w' ≤ w) :
    Heap.Frame w' h h' := ⟨a.next_le, fun b hb => a.same b (lt_of_lt_of_le hb hw)⟩

theorem Arr.get_frame {w : ℕ} {h h' : Heap} (f : Heap.Frame w h h') (a : Arr) (ha : a.buf < w) (r c : ℕ) :
    a.get h' r c = a.get h r c := by
  unfold Arr.get; rw [f.same _ ha]

theorem Arr.vec_frame {w : ℕ} {h h' : Heap} (f : Heap.Frame w h h') (a : Arr) (ha : a.buf < w) (n : ℕ) :
    a.vec h' n = a.vec h n := by
  funext i; exact a.get_frame f ha _ _

theorem Arr.list_frame {w : ℕ} {h h' : Heap} (f : Heap.Frame w h h') (a : Arr) (ha : a.buf < w) :
    a.list h' = a.list h := by
  unfold Arr.list
  exact List.map_congr_left fun c _ => a.get_frame f ha _ _

theorem Arr.mat_frame {w : ℕ} {h h' : Heap} (f : Heap.Frame w h h') (a : Arr) (ha : a.buf < w) (N : ℕ) :
    a.mat h' N = a.mat h N := by
  funext i j; exact a.get_frame f ha _ _

theorem Arr.bools_frame {w : ℕ} {h h' : Heap} (f : Heap.Frame w h h') (a : Arr) (ha : a.buf < w) :
    a.bools h' = a.bools h := by
  unfold Arr.bools; rw [a.list_frame f ha]

/-- Outcomes agree: same exception, or results related by `R`. -/
inductive Agree {α β : Type} (R : α → β → Prop) : Py α → Py β → Prop
  | ok {a : α} {b : β} (h : R a b) : Agree R (.ok a) (.ok b)
  | error (e : PyErr) : Agree R (.error e) (.error e)

/-- Started in `h`, the heap program `m` does what the computation `p` on values does, with results related by
`R`, and leaves all buffers below `w` as they are. -/
structure Does {α β : Type} (w : ℕ) (m : H α) (h : Heap) (p : Py β) (R : α → Heap → β → Prop) : Prop where
  frame : Heap.Frame w h (m h).2
  agree : Agree (fun a b => R a (m h).2 b) (m h).1 p

section
variable {α β α' β' : Type} {w : ℕ} {h : Heap}

theorem Does.mono {w' : ℕ} {m : H α} {p : Py β} {R : α → Heap → β → Prop} (d : Does w' m h p R) (hw : w ≤ w') :
    Does w m h p R := ⟨d.frame.mono hw, d.agree⟩

theorem Does.weaken {m : H α} {p : Py β} {R S : α → Heap → β → Prop} (d : Does w m h p R)
    (hR : ∀ a h' b, Heap.Frame w h h' → R a h' b → S a h' b) : Does w m h p S := by
  have fr := d.frame
  have ag := d.agree
  refine ⟨fr, ?_⟩
  generalize m h = r at fr ag ⊢
  obtain ⟨r, h'⟩ := r
  cases ag with
  | ok hr => exact .ok (hR _ _ _ fr hr)
  | error e => exact .error e

theorem Does.ret {a : α} {b : β} {R : α → Heap → β → Prop} (hR : R a h b) :
    Does w (pure a : H α) h (.ok b) R := ⟨.refl _ _, .ok hR⟩

theorem Does.raise (e : PyErr) {R : α → Heap → β → Prop} :
    Does w (H.raise e : H α) h (.error e : Py β) R := ⟨.refl _ _, .error e⟩

theorem Does.lift (p : Py α) : Does w (H.lift p) h p fun a h' b => a = b ∧ h' = h := by
  refine ⟨.refl _ _, ?_⟩
  show Agree _ p p
  cases p with
  | ok a => exact .ok ⟨rfl, rfl⟩
  | error e => exact .error e

theorem Does.bind {w' : ℕ} {m : H α} {p : Py β} {R : α → Heap → β → Prop} {k : α → H α'} {q : β → Py β'}
    {S : α' → Heap → β' → Prop} (d : Does w' m h p R) (hw : w ≤ w')
    (hk : ∀ a h' b, Heap.Frame w' h h' → R a h' b → Does w (k a) h' (q b) S) :
    Does w (m >>= k) h (p >>= q) S := by
  have e : (m >>= k) h = match m h with
    | (.ok a, h') => k a h'
    | (.error e, h') => (.error e, h') := rfl
  have fr := d.frame
  have ag := d.agree
  constructor
  · rw [e]
    generalize m h = r at fr ag
    obtain ⟨r, h'⟩ := r
    cases ag with
    | ok hr => exact (fr.mono hw).trans (hk _ _ _ fr hr).frame
    | error e => exact fr.mono hw
  · rw [e]
    generalize m h = r at fr ag
    obtain ⟨r, h'⟩ := r
    cases ag with
    | ok hr => exact (hk _ _ _ fr hr).agree
    | error e => exact .error e

/-- A step that cannot fail and has no counterpart on values. -/
theorem Does.step {w' : ℕ} {m : H α} {R : α → Heap → Prop} {k : α → H α'} {q : Py β'}
    {S : α' → Heap → β' → Prop} (d : Does w' m h (.ok ()) fun a h' _ => R a h') (hw : w ≤ w')
    (hk : ∀ a h', Heap.Frame w' h h' → R a h' → Does w (k a) h' q S) :
    Does w (m >>= k) h q S :=
  Does.bind (q := fun _ => q) d hw fun a h' _ f r => hk a h' f r

theorem Does.here {k : Heap → H α'} {q : Py β'} {S : α' → Heap → β' → Prop} (hk : Does w (k h) h q S) :
    Does w (H.here >>= k) h q S := ⟨hk.frame, hk.agree⟩

theorem Does.liftBind {p : Py α} {k : α → H α'} {q : α → Py β'} {S : α' → Heap → β' → Prop}
    (hk : ∀ a, p = .ok a → Does w (k a) h (q a) S) : Does w (H.lift p >>= k) h (p >>= q) S := by
  cases p with
  | ok a => exact hk a rfl
  | error e => exact ⟨.refl _ _, .error e⟩

theorem Does.new (hw : w ≤ h.next) (rows cols : ℕ) (f : ℕ → ℕ → ℝ) (i : Bool) :
    Does w (H.new rows cols f i) h (.ok ()) fun a h' _ =>
      a = { buf := h.next, rows := rows, cols := cols, cell := fun r c => (r, c), isInt := i } ∧
        h'.next = h.next + 1 ∧ ∀ r c, a.get h' r c = f r c := by
  refine ⟨⟨Nat.le_succ _, fun b hb => ?_⟩, .ok ⟨rfl, rfl, fun r c => ?_⟩⟩
  · funext p
    show (if b = h.next then fun p : ℕ × ℕ => f p.1 p.2 else h.buf b) p = _
    rw [if_neg (by omega)]
  · show (if h.next = h.next then fun p : ℕ × ℕ => f p.1 p.2 else h.buf h.next) (r, c) = _
    rw [if_pos rfl]

/-- Different elements are in different cells. -/
def Arr.Inj (a : Arr) : Prop :=
  ∀ r c r' c', r < a.rows → c < a.cols → r' < a.rows → c' < a.cols → a.cell r c = a.cell r' c' → r = r' ∧ c = c'

theorem Does.assign (a : Arr) (ha : w ≤ a.buf) (sel : ℕ → ℕ → Prop) (f : ℕ → ℕ → ℝ) :
    Does w (a.assign sel f) h (.ok ()) fun _ h' _ =>
      h'.next = h.next ∧ (∀ b, b ≠ a.buf → h'.buf b = h.buf b) ∧
      (a.Inj → ∀ r c, r < a.rows → c < a.cols → ∀ _inst : Decidable (sel r c),
        a.get h' r c = if sel r c then f r c else a.get h r c) := by
  classical
  have hb : ∀ b, b ≠ a.buf → ((a.assign sel f) h).2.buf b = h.buf b := fun b hb => by
    funext p
    exact dif_neg fun hc => hb hc.1
  refine ⟨⟨le_rfl, fun b hb' => hb b (by omega)⟩, .ok ⟨rfl, hb, fun inj r c hr hc inst => ?_⟩⟩
  by_cases hs : sel r c
  · have hx : a.buf = a.buf ∧ ∃ x : ℕ × ℕ, x.1 < a.rows ∧ x.2 < a.cols ∧ sel x.1 x.2 ∧
        a.cell x.1 x.2 = a.cell r c := ⟨rfl, (r, c), hr, hc, hs, rfl⟩
    have := Classical.choose_spec hx.2
    obtain ⟨e1, e2⟩ := inj _ _ _ _ this.1 this.2.1 hr hc this.2.2.2
    rw [if_pos hs]
    refine (dif_pos hx).trans ?_
    rw [e1, e2]
  · rw [if_neg hs]
    refine dif_neg ?_
    rintro ⟨-, x, h1, h2, h3, h4⟩
    obtain ⟨e1, e2⟩ := inj _ _ _ _ h1 h2 hr hc h4
    rw [e1, e2] at h3
    exact hs h3

theorem Does.vstack (hw : w ≤ h.next) (a b : Arr) :
    Does w (vstack a b) h (.ok ()) fun S h' _ =>
      S = { buf := h.next, rows := 2, cols := a.cols, cell := fun r c => (r, c), isInt := a.isInt && b.isInt } ∧
        h'.next = h.next + 1 ∧ ∀ r c, S.get h' r c = if r = 0 then a.get h 0 c else b.get h 0 c :=
  Does.here (Does.new hw _ _ _ _)

/-- `_adjust_for_anisotropy(np.vstack((a, b)).T, ...)`, both coordinates of integer dtype. -/
theorem Does.adjusted_int (hw : w ≤ h.next) (a b : Arr) (xc yc sc an : ℝ) (hi : (a.isInt && b.isInt) = true)
    {k : Arr → H α'} {S : α' → Heap → β' → Prop} :
    Does w (PyKrige.vstack a b >>= fun S => adjustForAnisotropy2 S.T xc yc sc an >>= k) h
      (.error .castingError : Py β') S := by
  refine Does.step (Does.vstack hw a b) le_rfl fun S' h' f ⟨hS, hn, hv⟩ => ?_
  have : S'.T.isInt = true := by rw [hS]; exact hi
  unfold adjustForAnisotropy2
  rw [if_pos this]
  exact ⟨.refl _ _, .error _⟩

/-- `_adjust_for_anisotropy` on a transposed new array with two columns. -/
theorem Does.adjust2 (hw : w ≤ h.next) (X : Arr) (hX : w ≤ X.buf)
    (hint : X.isInt = false) (hcell : ∀ r c, X.cell r c = (c, r)) (hcols : X.cols = 2) (xc yc sc an : ℝ) :
    Does w (adjustForAnisotropy2 X xc yc sc an) h (.ok ()) fun A h' _ =>
      h.next ≤ A.buf ∧ A.buf < h'.next ∧ A.rows = X.rows ∧ A.cols = 2 ∧ A.isInt = false ∧
      ∀ r < X.rows, ∀ j : Fin 2,
        A.get h' r j = PyKrige.adjust2 ![xc, yc] sc an ![X.get h r 0, X.get h r 1] j := by
  have injX : X.Inj := by
    intro r c r' c' _ _ _ _ e
    rw [hcell, hcell] at e
    exact ⟨(Prod.mk.inj e).2, (Prod.mk.inj e).1⟩
  unfold adjustForAnisotropy2
  dsimp only
  rw [if_neg (by rw [hint]; decide)]
  -- X -= center
  refine Does.here (Does.step (Does.assign X hX _ _) le_rfl fun _ h1 f1 ⟨hn1, ho1, hv1⟩ => ?_)
  replace hv1 := fun r c hr hc => (hv1 injX r c hr hc (Classical.propDecidable _)).trans (if_pos trivial)
  -- the product
  refine Does.here (Does.step (Does.new (hw.trans f1.next_le) _ _ _ _) le_rfl
    fun P h2 f2 ⟨hP, hn2, hv2⟩ => ?_)
  have hPc : ∀ r c, P.T.cell r c = (c, r) := by rw [hP]; intro r c; rfl
  have hPr : P.T.rows = X.rows := by rw [hP]; rfl
  have hPk : P.T.cols = 2 := by rw [hP]; rfl
  have hPb : P.T.buf = h1.next := by rw [hP]; rfl
  have hPi : P.T.isInt = false := by rw [hP]; rfl
  have hPv : ∀ r c, P.T.get h2 r c = P.get h2 c r := fun _ _ => rfl
  have injP : P.T.Inj := by
    intro r c r' c' _ _ _ _ e
    rw [hPc, hPc] at e
    exact ⟨(Prod.mk.inj e).2, (Prod.mk.inj e).1⟩
  refine Does.here (Does.step (Does.assign P.T (by rw [hPb, hn1]; omega) _ _) le_rfl
    fun _ h3 f3 ⟨hn3, ho3, hv3⟩ => ?_)
  replace hv3 := fun r c hr hc => (hv3 injP r c hr hc (Classical.propDecidable _)).trans (if_pos trivial)
  refine Does.ret ⟨by rw [hPb, hn1], by rw [hPb, hn3, hn2]; omega, hPr, hPk, hPi, fun r hr j => ?_⟩
  have hj : (j : ℕ) < 2 := j.isLt
  rw [hv3 r j (by omega) (by omega), hPv, hv2, hv1 r 0 hr (by omega), hv1 r 1 hr (by omega)]
  unfold PyKrige.adjust2
  rw [Pi.add_apply]
  have e1 : (![X.get h r 0 - (if (0:ℕ) = 0 then xc else yc), X.get h r 1 - (if (1:ℕ) = 0 then xc else yc)] :
      Fin 2 → ℝ) = ![X.get h r 0, X.get h r 1] - ![xc, yc] := by
    funext i; fin_cases i <;> rfl
  rw [e1]
  have e2 : (if (j : ℕ) = 0 then xc else yc) = (![xc, yc] : Fin 2 → ℝ) j := by fin_cases j <;> rfl
  have e3 : (if (j : ℕ) = 0 then (0 : Fin 2) else 1) = j := by fin_cases j <;> rfl
  rw [e2, e3]

/-- `_adjust_for_anisotropy(np.vstack((a, b)).T, ...)`, followed by `k`. -/
theorem Does.adjusted (hw : w ≤ h.next) (a b : Arr) (xc yc sc an : ℝ) (hi : (a.isInt && b.isInt) = false)
    {k : Arr → H α'} {q : Py β'} {S : α' → Heap → β' → Prop}
    (hk : ∀ A h', Heap.Frame h.next h h' → h.next ≤ A.buf → A.buf < h'.next → A.rows = a.cols → A.cols = 2 →
      A.isInt = false →
      (∀ c < a.cols, ∀ j : Fin 2, A.get h' c j = PyKrige.adjust2 ![xc, yc] sc an ![a.get h 0 c, b.get h 0 c] j) →
      Does w (k A) h' q S) :
    Does w (PyKrige.vstack a b >>= fun S => adjustForAnisotropy2 S.T xc yc sc an >>= k) h q S := by
  refine Does.step (Does.vstack (le_refl h.next) a b) hw fun S' h1 f1 ⟨hS, hn1, hv⟩ => ?_
  have hget : ∀ r c, S'.T.get h1 r c = if c = 0 then a.get h 0 r else b.get h 0 r := by
    intro r c; rw [← hv c r]; rfl
  refine Does.step (Does.adjust2 (w := h.next) f1.next_le S'.T (by rw [hS]; exact le_rfl)
    (by rw [hS]; exact hi) (by rw [hS]; intro r c; rfl)
    (by rw [hS]; rfl) xc yc sc an) hw fun A h2 f2 ⟨p1, p2, p3, p4, p5, p6⟩ => ?_
  refine hk A h2 (f1.trans f2) (f1.next_le.trans p1) p2 (p3.trans (by rw [hS]; rfl)) p4 p5 fun c hc j => ?_
  rw [p6 c (by rw [hS]; exact hc), hget, hget]
  rfl

end

end
end PyKrige
