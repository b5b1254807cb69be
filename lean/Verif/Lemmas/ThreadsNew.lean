import Verif.Lemmas.ThreadsSafe

/-! The constructors as programs. -/

namespace PyKrige
noncomputable section
set_option linter.unusedSimpArgs false
open Matrix

theorem Thr.seq_map {α β : Type} (f : α → β) (t : Thr α) : (f <$> t).seq = (f <$> t.seq : H β) := by
  show (t >>= fun a => pure (f a)).seq = (t.seq >>= fun a => pure (f a) : H β)
  rw [Thr.seq_bind]
  rfl

theorem Arr.seq_copyFloat (a : Arr) : a.copyFloatT.seq = a.copyFloat := by
  unfold Arr.copyFloatT Arr.copyFloat; simp only [Thr.seq_bind, Thr.seq_here, Thr.seq_new]

theorem seq_makeParams (model : String) (p : ParamRef) :
    (makeVariogramParameterListRefT model p).seq = makeVariogramParameterListRef model p := by
  unfold makeVariogramParameterListRefT makeVariogramParameterListRef
  cases p with
  | none => rfl
  | other => rfl
  | dict d =>
    dsimp only
    rcases makeVariogramParameterList model (.dict d) with e | _ | l <;> rfl
  | list a => simp only [Thr.seq_bind, Thr.seq_here, Thr.seq_new, Thr.seq_newList, Thr.seq_newBools, Thr.seq_ite, Thr.seq_raise,
    Thr.seq_lift, Arr.seq_assign, Thr.seq_pure, Thr.seq_map]

theorem OKRef.seq_resolve (env : Env) (c : String) (vm : ModelArg) (f : FunArg) (p : ParamRef) (s a : ℝ) :
    (OKRef.resolveModelT env c vm f p s a).seq = OKRef.resolveModel env c vm f p s a := by
  unfold OKRef.resolveModelT OKRef.resolveModel
  cases vm <;> simp only [Thr.seq_bind, Thr.seq_here, Thr.seq_new, Thr.seq_newList, Thr.seq_newBools, Thr.seq_ite, Thr.seq_raise,
    Thr.seq_lift, Arr.seq_assign, Thr.seq_pure, Thr.seq_map]

theorem OK3DRef.seq_resolve (env : Env) (vm : ModelArg) (f : FunArg) (p : ParamRef) (an : Aniso3) :
    (OK3DRef.resolveModelT env vm f p an).seq = OK3DRef.resolveModel env vm f p an := by
  unfold OK3DRef.resolveModelT OK3DRef.resolveModel
  cases vm <;> simp only [Thr.seq_bind, Thr.seq_here, Thr.seq_new, Thr.seq_newList, Thr.seq_newBools, Thr.seq_ite, Thr.seq_raise,
    Thr.seq_lift, Arr.seq_assign, Thr.seq_pure, Thr.seq_map]

theorem OKRef.seq_setup (n : ℕ) (X Y : Arr) (c : String) (s a : ℝ) :
    (OKRef.setupCoordinatesT n X Y c s a).seq = OKRef.setupCoordinates n X Y c s a := by
  unfold OKRef.setupCoordinatesT OKRef.setupCoordinates
  simp only [Thr.seq_bind, Thr.seq_here, Thr.seq_new, Thr.seq_newList, Thr.seq_newBools, Thr.seq_ite, Thr.seq_raise,
    Thr.seq_lift, Arr.seq_assign, Thr.seq_pure, Thr.seq_map, seq_vstack, seq_adjust2]

theorem seq_initialize {n m : ℕ} (env : Env) (X : Fin n → Fin m → ℝ) (y : Fin n → ℝ) (model : String)
    (vp : Option Arr) (f : VFun) (nlags : ℕ) (weight : Bool) (c : String) :
    (initializeVariogramModelRefT env X y model vp f nlags weight c).seq =
      initializeVariogramModelRef env X y model vp f nlags weight c := by
  unfold initializeVariogramModelRefT initializeVariogramModelRef
  cases vp <;> simp only [Thr.seq_bind, Thr.seq_here, Thr.seq_new, Thr.seq_newList, Thr.seq_newBools, Thr.seq_ite, Thr.seq_raise,
    Thr.seq_lift, Arr.seq_assign, Thr.seq_pure, Thr.seq_map]

theorem OKRef.seq_create (n : ℕ) (env : Env) (x y z : Arr) (args : OKRefArgs) :
    (OKRef.createT n env x y z args).seq = OKRef.create n env x y z args := by
  unfold OKRef.createT OKRef.create
  cases args.exactValues <;>
    simp only [Thr.seq_bind, Thr.seq_here, Thr.seq_new, Thr.seq_newList, Thr.seq_newBools, Thr.seq_ite, Thr.seq_raise,
    Thr.seq_lift, Arr.seq_assign, Thr.seq_pure, Thr.seq_map, Arr.seq_copyFloat, OKRef.seq_resolve, OKRef.seq_setup, seq_makeParams, seq_initialize]

theorem OK3DRef.seq_create (n : ℕ) (env : Env) (x y z val : Arr) (args : OK3DRefArgs) :
    (OK3DRef.createT n env x y z val args).seq = OK3DRef.create n env x y z val args := by
  unfold OK3DRef.createT OK3DRef.create
  cases args.exactValues <;>
    simp only [Thr.seq_bind, Thr.seq_here, Thr.seq_new, Thr.seq_newList, Thr.seq_newBools, Thr.seq_ite, Thr.seq_raise,
    Thr.seq_lift, Arr.seq_assign, Thr.seq_pure, Thr.seq_map, Arr.seq_copyFloat, OK3DRef.seq_resolve, seq_vstack3, seq_adjust3, seq_makeParams, seq_initialize]

theorem seq_external (args : UKRefArgs) : (setupExternalRefT args).seq = setupExternalRef args := by
  unfold setupExternalRefT setupExternalRef
  rcases args.externalRef with _ | e
  · rfl
  · rcases args.externalXRef with _ | x
    · rfl
    · rcases args.externalYRef with _ | y
      · rfl
      · simp only [Thr.seq_bind, Thr.seq_here, Thr.seq_new, Thr.seq_newList, Thr.seq_newBools, Thr.seq_ite, Thr.seq_raise,
    Thr.seq_lift, Arr.seq_assign, Thr.seq_pure, Thr.seq_map, Arr.seq_copy]

theorem seq_externalZ (n : ℕ) (X Y : Arr) (args : UKRefArgs) :
    (setupExternalZRefT n X Y args).seq = setupExternalZRef n X Y args := by
  unfold setupExternalZRefT setupExternalZRef
  simp only [Thr.seq_bind, Thr.seq_here, Thr.seq_new, Thr.seq_newList, Thr.seq_newBools, Thr.seq_ite, Thr.seq_raise,
    Thr.seq_lift, Arr.seq_assign, Thr.seq_pure, Thr.seq_map, seq_external]

theorem seq_pointLog (a b c d : ℝ) (args : UKRefArgs) :
    (setupPointLogRefT a b c d args).seq = setupPointLogRef a b c d args := by
  unfold setupPointLogRefT setupPointLogRef
  cases args.pointDriftRef <;> simp only [Thr.seq_bind, Thr.seq_here, Thr.seq_new, Thr.seq_newList, Thr.seq_newBools, Thr.seq_ite, Thr.seq_raise,
    Thr.seq_lift, Arr.seq_assign, Thr.seq_pure, Thr.seq_map, Arr.seq_copy, seq_vstack, seq_adjust2]

theorem seq_copyTerms (n : ℕ) (l : List Arr) : (copyTermsT n l).seq = copyTerms n l := by
  induction l with
  | nil => rfl
  | cons t ts ih =>
    unfold copyTermsT copyTerms
    simp only [Thr.seq_bind, Thr.seq_here, Thr.seq_new, Thr.seq_newList, Thr.seq_newBools, Thr.seq_ite, Thr.seq_raise,
    Thr.seq_lift, Arr.seq_assign, Thr.seq_pure, Thr.seq_map, Arr.seq_copy, ih]

theorem seq_specified (n : ℕ) (terms : List String) (arg : ListArg Arr) :
    (setupSpecifiedRefT n terms arg).seq = setupSpecifiedRef n terms arg := by
  unfold setupSpecifiedRefT setupSpecifiedRef
  rcases arg with _ | _ | _ <;> simp only [Thr.seq_bind, Thr.seq_here, Thr.seq_new, Thr.seq_newList, Thr.seq_newBools, Thr.seq_ite, Thr.seq_raise,
    Thr.seq_lift, Arr.seq_assign, Thr.seq_pure, Thr.seq_map, seq_copyTerms]

theorem UKRef.seq_create (n : ℕ) (env : Env) (x y z : Arr) (args : UKRefArgs) :
    (UKRef.createT n env x y z args).seq = UKRef.create n env x y z args := by
  unfold UKRef.createT UKRef.create
  simp only [Thr.seq_bind, Thr.seq_here, Thr.seq_new, Thr.seq_newList, Thr.seq_newBools, Thr.seq_ite, Thr.seq_raise,
    Thr.seq_lift, Arr.seq_assign, Thr.seq_pure, Thr.seq_map, OKRef.seq_create, seq_externalZ, seq_pointLog, seq_specified]

theorem UK3DRef.seq_create (n : ℕ) (env : Env) (x y z val : Arr) (args : UK3DRefArgs) :
    (UK3DRef.createT n env x y z val args).seq = UK3DRef.create n env x y z val args := by
  unfold UK3DRef.createT UK3DRef.create
  simp only [Thr.seq_bind, Thr.seq_here, Thr.seq_new, Thr.seq_newList, Thr.seq_newBools, Thr.seq_ite, Thr.seq_raise,
    Thr.seq_lift, Arr.seq_assign, Thr.seq_pure, Thr.seq_map, OK3DRef.seq_create, seq_specified]

/-! ### No step writes into a common buffer -/

variable {w : ℕ}

theorem Thr.Safe.any {α β : Type} {t : Thr α} {k : α → Thr β} {Q : α → Prop} {R : β → Prop} (ht : t.Safe w Q)
    (hk : ∀ a, (k a).Safe w R) : (t >>= k).Safe w R := Thr.Safe.bind ht fun a _ => hk a

theorem Arr.safe_copyFloat (a : Arr) : a.copyFloatT.Safe w (Fresh w) := .hereBind fun _ => .new _ _ _ _

theorem safe_makeParams (model : String) (p : ParamRef) :
    (makeVariogramParameterListRefT model p).Safe w fun _ => True := by
  unfold makeVariogramParameterListRefT
  cases p with
  | none => trivial
  | other => trivial
  | dict d =>
    refine .liftBind _ fun l => ?_
    cases l with
    | none => trivial
    | some l => exact .newListBind fun _ _ => .pure trivial
  | list a =>
    refine .ite (fun _ => .ite (fun _ => .raise _) fun _ => .pure trivial) fun _ => ?_
    refine .ite (fun _ => .ite (fun _ => .raise _) fun _ => .pure trivial) fun _ => ?_
    refine .ite (fun _ => .ite (fun _ => .raise _) fun _ => ?_) fun _ => ?_
    · exact .hereBind fun _ => .newListBind fun _ _ => .pure trivial
    · exact .ite (fun _ => .pure trivial) fun _ => .raise _

theorem OKRef.safe_resolve (env : Env) (c : String) (vm : ModelArg) (f : FunArg) (p : ParamRef) (s a : ℝ) :
    (OKRef.resolveModelT env c vm f p s a).Safe w fun _ => True := by
  unfold OKRef.resolveModelT
  cases vm with
  | name s => trivial
  | gstools m =>
    refine .liftBind _ fun _ => .ite (fun _ => .raiseBind) fun _ => .ite (fun _ => .raiseBind) fun _ => ?_
    exact .newListBind fun _ _ => .pure trivial

theorem OK3DRef.safe_resolve (env : Env) (vm : ModelArg) (f : FunArg) (p : ParamRef) (an : Aniso3) :
    (OK3DRef.resolveModelT env vm f p an).Safe w fun _ => True := by
  unfold OK3DRef.resolveModelT
  cases vm with
  | name s => trivial
  | gstools m =>
    refine .liftBind _ fun _ => .ite (fun _ => .raiseBind) fun _ => ?_
    exact .newListBind fun _ _ => .pure trivial

theorem OKRef.safe_setup (n : ℕ) (X Y : Arr) (c : String) (s a : ℝ) :
    (OKRef.setupCoordinatesT n X Y c s a).Safe w fun _ => True := by
  unfold OKRef.setupCoordinatesT
  refine .ite (fun _ => ?_) fun _ => .ite (fun _ => .pure trivial) fun _ => .raise _
  exact .hereBind fun _ => .liftBind _ fun _ => .liftBind _ fun _ => Thr.Safe.bind (safe_vstack _ _) fun _ hS =>
    Thr.Safe.any (safe_adjust2 hS.T _ _ _ _) fun _ => .pure trivial

theorem safe_initialize {n m : ℕ} (env : Env) (X : Fin n → Fin m → ℝ) (y : Fin n → ℝ) (model : String)
    (vp : Option Arr) (f : VFun) (nlags : ℕ) (weight : Bool) (c : String) :
    (initializeVariogramModelRefT env X y model vp f nlags weight c).Safe w fun _ => True := by
  unfold initializeVariogramModelRefT
  cases vp with
  | none => exact .hereBind fun _ => .liftBind _ fun _ => .newListBind fun _ _ => .pure trivial
  | some a => exact .hereBind fun _ => .liftBind _ fun _ => .pure trivial

theorem OKRef.safe_create (n : ℕ) (env : Env) (x y z : Arr) (args : OKRefArgs) :
    (OKRef.createT n env x y z args).Safe w fun _ => True := by
  unfold OKRef.createT
  refine .ite (fun _ => .raiseBind) fun _ => ?_
  cases args.exactValues with
  | notBool => exact .raiseBind
  | bool b =>
    refine Thr.Safe.any (Q := fun _ => True) (.pure trivial) fun exact => ?_
    refine Thr.Safe.any (OKRef.safe_resolve _ _ _ _ _ _ _) fun v => .liftBind _ fun f => ?_
    refine Thr.Safe.any x.safe_copyFloat fun X => Thr.Safe.any y.safe_copyFloat fun Y =>
      Thr.Safe.any z.safe_copyFloat fun Z => Thr.Safe.any (OKRef.safe_setup _ _ _ _ _ _) fun c => ?_
    refine Thr.Safe.any (safe_makeParams _ _) fun vp => .hereBind fun h => ?_
    refine Thr.Safe.any (safe_initialize _ _ _ _ _ _ _ _ _) fun l => .hereBind fun h => ?_
    refine .ite (fun _ => ?_) fun _ => .pure trivial
    refine Thr.Safe.any (Q := fun _ => True) ?_ fun _ => .pure trivial
    exact .liftBind _ fun _ => .pure trivial

theorem OK3DRef.safe_create (n : ℕ) (env : Env) (x y z val : Arr) (args : OK3DRefArgs) :
    (OK3DRef.createT n env x y z val args).Safe w fun _ => True := by
  unfold OK3DRef.createT
  refine .ite (fun _ => .raiseBind) fun _ => ?_
  cases args.exactValues with
  | notBool => exact .raiseBind
  | bool b =>
    refine Thr.Safe.any (Q := fun _ => True) (.pure trivial) fun exact => ?_
    refine Thr.Safe.any (OK3DRef.safe_resolve _ _ _ _ _) fun v => .liftBind _ fun f => ?_
    refine Thr.Safe.any x.safe_copyFloat fun X => Thr.Safe.any y.safe_copyFloat fun Y =>
      Thr.Safe.any z.safe_copyFloat fun Z => Thr.Safe.any val.safe_copyFloat fun V => .hereBind fun h => ?_
    refine .liftBind _ fun _ => .liftBind _ fun _ => .liftBind _ fun _ => ?_
    refine Thr.Safe.bind (safe_vstack3 _ _ _) fun _ hS => Thr.Safe.any (safe_adjust3 hS.T _ _ _ _) fun _ => ?_
    refine Thr.Safe.any (safe_makeParams _ _) fun vp => .hereBind fun h => ?_
    refine Thr.Safe.any (safe_initialize _ _ _ _ _ _ _ _ _) fun l => .hereBind fun h => ?_
    exact .liftBind _ fun _ => .pure trivial

theorem safe_external (args : UKRefArgs) : (setupExternalRefT args).Safe w fun _ => True := by
  unfold setupExternalRefT
  rcases args.externalRef with _ | e
  · trivial
  · rcases args.externalXRef with _ | x
    · trivial
    · rcases args.externalYRef with _ | y
      · trivial
      · refine .ite (fun _ => .ite (fun _ => ?_) fun _ => .raise _) fun _ => ?_
        · exact Thr.Safe.any e.T.safe_copy fun _ => Thr.Safe.any x.safe_copy fun _ => Thr.Safe.any y.safe_copy fun _ =>
            .pure trivial
        · exact Thr.Safe.any e.safe_copy fun _ => Thr.Safe.any x.safe_copy fun _ => Thr.Safe.any y.safe_copy fun _ =>
            .pure trivial

theorem safe_externalZ (n : ℕ) (X Y : Arr) (args : UKRefArgs) :
    (setupExternalZRefT n X Y args).Safe w fun _ => True := by
  unfold setupExternalZRefT
  refine .ite (fun _ => ?_) fun _ => .pure trivial
  exact Thr.Safe.any (safe_external args) fun _ => .hereBind fun _ => .liftBind _ fun _ => .newListBind fun _ _ =>
    .pure trivial

theorem safe_pointLog (a b c d : ℝ) (args : UKRefArgs) :
    (setupPointLogRefT a b c d args).Safe w fun _ => True := by
  unfold setupPointLogRefT
  refine .ite (fun _ => ?_) fun _ => .pure trivial
  cases args.pointDriftRef with
  | none => trivial
  | some p =>
    refine Thr.Safe.any p.safe_copy fun pl => .newBind fun arr ha => .hereBind fun _ => .assignBind ha ?_
    exact Thr.Safe.bind (safe_vstack _ _) fun _ hS => Thr.Safe.any (safe_adjust2 hS.T _ _ _ _) fun _ =>
      .hereBind fun _ => .assignBind ha (.pure trivial)

theorem safe_copyTerms (n : ℕ) (l : List Arr) : (copyTermsT n l).Safe w fun _ => True := by
  induction l with
  | nil => trivial
  | cons t ts ih =>
    unfold copyTermsT
    exact Thr.Safe.any t.safe_copy fun _ => .ite (fun _ => .raiseBind) fun _ => Thr.Safe.any ih fun _ => .pure trivial

theorem safe_specified (n : ℕ) (terms : List String) (arg : ListArg Arr) :
    (setupSpecifiedRefT n terms arg).Safe w fun _ => True := by
  unfold setupSpecifiedRefT
  refine .ite (fun _ => ?_) fun _ => .pure trivial
  rcases arg with _ | _ | _
  · trivial
  · trivial
  · exact Thr.Safe.any (safe_copyTerms _ _) fun _ => .pure trivial

theorem UKRef.safe_create (n : ℕ) (env : Env) (x y z : Arr) (args : UKRefArgs) :
    (UKRef.createT n env x y z args).Safe w fun _ => True :=
  Thr.Safe.any (OKRef.safe_create _ _ _ _ _ _) fun _ => Thr.Safe.any (safe_externalZ _ _ _ _) fun _ =>
    Thr.Safe.any (safe_pointLog _ _ _ _ _) fun _ => Thr.Safe.any (safe_specified _ _ _) fun _ =>
    .liftBind _ fun _ => .pure trivial

theorem UK3DRef.safe_create (n : ℕ) (env : Env) (x y z val : Arr) (args : UK3DRefArgs) :
    (UK3DRef.createT n env x y z val args).Safe w fun _ => True :=
  Thr.Safe.any (OK3DRef.safe_create _ _ _ _ _ _ _) fun _ => Thr.Safe.any (safe_specified _ _ _) fun _ =>
    .liftBind _ fun _ => .pure trivial

end
end PyKrige
