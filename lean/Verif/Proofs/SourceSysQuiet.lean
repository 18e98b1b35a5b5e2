import Verif.Proofs.SourceSysBase
import Verif.Proofs.SourceShared

/-!
# Text that neither logs nor calls the operating system runs as before

If a statement calls no function that does, then with the operating system (Model/GoSys.lean) it means what it means without
(Model/GoMem.lean), as far as it has a meaning there.
-/

set_option linter.unusedSectionVars false

namespace Fasttld.GoLang
open Fasttld

/-- Whether a function is the same with and without the operating system. -/
def Fn.quiet (fn : Fn) : Bool :=
  match fn with
  | .Println | .ReadFile | .httpGet | .ReadAll | .Sprint | .Abs | .Stat | .OpenFile | .GetTempDir | .Open | .Now | .Sub | .ModTime | .Hours
  | .IsDir | .Seek | .Write | .Close | .colorNew | .Print | .colorPrintln => false
  | fn => !fn.asks

mutual
/-- Whether an expression calls only such functions. -/
def Expr.quiet : Expr → Bool
  | .var _ _ | .glob _ | .intLit _ | .charLit _ | .strLit _ | .boolLit _ | .nil | .zeroResult | .runeSelf | .hardcodedPSL => true
  | .paren e | .not e | .neg e | .field e _ => e.quiet
  | .bin _ a b | .index a b | .sliceFrom a b => a.quiet && b.quiet
  | .slice a b c => a.quiet && b.quiet && c.quiet
  | .newTrie _ | .zeroTrie | .newFastTLD _ _ _ | .newOsFs | .known _ | .attributes _ | .spreadArg _ | .inPackage _ | .newListParams _
  | .newParams _ _ _ => false
  | .call f args => f.quiet && quiets args

/-- Several. -/
def quiets : List Expr → Bool
  | [] => true
  | e :: es => e.quiet && quiets es
end

/-- Whether a statement calls only such functions. -/
def Stmt.quiet : Stmt → Bool
  | .seq a b => a.quiet && b.quiet
  | .ite i e a b => i.quiet && e.quiet && a.quiet && b.quiet
  | .block s => s.quiet
  | .range _ _ e s => e.quiet && s.quiet
  | .loop a e b s => a.quiet && e.quiet && b.quiet && s.quiet
  | .assign ls es => lhsPlain ls && quiets es
  | .assignOp _ _ e | .expr e => e.quiet
  | .define _ es | .ret es => quiets es
  | .skip | .brk | .cont | .incr _ _ | .declare _ _ | .declareGroup _ => true
  | _ => false

section
variable {α β γ : Type}

/-- The second program does what the first one does, unless that has no meaning. -/
inductive Below (O : List Obj) (D : List (Fn × List Val)) : MProg (Comp (α × Arrays)) → XProg (Comp (α × Local)) → Prop
  | stuck (p : XProg (Comp (α × Local))) : Below O D (.ret (.error .stuck)) p
  | err (t : Trap) : Below O D (.ret (.error t)) (.ret (.error t))
  | ok (a : α) (A : Arrays) : Below O D (.ret (.ok (a, A))) (.ret (.ok (a, ⟨A, O, D⟩)))
  | call {β : Type} (o : MOp β) {k : β → MProg (Comp (α × Arrays))} {l : β → XProg (Comp (α × Local))} (h : ∀ b, Below O D (k b) (l b)) :
      Below O D (.call o k) (.mem o l)

/-- In every state. -/
def Follows (x : Eff α) (y : EffX α) : Prop := ∀ A O D, Below O D (x A) (y ⟨A, O, D⟩)

theorem Follows.up (x : Eff α) : Follows x (EffX.up x) := by
  intro A O D
  simp only [EffX.up]
  generalize x A = p
  induction p with
  | ret r =>
    match r with
    | .ok (a, A) => exact .ok a A
    | .error t => exact .err t
  | call o k ih => exact .call o ih
theorem Follows.lift (x : Comp α) : Follows (Eff.lift x) (EffX.lift x) := by rw [← effx_up_lift]; exact .up _
theorem Follows.ok (a : α) : Follows (Eff.ok a) (EffX.ok a) := fun _ _ _ => .ok _ _
theorem Follows.stuck (y : EffX α) : Follows (Eff.lift (.error .stuck)) y := fun _ _ _ => .stuck _

theorem Follows.bind {x : Eff α} {y : EffX α} {k : α → Eff β} {l : α → EffX β} (h : Follows x y) (hk : ∀ a, Follows (k a) (l a)) :
    Follows (x.bind k) (y.bind l) := by
  intro A O D
  have h := h A O D
  simp only [Eff.bind, EffX.bind]
  generalize x A = p at h
  generalize y _ = q at h
  induction h with
  | stuck p => exact .stuck _
  | err t => exact .err t
  | ok a A => exact hk a A O D
  | call o _ ih => exact .call o ih

theorem Follows.cond (v : Val) {x x' : Eff α} {y y' : EffX α} (h : Follows x y) (h' : Follows x' y') : Follows (v.condM x x') (v.condX y y') := by
  unfold Val.condM Val.condX
  split
  · exact h
  · exact h'
  · exact .stuck _

theorem Follows.andThen (o : Out) {k : Vars → Eff Out} {l : Vars → EffX Out} (h : ∀ vs, Follows (k vs) (l vs)) : Follows (o.andThenM k) (o.andThenX l) := by
  cases o <;> first | exact h _ | exact .ok _
theorem Follows.only (o : Out) {k : Vars → Eff Out} {l : Vars → EffX Out} (h : ∀ vs, Follows (k vs) (l vs)) : Follows (o.onlyM k) (o.onlyX l) := by
  cases o <;> first | exact h _ | exact .stuck _
theorem Follows.iterate (o : Out) {k : Vars → Eff Out} {l : Vars → EffX Out} (h : ∀ vs, Follows (k vs) (l vs)) : Follows (o.iterateM k) (o.iterateX l) := by
  cases o <;> first | exact h _ | exact .ok _

theorem Follows.while {cond : Vars → Eff Val} {post body : Vars → Eff Out} {condX : Vars → EffX Val} {postX bodyX : Vars → EffX Out}
    (h1 : ∀ vs, Follows (cond vs) (condX vs)) (h2 : ∀ vs, Follows (post vs) (postX vs)) (h3 : ∀ vs, Follows (body vs) (bodyX vs)) :
    ∀ fuel vs, Follows (whileLoopM cond post body fuel vs) (whileLoopX condX postX bodyX fuel vs) := by
  intro fuel
  induction fuel with
  | zero => intro vs; exact .lift _
  | succ fuel ih =>
    intro vs
    exact (h1 vs).bind fun x => .cond x ((h3 vs).bind fun o => .iterate o fun vs => (h2 vs).bind fun o => .only o ih) (.ok _)

theorem Follows.range {body : Vars → Eff Out} {bodyX : Vars → EffX Out} (h : ∀ vs, Follows (body vs) (bodyX vs)) (i v : String) :
    ∀ (l : List Item) vs, Follows (rangeLoopM body i v l vs) (rangeLoopX bodyX i v l vs) := by
  intro l
  induction l with
  | nil => intro vs; exact .ok _
  | cons p l ih => intro vs; exact (Follows.up _).bind fun p => (h _).bind fun o => .iterate _ ih

theorem Follows.getField (v : Val) (f : Field) : Follows (getFieldM v f) (getFieldX v f) := by
  unfold getFieldX
  split <;> first | exact .up _ | exact .stuck _

theorem Follows.binOp (w : Nat) (op : BinOp) (x y : Val) : Follows (Eff.lift (GoLang.binOp w op x y)) (EffX.lift (binOpX w op x y)) := by
  unfold binOpX
  split <;> first | exact .lift _ | exact .stuck _

theorem Follows.call (round : Rat → Rat) (c : Ctx) (f : Nat) (fn : Fn) (xs : List Val) (h : fn.quiet = true) :
    Follows (callMem c (f + 1) fn xs) (callSys round c (f + 1) fn xs) := by
  have h1 : fn.asks = false := by cases fn <;> first | rfl | exact absurd h (by decide)
  rw [callSys, if_neg (by simp [h1])]
  have h2 : builtinX round fn xs = none := by
    unfold builtinX
    split <;> first | rfl | exact absurd h (by decide)
  rw [h2]
  exact .up _
end

section
variable {c : Ctx} {cm : Fn → List Val → Eff Val} {cx : Fn → List Val → EffX Val} {n : Nat}
variable (hc : ∀ fn xs, fn.quiet = true → Follows (cm fn xs) (cx fn xs))
include hc

mutual
theorem Follows.eval : ∀ (e : Expr) (vs : Vars), e.quiet = true → Follows (evalM c cm e vs) (evalX c cx e vs)
  | .var _ _, _, _ => .lift _
  | .glob _, _, _ | .intLit _, _, _ | .charLit _, _, _ | .strLit _, _, _ | .boolLit _, _, _ | .nil, _, _ | .zeroResult, _, _ | .runeSelf, _, _
  | .hardcodedPSL, _, _ => .ok _
  | .paren e, vs, h => Follows.eval e vs h
  | .not e, vs, h => (Follows.eval e vs h).bind fun _ => .lift _
  | .neg e, vs, h => (Follows.eval e vs h).bind fun _ => .lift _
  | .field e f, vs, h => (Follows.eval e vs h).bind fun v => .getField v f
  | .bin op a b, vs, h => by
    simp only [Expr.quiet, Bool.and_eq_true] at h
    cases op <;> first
      | exact (Follows.eval a vs h.1).bind fun x => .cond x (Follows.eval b vs h.2) (.ok _)
      | exact (Follows.eval a vs h.1).bind fun x => .cond x (.ok _) (Follows.eval b vs h.2)
      | exact (Follows.eval a vs h.1).bind fun x => (Follows.eval b vs h.2).bind fun y => .binOp _ _ x y
  | .index a b, vs, h => by
    simp only [Expr.quiet, Bool.and_eq_true] at h
    exact (Follows.eval a vs h.1).bind fun x => (Follows.eval b vs h.2).bind fun y => .up _
  | .sliceFrom a b, vs, h => by
    simp only [Expr.quiet, Bool.and_eq_true] at h
    exact (Follows.eval a vs h.1).bind fun x => (Follows.eval b vs h.2).bind fun y => (Follows.lift _).bind fun z => .lift _
  | .slice a b d, vs, h => by
    simp only [Expr.quiet, Bool.and_eq_true] at h
    exact (Follows.eval a vs h.1.1).bind fun x => (Follows.eval b vs h.1.2).bind fun y => (Follows.eval d vs h.2).bind fun z => .lift _
  | .newTrie _, _, h => by simp [Expr.quiet] at h
  | .zeroTrie, _, h => by simp [Expr.quiet] at h
  | .newFastTLD _ _ _, _, h => by simp [Expr.quiet] at h
  | .newOsFs, _, h => by simp [Expr.quiet] at h
  | .known _, _, h => by simp [Expr.quiet] at h
  | .attributes _, _, h => by simp [Expr.quiet] at h
  | .spreadArg _, _, h => by simp [Expr.quiet] at h
  | .inPackage _, _, h => by simp [Expr.quiet] at h
  | .newListParams _, _, h => by simp [Expr.quiet] at h
  | .newParams _ _ _, _, h => by simp [Expr.quiet] at h
  | .call f args, vs, h => by
    simp only [Expr.quiet, Bool.and_eq_true] at h
    exact (Follows.evals args vs h.2).bind fun xs => hc f xs h.1

theorem Follows.evals : ∀ (es : List Expr) (vs : Vars), quiets es = true → Follows (evalsM c cm es vs) (evalsX c cx es vs)
  | [], _, _ => .ok _
  | e :: es, vs, h => by
    simp only [quiets, Bool.and_eq_true] at h
    exact (Follows.eval e vs h.1).bind fun x => (Follows.evals es vs h.2).bind fun xs => .ok _
end

theorem Follows.rhs (es : List Expr) (vs : Vars) (h : quiets es = true) : Follows (rhsM c cm es vs) (rhsX c cx es vs) :=
  (Follows.evals hc es vs h).bind fun _ => .ok _

omit hc in
theorem storesX_vars : ∀ (ls : List Lhs) (xs : List Val) (vs : Vars), ls.all Lhs.isVar = true → storesX ls xs vs = EffX.lift (assignAll ls xs vs) := by
  intro ls
  induction ls with
  | nil => intro xs vs _; cases xs <;> rfl
  | cons l ls ih =>
    intro xs vs h
    simp only [List.all_cons, Bool.and_eq_true] at h
    cases xs with
    | nil => cases l <;> rfl
    | cons x xs =>
      cases l with
      | blank => exact ih xs vs h.2
      | var p m =>
        simp only [storesX, storeX_var, assignAll]
        cases assign1 (.var p m) x vs with
        | error t => rfl
        | ok vs => exact ih xs vs h.2
      | field p m f => simp [Lhs.isVar] at h
      | index p m i => simp [Lhs.isVar] at h

theorem Follows.assign (ls : List Lhs) (es : List Expr) (vs : Vars) (h : lhsPlain ls = true) (h2 : quiets es = true) :
    Follows (execM c cm n (.assign ls es) vs) (execX c cx n (.assign ls es) vs) := by
  have hv : ls.all Lhs.isVar = true → Follows (execM c cm n (.assign ls es) vs) (execX c cx n (.assign ls es) vs) := by
    intro ha
    obtain ⟨locs, h3, h4⟩ := store_vars (c := c) (cm := cm) ls vs ha
    rw [execM_assign, h3, eff_ok_bind, execX_assign]
    refine (Follows.rhs hc es vs h2).bind fun xs => ?_
    rw [h4, storesX_vars ls xs vs ha]
    exact (Follows.lift _).bind fun _ => .ok _
  match ls, h with
  | [.field p m f], _ =>
    simp only [execM_assign, locsOf, locOf, execX_assign]
    have hone : ∀ (L : Loc), (∀ x, Follows (store1 L x vs) (storeX (.field p m f) x vs)) → ∀ xs,
        Follows ((storeAll [L] xs vs).bind fun vs => Eff.ok (Out.norm vs)) ((storesX [.field p m f] xs vs).bind fun vs => EffX.ok (Out.norm vs)) := by
      intro L h1 xs
      cases xs with
      | nil => exact .stuck _
      | cons x xs =>
        refine Follows.bind ?_ fun _ => .ok _
        cases xs with
        | nil => exact (h1 x).bind fun vs => .ok _
        | cons y ys => exact (h1 x).bind fun vs => .stuck _
    have hd : ∀ q, vs[p]? = some q → (∀ x, storeX (.field p m f) x vs = (EffX.up (storeField q f x)).bind fun _ => EffX.ok vs) →
        ∀ x, Follows (store1 (.deref q f) x vs) (storeX (.field p m f) x vs) := by
      intro q _ h x
      rw [h]
      exact (Follows.up _).bind fun _ => .ok _
    split
    all_goals simp only [eff_ok_bind]
    all_goals refine (Follows.rhs hc es vs h2).bind fun xs => hone _ ?_ xs
    · next r hr => exact hd _ hr fun x => by simp only [storeX, hr]
    · next hr => exact hd _ hr fun x => by simp only [storeX, hr]
    · next hr => exact hd _ hr fun x => by simp only [storeX, hr]
    · next h1 h2 h3 =>
      have hobj : ∀ i x, vs[p]? = some (.obj i) → assign1 (.field p "" f) x vs = .error .stuck := by
        intro i x h
        simp only [assign1, getVar, h]
        cases f <;> rfl
      intro x
      simp only [store1, storeX]
      split
      all_goals first
        | exact .lift _
        | exact absurd (by assumption) (h1 _)
        | exact absurd (by assumption) h2
        | exact absurd (by assumption) h3
        | (rw [hobj _ _ (by assumption)]; exact .stuck _)
  | [], _ => exact hv rfl
  | [.blank], _ => exact hv rfl
  | [.var _ _], _ => exact hv rfl
  | [.index _ _ _], h => exact absurd h (by simp [lhsPlain, Lhs.isVar])
  | a :: b :: ls, h => exact hv (by cases a <;> exact h)

theorem Follows.exec : ∀ (s : Stmt) (vs : Vars), s.quiet = true → Follows (execM c cm n s vs) (execX c cx n s vs) := by
  intro s
  induction s with
  | skip => intro vs _; exact .ok _
  | seq a b iha ihb =>
    intro vs h
    simp only [Stmt.quiet, Bool.and_eq_true] at h
    exact (iha vs h.1).bind fun o => .andThen o fun vs => ihb vs h.2
  | block s ih => intro vs h; exact (ih vs h).bind fun o => .ok _
  | assign ls es =>
    intro vs h
    simp only [Stmt.quiet, Bool.and_eq_true] at h
    exact Follows.assign hc ls es vs h.1 h.2
  | assignOp op l e => intro vs h; exact (Follows.lift _).bind fun x => (Follows.eval hc e vs h).bind fun y => .lift _
  | incr p m => intro vs _; exact .lift _
  | define ns es => intro vs h; exact (Follows.rhs hc es vs h).bind fun xs => .lift _
  | declare ns t => intro vs _; exact .ok _
  | declareGroup l => intro vs _; exact .ok _
  | ite i e a b ihi iha ihb =>
    intro vs h
    simp only [Stmt.quiet, Bool.and_eq_true] at h
    exact (ihi vs h.1.1.1).bind fun o => .only o fun vs' => (Follows.eval hc e vs' h.1.1.2).bind fun x =>
      .cond x ((iha vs' h.1.2).bind fun o => .ok _) ((ihb vs' h.2).bind fun o => .ok _)
  | loop a e b s iha ihb ihs =>
    intro vs h
    simp only [Stmt.quiet, Bool.and_eq_true] at h
    exact (iha vs h.1.1.1).bind fun o => .only o fun vs' => Follows.bind
      (.while (fun vs => Follows.eval hc e vs h.1.1.2) (fun vs => ihb vs h.1.2) (fun vs => (ihs vs h.2).bind fun o => .ok _) n vs') fun o => .ok _
  | range i v e s ih =>
    intro vs h
    simp only [Stmt.quiet, Bool.and_eq_true] at h
    exact (Follows.eval hc e vs h.1).bind fun x => (Follows.up _).bind fun l => .range (fun vs => ih vs h.2) i v l vs
  | brk => intro vs _; exact .ok _
  | cont => intro vs _; exact .ok _
  | ret es => intro vs h; exact (Follows.rhs hc es vs h).bind fun xs => .ok _
  | expr e => intro vs h; exact (Follows.eval hc e vs h).bind fun _ => .ok _
  | _ => intro vs h; exact absurd h (by simp [Stmt.quiet])
end

end Fasttld.GoLang
