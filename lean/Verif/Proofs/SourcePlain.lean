import Verif.Proofs.SourceMem

/-!
# Text that does not touch memory runs as before

If a statement makes nothing in memory and has no meaning to look for there, then with memory (Model/GoMem.lean) it means
what it means without (Model/GoLang.lean).
-/

set_option linter.unusedSectionVars false

namespace Fasttld.GoLang
open Fasttld

/-- Whether a function is the same with and without memory. -/
def Fn.plain (fn : Fn) : Bool := !fn.accesses && fn != .Split

mutual
/-- Whether an expression makes nothing in memory. -/
def Expr.plain : Expr → Bool
  | .var _ _ | .glob _ | .intLit _ | .charLit _ | .strLit _ | .boolLit _ | .nil | .zeroResult | .runeSelf | .hardcodedPSL => true
  | .paren e | .not e | .neg e | .field e _ => e.plain
  | .bin _ a b | .index a b | .sliceFrom a b => a.plain && b.plain
  | .slice a b c => a.plain && b.plain && c.plain
  | .newTrie _ | .zeroTrie | .newFastTLD _ _ _ | .newOsFs | .known _ | .attributes _ | .spreadArg _ | .inPackage _ | .newListParams _
  | .newParams _ _ _ => false
  | .call f args => f.plain && plains args

/-- Several. -/
def plains : List Expr → Bool
  | [] => true
  | e :: es => e.plain && plains es
end

/-- Whether a left-hand side is a variable. -/
def Lhs.isVar : Lhs → Bool
  | .blank | .var _ _ => true
  | _ => false

/-- The left-hand sides of one assignment: variables, or one field. -/
def lhsPlain : List Lhs → Bool
  | [.field _ _ _] => true
  | ls => ls.all Lhs.isVar

/-- Whether a statement makes nothing in memory. -/
def Stmt.plain : Stmt → Bool
  | .seq a b => a.plain && b.plain
  | .ite i e a b => i.plain && e.plain && a.plain && b.plain
  | .block s => s.plain
  | .range _ _ e s => e.plain && s.plain
  | .loop a e b s => a.plain && e.plain && b.plain && s.plain
  | .assign ls es => lhsPlain ls && plains es
  | .assignOp _ _ e | .expr e | .setMethod _ _ e => e.plain
  | .assignIndexOp _ _ _ i e => i.plain && e.plain
  | .define _ es | .ret es => plains es
  | .scan _ _ _ _ | .redefine _ _ _ | .defer _ _ | .declareInit _ _ | .switch _ _ | .case _ _ _ | .dflt _ => false
  | _ => true

section
variable {α β : Type}

/-- A computation without memory that has a meaning, and the same with memory. -/
def Agrees (x : Comp α) (y : Eff α) : Prop := x ≠ .error .stuck → y = Eff.lift x

theorem Agrees.lift (x : Comp α) : Agrees x (Eff.lift x) := fun _ => rfl
theorem Agrees.ok (a : α) : Agrees (.ok a) (Eff.ok a) := fun _ => rfl
theorem Agrees.stuck (y : Eff α) : Agrees (.error .stuck) y := fun h => absurd rfl h

theorem Agrees.bind {x : Comp α} {y : Eff α} {k : α → Comp β} {l : α → Eff β} (h : Agrees x y) (hk : ∀ a, Agrees (k a) (l a)) :
    Agrees (x.bind k) (y.bind l) := by
  intro hne
  cases x with
  | error t =>
    have : y = _ := h (by intro hc; cases hc; exact hne rfl)
    rw [this]; rfl
  | ok a =>
    have : y = _ := h (by intro hc; cases hc)
    rw [this]
    exact hk a hne

theorem Agrees.cond (v : Val) {x x' : Comp α} {y y' : Eff α} (h : Agrees x y) (h' : Agrees x' y') : Agrees (v.cond x x') (v.condM y y') := by
  unfold Val.cond Val.condM
  split
  · exact h
  · exact h'
  · exact .stuck _

theorem Agrees.andThen (o : Out) {k : Vars → Comp Out} {l : Vars → Eff Out} (h : ∀ vs, Agrees (k vs) (l vs)) : Agrees (o.andThen k) (o.andThenM l) := by
  cases o <;> first | exact h _ | exact .ok _
theorem Agrees.only (o : Out) {k : Vars → Comp Out} {l : Vars → Eff Out} (h : ∀ vs, Agrees (k vs) (l vs)) : Agrees (o.only k) (o.onlyM l) := by
  cases o <;> first | exact h _ | exact .stuck _
theorem Agrees.iterate (o : Out) {k : Vars → Comp Out} {l : Vars → Eff Out} (h : ∀ vs, Agrees (k vs) (l vs)) : Agrees (o.iterate k) (o.iterateM l) := by
  cases o <;> first | exact h _ | exact .ok _

theorem Agrees.while {cond : Vars → Comp Val} {post body : Vars → Comp Out} {condM : Vars → Eff Val} {postM bodyM : Vars → Eff Out}
    (h1 : ∀ vs, Agrees (cond vs) (condM vs)) (h2 : ∀ vs, Agrees (post vs) (postM vs)) (h3 : ∀ vs, Agrees (body vs) (bodyM vs)) :
    ∀ fuel vs, Agrees (whileLoop cond post body fuel vs) (whileLoopM condM postM bodyM fuel vs) := by
  intro fuel
  induction fuel with
  | zero => intro vs; exact .lift _
  | succ fuel ih =>
    intro vs
    exact (h1 vs).bind fun x => .cond x ((h3 vs).bind fun o => .iterate o fun vs => (h2 vs).bind fun o => .only o ih) (.ok _)

theorem Agrees.range {body : Vars → Comp Out} {bodyM : Vars → Eff Out} (h : ∀ vs, Agrees (body vs) (bodyM vs)) (i v : String) :
    ∀ (l : List (Val × Val)) vs, Agrees (rangeLoop body (l.map fun p => bindings i v p.1 p.2) vs)
      (rangeLoopM bodyM i v (l.map fun p => .pair p.1 p.2) vs) := by
  intro l
  induction l with
  | nil => intro vs; exact .ok _
  | cons p l ih => intro vs; exact (h _).bind fun o => .iterate _ ih

theorem Agrees.rangeOver (v : Val) {k : List (Val × Val) → Comp Out} {l : List Item → Eff Out}
    (h : ∀ x, Agrees (k x) (l (x.map fun p => .pair p.1 p.2))) : Agrees ((GoLang.rangeOver v).bind k) ((rangeOverM v).bind l) := by
  unfold rangeOverM
  split
  · exact .stuck _
  · rw [eff_bind_assoc]
    exact (Agrees.lift _).bind fun x => h x

theorem Agrees.getField (v : Val) (f : Field) : Agrees (GoLang.getField v f) (getFieldM v f) := by
  unfold getFieldM
  split <;> first | exact .lift _ | exact .stuck _

theorem Agrees.index (s i : Val) : Agrees (indexVal s i) (indexM s i) := by
  unfold indexM
  split <;> first | exact .lift _ | exact .stuck _

theorem Agrees.call (c : Ctx) (f : Nat) (fn : Fn) (xs : List Val) (h : fn.plain) : Agrees (GoLang.call c Source.program (f + 1) fn xs) (callMem c (f + 1) fn xs) := by
  have h2 : callMem c (f + 1) fn xs = builtinM (GoLang.call c Source.program (f + 1)) fn xs := by
    have h1 : fn.accesses = false := by cases fn <;> first | rfl | exact absurd h (by decide)
    rw [callMem, if_neg (by simp [h1])]
  rw [h2]
  unfold builtinM
  split <;> first | exact .lift _ | exact .stuck _ | exact absurd h (by decide)
end

section
variable {c : Ctx} {cf : Fn → List Val → Comp Val} {cm : Fn → List Val → Eff Val} {n : Nat}
variable (hc : ∀ fn xs, fn.plain = true → Agrees (cf fn xs) (cm fn xs))
include hc

mutual
theorem Agrees.eval : ∀ (e : Expr) (vs : Vars), e.plain = true → Agrees (GoLang.eval c cf e vs) (evalM c cm e vs)
  | .var _ _, _, _ => .lift _
  | .glob _, _, _ | .intLit _, _, _ | .charLit _, _, _ | .strLit _, _, _ | .boolLit _, _, _ | .nil, _, _ | .zeroResult, _, _ | .runeSelf, _, _
  | .hardcodedPSL, _, _ => .ok _
  | .paren e, vs, h => Agrees.eval e vs h
  | .not e, vs, h => (Agrees.eval e vs h).bind fun _ => .lift _
  | .neg e, vs, h => (Agrees.eval e vs h).bind fun _ => .lift _
  | .field e f, vs, h => (Agrees.eval e vs h).bind fun v => .getField v f
  | .bin op a b, vs, h => by
    simp only [Expr.plain, Bool.and_eq_true] at h
    cases op <;> first
      | exact (Agrees.eval a vs h.1).bind fun x => .cond x (Agrees.eval b vs h.2) (.ok _)
      | exact (Agrees.eval a vs h.1).bind fun x => .cond x (.ok _) (Agrees.eval b vs h.2)
      | exact (Agrees.eval a vs h.1).bind fun x => (Agrees.eval b vs h.2).bind fun y => .lift _
  | .index a b, vs, h => by
    simp only [Expr.plain, Bool.and_eq_true] at h
    exact (Agrees.eval a vs h.1).bind fun x => (Agrees.eval b vs h.2).bind fun y => .index x y
  | .sliceFrom a b, vs, h => by
    simp only [Expr.plain, Bool.and_eq_true] at h
    exact (Agrees.eval a vs h.1).bind fun x => (Agrees.eval b vs h.2).bind fun y => (Agrees.lift _).bind fun z => .lift _
  | .slice a b d, vs, h => by
    simp only [Expr.plain, Bool.and_eq_true] at h
    exact (Agrees.eval a vs h.1.1).bind fun x => (Agrees.eval b vs h.1.2).bind fun y => (Agrees.eval d vs h.2).bind fun z => .lift _
  | .newTrie _, _, h => by simp [Expr.plain] at h
  | .zeroTrie, _, h => by simp [Expr.plain] at h
  | .newFastTLD _ _ _, _, h => by simp [Expr.plain] at h
  | .newOsFs, _, h => by simp [Expr.plain] at h
  | .known _, _, h => by simp [Expr.plain] at h
  | .attributes _, _, h => by simp [Expr.plain] at h
  | .spreadArg _, _, h => by simp [Expr.plain] at h
  | .inPackage _, _, h => by simp [Expr.plain] at h
  | .newListParams _, _, h => by simp [Expr.plain] at h
  | .newParams _ _ _, _, h => by simp [Expr.plain] at h
  | .call f args, vs, h => by
    simp only [Expr.plain, Bool.and_eq_true] at h
    exact (Agrees.evals args vs h.2).bind fun xs => hc f xs h.1

theorem Agrees.evals : ∀ (es : List Expr) (vs : Vars), plains es = true → Agrees (GoLang.evals c cf es vs) (evalsM c cm es vs)
  | [], _, _ => .ok _
  | e :: es, vs, h => by
    simp only [plains, Bool.and_eq_true] at h
    exact (Agrees.eval e vs h.1).bind fun x => (Agrees.evals es vs h.2).bind fun xs => .ok _
end

theorem Agrees.rhs (es : List Expr) (vs : Vars) (h : plains es = true) : Agrees (GoLang.rhs c cf es vs) (rhsM c cm es vs) :=
  (Agrees.evals hc es vs h).bind fun _ => .ok _

omit hc in
theorem store_vars : ∀ (ls : List Lhs) (vs : Vars), ls.all Lhs.isVar = true → ∃ locs, locsOf c cm ls vs = Eff.ok locs ∧
    ∀ xs vs, storeAll locs xs vs = Eff.lift (assignAll ls xs vs) := by
  intro ls
  induction ls with
  | nil => intro vs _; exact ⟨[], rfl, fun xs vs => by cases xs <;> rfl⟩
  | cons l ls ih =>
    intro vs h
    simp only [List.all_cons, Bool.and_eq_true] at h
    obtain ⟨locs, h1, h2⟩ := ih vs h.2
    cases l with
    | blank =>
      refine ⟨.blank :: locs, by simp [h1], fun xs vs => ?_⟩
      cases xs with
      | nil => rfl
      | cons x xs => exact h2 xs vs
    | var p m =>
      refine ⟨.var p :: locs, by simp [h1], fun xs vs => ?_⟩
      cases xs with
      | nil => rfl
      | cons x xs =>
        simp only [storeAll, store1, h2]
        exact (eff_lift_bind _ _).symm
    | field p m f => simp [Lhs.isVar] at h
    | index p m i => simp [Lhs.isVar] at h

theorem Agrees.assign (ls : List Lhs) (es : List Expr) (vs : Vars) (h : lhsPlain ls = true) (h2 : plains es = true) :
    Agrees (exec c cf n (.assign ls es) vs) (execM c cm n (.assign ls es) vs) := by
  have hv : ls.all Lhs.isVar = true → Agrees (exec c cf n (.assign ls es) vs) (execM c cm n (.assign ls es) vs) := by
    intro ha
    obtain ⟨locs, h3, h4⟩ := store_vars (c := c) (cm := cm) ls vs ha
    rw [execM_assign, h3, eff_ok_bind]
    refine (Agrees.rhs hc es vs h2).bind fun xs => ?_
    rw [h4]
    exact (Agrees.lift _).bind fun _ => .ok _
  match ls, h with
  | [.field p m f], _ =>
    simp only [execM_assign, locsOf, locOf]
    have hother : ∀ xs, Agrees ((assignAll [.field p m f] xs vs).bind fun vs => .ok (Out.norm vs)) ((storeAll [.field p f] xs vs).bind fun vs => Eff.ok (.norm vs)) := by
      intro xs
      cases xs with
      | nil => exact .stuck _
      | cons x xs =>
        cases xs with
        | nil =>
          refine Agrees.bind ?_ fun _ => .ok _
          exact (Agrees.lift (assign1 (.field p m f) x vs)).bind fun vs => .ok _
        | cons y ys =>
          refine Agrees.bind ?_ fun _ => .ok _
          exact (Agrees.lift (assign1 (.field p m f) x vs)).bind fun vs => .stuck _
    have hstuck : ∀ v, vs[p]? = some v → (∀ x, setField v f x = .error .stuck) → ∀ xs, ((assignAll [.field p m f] xs vs).bind fun vs => .ok (Out.norm vs)) = .error .stuck := by
      intro v hv hs xs
      cases xs with
      | nil => rfl
      | cons x xs => simp [assignAll, assign1, getVar, hv, hs, Except.bind]
    split
    all_goals simp only [eff_ok_bind]
    all_goals refine (Agrees.rhs hc es vs h2).bind fun xs => ?_
    · next r hr => rw [hstuck _ hr (fun x => by cases f <;> rfl)]; exact .stuck _
    · next hr => rw [hstuck _ hr (fun x => by cases f <;> rfl)]; exact .stuck _
    · next hr => rw [hstuck _ hr (fun x => by cases f <;> rfl)]; exact .stuck _
    · exact hother xs
  | [], _ => exact hv rfl
  | [.blank], _ => exact hv rfl
  | [.var _ _], _ => exact hv rfl
  | [.index _ _ _], h => exact absurd h (by simp [lhsPlain, Lhs.isVar])
  | a :: b :: ls, h => exact hv (by cases a <;> exact h)

theorem Agrees.exec : ∀ (s : Stmt) (vs : Vars), s.plain = true → Agrees (GoLang.exec c cf n s vs) (execM c cm n s vs) := by
  intro s
  induction s with
  | skip => intro vs _; exact .ok _
  | seq a b iha ihb =>
    intro vs h
    simp only [Stmt.plain, Bool.and_eq_true] at h
    exact (iha vs h.1).bind fun o => .andThen o fun vs => ihb vs h.2
  | block s ih => intro vs h; exact (ih vs h).bind fun o => .ok _
  | assign ls es =>
    intro vs h
    simp only [Stmt.plain, Bool.and_eq_true] at h
    exact Agrees.assign hc ls es vs h.1 h.2
  | assignOp op l e => intro vs h; exact (Agrees.lift _).bind fun x => (Agrees.eval hc e vs h).bind fun y => .lift _
  | assignIndexOp op p m i e =>
    intro vs h
    simp only [Stmt.plain, Bool.and_eq_true] at h
    exact (Agrees.lift _).bind fun a => (Agrees.eval hc i vs h.1).bind fun i => (Agrees.lift _).bind fun x => (Agrees.eval hc e vs h.2).bind fun y => .lift _
  | setMethod p m e => intro vs h; exact (Agrees.lift _).bind fun a => (Agrees.eval hc e vs h).bind fun x => .lift _
  | incr p m => intro vs _; exact .lift _
  | define ns es => intro vs h; exact (Agrees.rhs hc es vs h).bind fun xs => .lift _
  | declare ns t => intro vs _; exact .ok _
  | declareGroup l => intro vs _; exact .ok _
  | ite i e a b ihi iha ihb =>
    intro vs h
    simp only [Stmt.plain, Bool.and_eq_true] at h
    exact (ihi vs h.1.1.1).bind fun o => .only o fun vs' => (Agrees.eval hc e vs' h.1.1.2).bind fun x =>
      .cond x ((iha vs' h.1.2).bind fun o => .ok _) ((ihb vs' h.2).bind fun o => .ok _)
  | loop a e b s iha ihb ihs =>
    intro vs h
    simp only [Stmt.plain, Bool.and_eq_true] at h
    exact (iha vs h.1.1.1).bind fun o => .only o fun vs' => Agrees.bind
      (.while (fun vs => Agrees.eval hc e vs h.1.1.2) (fun vs => ihb vs h.1.2) (fun vs => (ihs vs h.2).bind fun o => .ok _) n vs') fun o => .ok _
  | range i v e s ih =>
    intro vs h
    simp only [Stmt.plain, Bool.and_eq_true] at h
    exact (Agrees.eval hc e vs h.1).bind fun x => .rangeOver x fun l => .range (fun vs => ih vs h.2) i v l vs
  | brk => intro vs _; exact .ok _
  | cont => intro vs _; exact .ok _
  | ret es => intro vs h; exact (Agrees.rhs hc es vs h).bind fun xs => .ok _
  | retNamed ps ns => intro vs _; exact .ok _
  | expr e => intro vs h; exact (Agrees.eval hc e vs h).bind fun _ => .ok _
  | scan e k v s _ => intro vs h; exact absurd h (by simp [Stmt.plain])
  | redefine _ _ _ => intro vs h; exact absurd h (by simp [Stmt.plain])
  | «defer» _ _ => intro vs h; exact absurd h (by simp [Stmt.plain])
  | declareInit _ _ => intro vs h; exact absurd h (by simp [Stmt.plain])
  | switch _ _ _ => intro vs h; exact absurd h (by simp [Stmt.plain])
  | case _ _ _ _ _ => intro vs h; exact absurd h (by simp [Stmt.plain])
  | dflt _ _ => intro vs h; exact absurd h (by simp [Stmt.plain])
end

end Fasttld.GoLang
