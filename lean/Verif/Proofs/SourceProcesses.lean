import Verif.Model.GoShared
import Verif.Proofs.Log
import Verif.Proofs.Torn
import Verif.Proofs.SourceSysImpl
import Mathlib.Data.List.Forall2

/-!
# Processes that run the text, against those of the model
-/

namespace Fasttld.GoLang
open Fasttld Shared

section
variable {α β γ : Type}

/-- From memory `m` on, `p` makes the calls of `q`, with accesses to memory and effects between them; no access goes wrong. -/
inductive Acts (fits : Event → Prop) (R : Mem → α → γ → Prop) : Mem → XProg α → Prog γ → Prop
  | ret {m : Mem} {a : α} {c : γ} (h : R m a c) : Acts fits R m (.ret a) (.ret c)
  | sys {m : Mem} {δ : Type} {o : Op δ} {k : δ → Bytes → XProg α} {q : δ → Prog γ}
      (h : ∀ b t, fits (o.event b) → Acts fits R m (k b t) (q b)) : Acts fits R m (.sys o k) (.call o q)
  | effect {m : Mem} {e : Effect} {k : XProg α} {q : Prog γ} (h : Acts fits R m k q) : Acts fits R m (.effect e k) q
  | mem {m : Mem} {δ : Type} {o : MOp δ} {k : δ → XProg α} {q : Prog γ} (can : Free m → ∃ b m', o.Does m b m')
      (h : ∀ b m', o.Does m b m' → Acts fits R m' (k b) q) : Acts fits R m (.mem o k) q

theorem acts_of {ok : LEvent → Prop} {fits : Event → Prop} (hok : ∀ e t, fits e → ok (.sys e t)) {R : Mem → α → β → Prop} {f : β → γ}
    {m : Mem} {p : XProg α} {l : LProg β} {q : Prog γ} (h : Impl ok R m p l) (hf : Forgets f l q) :
    Acts fits (fun m a c => ∃ b, R m a b ∧ f b = c) m p q := by
  induction h generalizing q with
  | ret h => cases hf; exact .ret ⟨_, h, rfl⟩
  | sys _ ih =>
    cases hf with
    | call o hk => exact .sys fun b t hb => ih b t (hok _ _ hb) (hk b t)
  | effect _ ih =>
    cases hf with
    | effect e hk => exact .effect (ih hk)
  | mem can _ ih => exact .mem can fun b m' hd => ih b m' hd hf

theorem Acts.mono {fits : Event → Prop} {R S : Mem → α → γ → Prop} (hRS : ∀ m a c, R m a c → S m a c) {m : Mem} {p : XProg α} {q : Prog γ}
    (h : Acts fits R m p q) : Acts fits S m p q := by
  induction h with
  | ret h => exact .ret (hRS _ _ _ h)
  | sys _ ih => exact .sys ih
  | effect _ ih => exact .effect ih
  | mem can _ ih => exact .mem can ih

variable {fits : Event → Prop} {R : Mem → α → γ → Prop}

/-- Interrupted. -/
theorem Acts.crash {m : Mem} {p : XProg α} {q : Prog γ} (h : Acts fits R m p q) {w w' : World} (hc : ProcCrash fits p m w w') : Crash q w w' := by
  induction h generalizing w with
  | ret h => cases hc; exact .here _ _
  | sys _ ih =>
    cases hc with
    | here => exact .here _ _
    | sys t hf hc => exact .step (ih _ t hf hc)
    | torn h => exact .torn h
  | effect _ ih =>
    cases hc with
    | here => exact .here _ _
    | effect hc => exact ih hc
  | mem can _ ih =>
    cases hc with
    | here => exact .here _ _
    | mem hd hc => exact ih _ _ hd hc

/-- Not interrupted. -/
theorem Acts.exec {m : Mem} {p : XProg α} {q : Prog γ} (h : Acts fits R m p q) {w w' : World} {a : α} {m' : Mem}
    (he : ProcExec fits p m w a m' w') : R m' a (q.exec w).1 ∧ w' = (q.exec w).2.1 := by
  induction h generalizing w with
  | ret h => cases he; exact ⟨h, rfl⟩
  | sys _ ih =>
    cases he with
    | sys t hf he => exact ih _ t hf he
  | effect _ ih =>
    cases he with
    | effect he => exact ih he
  | mem can _ ih =>
    cases he with
    | mem hd he => exact ih _ _ hd he

/-- And this is possible. -/
theorem Acts.exec_exists {m : Mem} {p : XProg α} {q : Prog γ} (h : Acts fits R m p q) (hm : Free m) (w : World)
    (hev : ∀ e ∈ (q.exec w).2.2, fits e) : ∃ a m', ProcExec fits p m w a m' (q.exec w).2.1 := by
  induction h generalizing w with
  | ret h => exact ⟨_, _, .ret _ _ _⟩
  | @sys m δ o k q' _ ih =>
    obtain ⟨a, m', h1⟩ := ih (o.answer w).1 [] (hev _ (by simp [Prog.exec])) hm (o.answer w).2 fun e he => hev e (by simp [Prog.exec, he])
    exact ⟨a, m', .sys [] (hev _ (by simp [Prog.exec])) h1⟩
  | effect _ ih =>
    obtain ⟨a, m', h1⟩ := ih hm w hev
    exact ⟨a, m', .effect h1⟩
  | mem can _ ih =>
    obtain ⟨b, m1, hd⟩ := can hm
    obtain ⟨a, m', h1⟩ := ih b m1 hd (does_free hd hm) w hev
    exact ⟨a, m', .mem hd h1⟩

/-- The text can be interrupted wherever the model can. -/
theorem Acts.crashAt {m : Mem} {p : XProg α} {q : Prog γ} (h : Acts fits R m p q) (hm : Free m) (n j : Nat) (w : World)
    (hev : ∀ e ∈ (q.exec w).2.2, fits e) : ProcCrash fits p m w (q.crashAt n j w) := by
  induction h generalizing n w with
  | ret h => exact .here _ _ _
  | @sys m δ o k q' _ ih =>
    cases n with
    | zero =>
      cases o with
      | write h body => exact .torn ⟨j, rfl⟩
      | _ => exact .here _ _ _
    | succ n =>
      refine .sys [] (hev _ (by simp [Prog.exec])) (ih _ [] (hev _ (by simp [Prog.exec])) hm n _ fun e he => hev e ?_)
      simp [Prog.exec, he]
  | effect _ ih => exact .effect (ih hm n w hev)
  | mem can _ ih =>
    obtain ⟨b, m', hd⟩ := can hm
    exact .mem hd (ih b m' hd (does_free hd hm) n w hev)

end

/-! ## Processes -/

section
variable {round : Rat → Rat} {c : Ctx} {fuel : Nat} {begins : Shared.Job → ProcText → Mem → Prop} {fits : Event → Prop} {other : World → World → Prop}
  {idna : Idna} {hard : Bytes} {ends : ProcText → Mem → Mem → Comp (Val × Local) → FastTLD × Option SysErr → Prop}

/-- A process that runs the text does what one of the model does. -/
structure SameProcess (fits : Event → Prop) (ends : ProcText → Mem → Mem → Comp (Val × Local) → FastTLD × Option SysErr → Prop)
    (t : Proc) (p : Shared.Process) : Prop where
  job : t.job = p.job
  offset : t.offset = p.offset
  free : Free t.mem
  acts : Acts fits (ends t.text t.begin) t.mem t.prog p.prog

theorem forall₂_mid {A B : Type _} {R : A → B → Prop} {x : A} {b : List A} : ∀ {a : List A} {l : List B}, List.Forall₂ R (a ++ x :: b) l →
    ∃ a' y b', l = a' ++ y :: b' ∧ List.Forall₂ R a a' ∧ R x y ∧ List.Forall₂ R b b'
  | [], _, .cons h t => ⟨[], _, _, rfl, .nil, h, t⟩
  | _ :: a, _, .cons h t => by
    obtain ⟨a', y, b', rfl, h1, h2, h3⟩ := forall₂_mid t
    exact ⟨_ :: a', y, b', rfl, .cons h h1, h2, h3⟩

theorem forall₂_join {A B : Type _} {R : A → B → Prop} {a b : List A} {a' b' : List B} (h : List.Forall₂ R a a') (h' : List.Forall₂ R b b') :
    List.Forall₂ R (a ++ b) (a' ++ b') := by
  induction h with
  | nil => exact h'
  | cons h _ ih => exact .cons h ih

/-- A step of the text is a step of the model, or none. -/
theorem procStep_same (hstart : ∀ job text m, begins job text m → Free m ∧ Acts fits (ends text m) m (text.prog round c fuel) (job.prog idna hard))
    (hwrite : ∀ h body b, fits (.write h body b)) {w w' : World} {ts ts' : List Proc} {ps : List Shared.Process}
    (h : ProcStep round c fuel begins fits other (w, ts) (w', ts')) (hs : List.Forall₂ (SameProcess fits ends) ts ps) :
    ∃ ps', (Shared.Step idna hard other (w, ps) (w', ps') ∨ (w', ps') = (w, ps)) ∧ List.Forall₂ (SameProcess fits ends) ts' ps' := by
  generalize hx : (w, ts) = s at h
  generalize hy : (w', ts') = s' at h
  cases h with
  | start job text m h =>
    cases hx; cases hy
    obtain ⟨h1, h2⟩ := hstart _ _ _ h
    exact ⟨_, .inl (.start job), forall₂_join hs (.cons ⟨rfl, rfl, h1, h2⟩ .nil)⟩
  | call t h hf =>
    cases hx; cases hy
    obtain ⟨a', ⟨job', prog, off⟩, b', rfl, ha, ⟨rfl, rfl, hfree, hacts⟩, hb⟩ := forall₂_mid hs
    dsimp only at hfree hacts h ⊢
    cases hacts with
    | sys hk => exact ⟨_, .inl (.call h), forall₂_join ha (.cons ⟨rfl, rfl, hfree, hk _ t hf⟩ hb)⟩
  | piece n h =>
    cases hx; cases hy
    obtain ⟨a', ⟨job', prog, off⟩, b', rfl, ha, ⟨rfl, rfl, hfree, hacts⟩, hb⟩ := forall₂_mid hs
    dsimp only at hfree hacts h ⊢
    cases hacts with
    | sys hk => exact ⟨_, .inl (.piece n h), forall₂_join ha (.cons ⟨rfl, rfl, hfree, .sys fun b t _ => hk b t (hwrite _ _ _)⟩ hb)⟩
  | mem h =>
    cases hx; cases hy
    obtain ⟨a', ⟨job', prog, off⟩, b', rfl, ha, ⟨rfl, rfl, hfree, hacts⟩, hb⟩ := forall₂_mid hs
    dsimp only at hfree hacts h ⊢
    cases hacts with
    | mem _ hk => exact ⟨_, .inr rfl, forall₂_join ha (.cons ⟨rfl, rfl, does_free h hfree, hk _ _ h⟩ hb)⟩
  | effect =>
    cases hx; cases hy
    obtain ⟨a', ⟨job', prog, off⟩, b', rfl, ha, ⟨rfl, rfl, hfree, hacts⟩, hb⟩ := forall₂_mid hs
    dsimp only at hfree hacts ⊢
    cases hacts with
    | effect hk => exact ⟨_, .inr rfl, forall₂_join ha (.cons ⟨rfl, rfl, hfree, hk⟩ hb)⟩
  | die =>
    cases hx; cases hy
    obtain ⟨a', y, b', rfl, ha, -, hb⟩ := forall₂_mid hs
    exact ⟨_, .inl .die, forall₂_join ha hb⟩
  | other h =>
    cases hx; cases hy
    exact ⟨_, .inl (.other h), hs⟩

theorem procSteps_same (hstart : ∀ job text m, begins job text m → Free m ∧ Acts fits (ends text m) m (text.prog round c fuel) (job.prog idna hard))
    (hwrite : ∀ h body b, fits (.write h body b)) {s s' : World × List Proc} {ps : List Shared.Process}
    (h : ProcSteps round c fuel begins fits other s s') (hs : List.Forall₂ (SameProcess fits ends) s.2 ps) :
    ∃ ps', Shared.Steps idna hard other (s.1, ps) (s'.1, ps') ∧ List.Forall₂ (SameProcess fits ends) s'.2 ps' := by
  induction h with
  | refl => exact ⟨ps, .refl _, hs⟩
  | step _ h' ih =>
    obtain ⟨ps1, h1, h2⟩ := ih
    obtain ⟨ps2, h3 | h3, h4⟩ := procStep_same hstart hwrite h' h2
    · exact ⟨ps2, .step h1 h3, h4⟩
    · obtain ⟨h5, rfl⟩ := Prod.mk.inj h3
      exact ⟨_, by rw [h5]; exact h1, h4⟩

theorem ProcSteps.trans {s t u} (h : ProcSteps round c fuel begins fits other s t) (h' : ProcSteps round c fuel begins fits other t u) :
    ProcSteps round c fuel begins fits other s u := by
  induction h' with
  | refl => exact h
  | step _ h2 ih => exact .step ih h2

/-- Up to its next call, a process can go on without the others. -/
theorem acts_toCall {δ : Type} {R : Mem → Comp (Val × Local) → FastTLD × Option SysErr → Prop} {o : Op δ} {q : δ → Prog (FastTLD × Option SysErr)}
    {m : Mem} {p : XProg (Comp (Val × Local))} {r : Prog (FastTLD × Option SysErr)} (h : Acts fits R m p r) (hr : r = .call o q) (hm : Free m)
    (w : World) (a b : List Proc) (job : Shared.Job) (text : ProcText) (m₀ : Mem) (off : Nat) :
    ∃ k m', ProcSteps round c fuel begins fits other (w, a ++ ⟨job, text, m₀, p, m, off⟩ :: b) (w, a ++ ⟨job, text, m₀, .sys o k, m', off⟩ :: b) ∧
      Free m' ∧ ∀ b t, fits (o.event b) → Acts fits R m' (k b t) (q b) := by
  induction h with
  | ret h => cases hr
  | sys h => cases hr; exact ⟨_, _, .refl _, hm, h⟩
  | effect _ ih =>
    obtain ⟨k, m', h1, h2⟩ := ih hr hm
    exact ⟨k, m', .trans (.step (.refl _) .effect) h1, h2⟩
  | mem can _ ih =>
    obtain ⟨x, m1, hd⟩ := can hm
    obtain ⟨k, m', h1, h2⟩ := ih x m1 hd hr (does_free hd hm)
    exact ⟨k, m', .trans (.step (.refl _) (.mem hd)) h1, h2⟩

/-- And to its end. -/
theorem acts_toEnd {R : Mem → Comp (Val × Local) → FastTLD × Option SysErr → Prop} {x : FastTLD × Option SysErr}
    {m : Mem} {p : XProg (Comp (Val × Local))} {r : Prog (FastTLD × Option SysErr)} (h : Acts fits R m p r) (hr : r = .ret x) (hm : Free m)
    (w : World) (a b : List Proc) (job : Shared.Job) (text : ProcText) (m₀ : Mem) (off : Nat) :
    ∃ v m', ProcSteps round c fuel begins fits other (w, a ++ ⟨job, text, m₀, p, m, off⟩ :: b) (w, a ++ ⟨job, text, m₀, .ret v, m', off⟩ :: b) ∧
      Free m' ∧ R m' v x := by
  induction h with
  | ret h => cases hr; exact ⟨_, _, .refl _, hm, h⟩
  | sys h => cases hr
  | effect _ ih =>
    obtain ⟨k, m', h1, h2⟩ := ih hr hm
    exact ⟨k, m', .trans (.step (.refl _) .effect) h1, h2⟩
  | mem can _ ih =>
    obtain ⟨x, m1, hd⟩ := can hm
    obtain ⟨k, m', h1, h2⟩ := ih x m1 hd hr (does_free hd hm)
    exact ⟨k, m', .trans (.step (.refl _) (.mem hd)) h1, h2⟩

end

end Fasttld.GoLang
