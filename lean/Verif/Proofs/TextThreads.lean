import Verif.Proofs.SourceMem
import Verif.Proofs.Threads
import Verif.Spec.TextThreads

/-!
# Goroutines that run the text do what those of the model do
-/

namespace Fasttld.GoLang
open Fasttld Spec

variable {isPrint : Nat → Bool} {idna : Idna} {texts : Lib}

/-- What the text of a goroutine comes back with, and what the model says. -/
def Ends (isPrint : Nat → Bool) (v : Comp (Val × Arrays)) : Outcome → Prop
  | .extracted r => Returned isPrint [] v r
  | .updated => ∃ A, v = .ok (.err none, A)

/-- The job of the model. -/
def TextJob.job (idna : Idna) (texts : Lib) : TextJob → Job
  | .extract e => .extract e
  | .update incl path => .update (match listText texts path with
    | .ok text => rulesOf idna incl text
    | .error _ => [])

/-- The same memory, and goroutines that make the same accesses. -/
structure Alike (isPrint : Nat → Bool) (s : TextSys) (t : Sys) : Prop where
  mem : s.mem = t.mem
  len : s.threads.length = t.threads.length
  threads : ∀ (i : Nat) p q, s.threads[i]? = some p → t.threads[i]? = some q → Sim (Ends isPrint) p q

section
variable {α β : Type} {R : α → β → Prop}

theorem Sim.call_left {γ : Type} {o : MOp γ} {k : γ → MProg α} {q : MProg β} (h : Sim R (.call o k) q) :
    ∃ l, q = .call o l ∧ (∀ x m m', o.Does m x m' → Sim R (k x) (l x)) := by
  cases h with
  | call _ h => exact ⟨_, rfl, fun x _ _ _ => h x⟩
  | nil _ l => exact ⟨l, rfl, fun x m m' hd => hd.elim⟩

theorem Sim.ret_left {a : α} {q : MProg β} (h : Sim R (.ret a) q) : ∃ b, q = .ret b ∧ R a b := by
  cases h with
  | ret h => exact ⟨_, rfl, h⟩

theorem Sim.ret_right {b : β} {p : MProg α} (h : Sim R p (.ret b)) : ∃ a, p = .ret a ∧ R a b := by
  cases h with
  | ret h => exact ⟨_, rfl, h⟩
end

/-! ## What Extract reads -/

section
variable {α β : Type}

theorem OnlyReads.bind {p : MProg α} {f : α → MProg β} (h : OnlyReads p) (hf : ∀ a, OnlyReads (f a)) : OnlyReads (p.bind f) := by
  induction h with
  | ret a => exact hf a
  | call o ho _ ih => exact .call o ho ih

theorem Sim.onlyReads {R : α → β → Prop} {p : MProg α} {q : MProg β} (h : Sim R p q) (hq : OnlyReads q) : OnlyReads p := by
  induction h with
  | ret _ => exact .ret _
  | call o _ ih =>
    cases hq with
    | call _ ho h => exact .call o ho fun x => ih x (h x)
  | nil =>
    cases hq with
    | call _ ho h => cases ho

theorem Sim.loadsOnce {R : α → β → Prop} {p : MProg α} {q : MProg β} (h : Sim R p q) (hq : LoadsOnce q) : LoadsOnce p := by
  cases hq with
  | ret b => obtain ⟨a, rfl, -⟩ : ∃ a, p = .ret a ∧ R a b := by { cases h with | ret h => exact ⟨_, rfl, h⟩ }; exact .ret a
  | load hq =>
    obtain ⟨l, rfl, h'⟩ := h.symm.call_left
    exact .load fun r => (h' r ⟨fun _ => none, r⟩ _ ⟨rfl, rfl⟩).symm.onlyReads (hq r)

theorem endH_onlyReads (val : Ref) (w : Walk) : OnlyReads (endH val w) := by
  unfold endH
  split
  · exact .call _ rfl fun x => .ret _
  · exact .ret _

theorem walkLabelH_onlyReads (netloc : Bytes) (node : Ref) (label : Bytes) (isLast : Bool) (w : Walk)
    {c : Ref → Walk → MProg (M Walk)} (hc : ∀ y w, OnlyReads (c y w)) : OnlyReads (walkLabelH netloc node label isLast w c) := by
  refine .call _ rfl fun x => ?_
  cases x with
  | some _ =>
    refine .call _ rfl fun x => ?_
    cases x <;> exact .ret _
  | none =>
    refine .call _ rfl fun x => ?_
    cases x with
    | none => exact .ret _
    | some val =>
      refine (endH_onlyReads val _).bind fun w => ?_
      refine .call _ rfl fun n => ?_
      change OnlyReads (if n = 0 then _ else if isLast = true then _ else _)
      split
      · exact .ret _
      · split
        · exact .ret _
        · exact hc _ _

theorem walkLoopH_onlyReads (netloc : Bytes) (u : ExtractResult) (fuel : Nat) (node : Ref) (hasLabels : Bool) (w : Walk) :
    OnlyReads (walkLoopH netloc u fuel node hasLabels w) := by
  induction fuel generalizing node hasLabels w with
  | zero => exact .ret _
  | succ fuel ih =>
    unfold walkLoopH
    cases walkHead netloc u hasLabels w with
    | error s => exact .ret _
    | ok h =>
      cases h with
      | skip w => exact ih _ _ _
      | label l last w =>
        cases last with
        | false => exact walkLabelH_onlyReads _ _ _ _ _ fun y w => ih y true w
        | true => exact walkLabelH_onlyReads _ _ _ _ _ fun y w => .ret _

theorem extractH_loadsOnce (idna : Idna) (e : URLParams) : LoadsOnce (extractH idna e) := by
  unfold extractH
  cases beforeHost idna e with
  | error s => exact .ret _
  | ok b =>
    cases b with
    | inl r => exact .ret _
    | inr nu => exact .load fun r => (walkLoopH_onlyReads _ _ _ _ _ _).bind fun a => .ret _
end

theorem Alike.other {s : TextSys} {t : Sys} (h : Alike isPrint s t) {i : Nat} {p} (hp : s.threads[i]? = some p) :
    ∃ q, t.threads[i]? = some q ∧ Sim (Ends isPrint) p q := by
  have hi := (List.getElem?_eq_some_iff.1 hp).1
  rw [h.len] at hi
  exact ⟨_, List.getElem?_eq_getElem hi, h.threads i _ _ hp (List.getElem?_eq_getElem hi)⟩

theorem Alike.back {s : TextSys} {t : Sys} (h : Alike isPrint s t) {i : Nat} {q} (hq : t.threads[i]? = some q) :
    ∃ p, s.threads[i]? = some p ∧ Sim (Ends isPrint) p q := by
  have hi := (List.getElem?_eq_some_iff.1 hq).1
  rw [← h.len] at hi
  exact ⟨_, List.getElem?_eq_getElem hi, h.threads i _ _ (List.getElem?_eq_getElem hi) hq⟩

theorem Alike.set {s : TextSys} {t : Sys} (h : Alike isPrint s t) {i : Nat} {m : Mem} {p q} (hpq : Sim (Ends isPrint) p q) :
    Alike isPrint ⟨m, s.threads.set i p⟩ ⟨m, t.threads.set i q⟩ := by
  refine ⟨rfl, by simp [h.len], fun j p' q' hp hq => ?_⟩
  dsimp only at hp hq
  by_cases hij : i = j
  · subst hij
    have h1 := (List.getElem?_eq_some_iff.1 hp).1
    have h2 := (List.getElem?_eq_some_iff.1 hq).1
    simp only [List.length_set] at h1 h2
    rw [List.getElem?_set_self h1] at hp
    rw [List.getElem?_set_self h2] at hq
    cases hp; cases hq; exact hpq
  · rw [List.getElem?_set_ne hij] at hp hq
    exact h.threads j _ _ hp hq

theorem Alike.step {s s' : TextSys} {t : Sys} (h : Alike isPrint s t) {i : Nat} (hs : TextStep i s s') :
    ∃ t', Step i t t' ∧ Alike isPrint s' t' := by
  cases hs with
  | mk hi hd =>
    obtain ⟨q, hq, hsim⟩ := h.other hi
    obtain ⟨l, rfl, hl⟩ := hsim.call_left
    have hd' := hd
    rw [h.mem] at hd'
    exact ⟨_, .mk hq hd', h.set (hl _ _ _ hd)⟩

theorem Alike.steps {s s' : TextSys} {t : Sys} (h : Alike isPrint s t) (hs : TextSteps s s') :
    ∃ t', Steps t t' ∧ Alike isPrint s' t' := by
  induction hs with
  | refl => exact ⟨t, .refl _, h⟩
  | tail _ h' ih =>
    obtain ⟨t1, h1, h2⟩ := ih
    obtain ⟨t2, h3, h4⟩ := h2.step h'
    exact ⟨t2, .tail h1 h3, h4⟩

theorem Alike.stepBack {s : TextSys} {t t' : Sys} (h : Alike isPrint s t) {i : Nat} (hs : Step i t t') :
    ∃ s', TextStep i s s' ∧ Alike isPrint s' t' := by
  cases hs with
  | mk hi hd =>
    obtain ⟨p, hp, hsim⟩ := h.back hi
    obtain ⟨l, rfl, hl⟩ := hsim.symm.call_left
    have hd' := hd
    rw [← h.mem] at hd'
    exact ⟨_, .mk hp hd', h.set (hl _ _ _ hd).symm⟩

theorem Alike.stepsBack {s : TextSys} {t t' : Sys} (h : Alike isPrint s t) (hs : Steps t t') :
    ∃ s', TextSteps s s' ∧ Alike isPrint s' t' := by
  induction hs with
  | refl => exact ⟨s, .refl _, h⟩
  | tail _ h' ih =>
    obtain ⟨t1, h1, h2⟩ := ih
    obtain ⟨t2, h3, h4⟩ := h2.stepBack h'
    exact ⟨t2, .tail h1 h3, h4⟩

theorem TextSteps.trans {a b c : TextSys} (h : TextSteps a b) (h' : TextSteps b c) : TextSteps a c := by
  induction h' with
  | refl => exact h
  | tail _ hs ih => exact .tail ih hs

theorem TextSteps.first {s s' : TextSys} (h : TextSteps s s') {i : Nat} {p} (hp : s.threads[i]? = some p) :
    s'.threads[i]? = some p ∨ ∃ a b, TextSteps s a ∧ TextStep i a b ∧ TextSteps b s' ∧ a.threads[i]? = some p := by
  induction h with
  | refl => exact .inl hp
  | @tail s1 s2 j h1 h2 ih =>
    rcases ih with ih | ⟨a, b, h3, h4, h5, h6⟩
    · by_cases hij : j = i
      · subst hij; exact .inr ⟨s1, s2, h1, h2, .refl _, ih⟩
      · cases h2 with
        | mk hj hd =>
          refine .inl ?_
          dsimp only
          rw [List.getElem?_set_ne hij]; exact ih
    · exact .inr ⟨a, b, h3, h4, .tail h5 h2, h6⟩

theorem TextSteps.length {s s' : TextSys} (h : TextSteps s s') : s.threads.length = s'.threads.length := by
  induction h with
  | refl => rfl
  | tail _ hs ih => cases hs; simpa using ih

/-- All goroutines of the text at their start, and those of the model. -/
theorem TextStart.alike {c : Ctx} {fuel : Nat} {jobs : List TextJob} {rules0 : List Bytes} {s : TextSys} (h : TextStart c fuel jobs rules0 s)
    (hp : ∀ j ∈ jobs, Sim (Ends isPrint) (j.prog c fuel) ((j.job idna texts).prog idna)) :
    ∃ t, Start idna (jobs.map (TextJob.job idna texts)) rules0 t ∧ Alike isPrint s t := by
  refine ⟨⟨s.mem, (jobs.map (TextJob.job idna texts)).map (Job.prog idna)⟩, ⟨h.root, h.finite, rfl⟩, rfl, by simp [h.threads], fun i p q h1 h2 => ?_⟩
  rw [h.threads, List.getElem?_map] at h1
  simp only [List.getElem?_map] at h2
  cases hj : jobs[i]? with
  | none => rw [hj] at h1; cases h1
  | some j =>
    rw [hj] at h1 h2
    cases h1; cases h2
    exact hp j (List.mem_of_getElem? hj)

/-- An Update of the model that is done is one of the text. -/
theorem Alike.installed {s : TextSys} {t : Sys} (h : Alike isPrint s t) {jobs : List TextJob} {rules0 rules : List Bytes}
    (hf : ∀ incl path, .update incl path ∈ jobs → ∃ text, listText texts path = .ok text)
    (hi : Installed (jobs.map (TextJob.job idna texts)) rules0 t rules) :
    rules = rules0 ∨ ∃ j, s.Updated idna texts jobs j rules := by
  rcases hi with hi | ⟨j, h1, h2⟩
  · exact .inl hi
  · obtain ⟨p, hp, hsim⟩ := h.back h2
    obtain ⟨v, rfl, A, rfl⟩ := hsim.ret_right
    rw [List.getElem?_map] at h1
    cases hj : jobs[j]? with
    | none => rw [hj] at h1; cases h1
    | some job =>
      rw [hj] at h1
      cases job with
      | extract e => cases h1
      | update incl path =>
        obtain ⟨text, ht⟩ := hf incl path (List.mem_of_getElem? hj)
        simp only [Option.map_some, TextJob.job, ht, Option.some.injEq, Job.update.injEq] at h1
        exact .inr ⟨j, incl, path, text, A, hj, ht, h1.symm, hp⟩

section
variable {c : Ctx} {fuel : Nat} {jobs : List TextJob} {rules0 : List Bytes} {s0 s1 s2 s : TextSys}
  (h0 : TextStart c fuel jobs rules0 s0) (hp : ∀ j ∈ jobs, Sim (Ends isPrint) (j.prog c fuel) ((j.job idna texts).prog idna))
  (hf : ∀ incl path, TextJob.update incl path ∈ jobs → ∃ text, listText texts path = .ok text)
include h0 hp hf

theorem text_always (h : TextSteps s0 s) : ∃ rules, Holds s.mem.nodes s.mem.root rules ∧ (rules = rules0 ∨ ∃ j, s.Updated idna texts jobs j rules) := by
  obtain ⟨t0, ht0, ha0⟩ := h0.alike hp
  obtain ⟨t, ht, ha⟩ := ha0.steps h
  obtain ⟨F, Os, -, hi⟩ := ht0.inv.steps ht
  obtain ⟨rules, h1, h2⟩ := hi.root
  refine ⟨rules, ?_, ha.installed hf h2⟩
  rw [ha.mem]
  exact h1.sub hi.subF

theorem text_one_list (h1 : TextSteps s0 s1) (h2 : TextSteps s1 s2) {i : Nat} {e : URLParams} (hj : jobs[i]? = some (.extract e))
    (hb : s1.threads[i]? = some ((TextJob.extract e).prog c fuel)) {v : Comp (Val × Arrays)} (hd : s2.threads[i]? = some (.ret v)) :
    ∃ s rules, TextSteps s1 s ∧ TextSteps s s2 ∧ Holds s.mem.nodes s.mem.root rules ∧
      (rules = rules0 ∨ ∃ j, s.Updated idna texts jobs j rules) ∧ Returned isPrint [] v (extract idna (buildTrie rules) e) := by
  obtain ⟨t0, ht0, ha0⟩ := h0.alike hp
  obtain ⟨t1, ht1, ha1⟩ := ha0.steps h1
  have hprog := hp _ (List.mem_of_getElem? hj)
  change Sim _ _ ((Job.extract e).prog idna) at hprog
  have hj' : (jobs.map (TextJob.job idna texts))[i]? = some (.extract e) := by rw [List.getElem?_map, hj]; rfl
  rcases h2.first hb with hsame | ⟨a, b, ha, hstep, hb2, hat⟩
  · rw [hd] at hsame
    rw [← Option.some.inj hsame] at hprog
    obtain ⟨out, ho, hend⟩ := hprog.ret_left
    rcases job_cases idna e with ⟨r, hv1, hv2⟩ | ⟨k, hk1, -⟩
    · rw [hv1] at ho
      cases ho
      obtain ⟨rules, hr, hin⟩ := text_always h0 hp hf h1
      exact ⟨s1, rules, .refl _, h2, hr, hin, by rw [hv2]; exact hend⟩
    · rw [hk1] at ho; cases ho
  · obtain ⟨ta, hta, haa⟩ := ha1.steps ha
    obtain ⟨tb, htb, hab⟩ := haa.step hstep
    obtain ⟨t2, ht2, ha2⟩ := hab.steps hb2
    obtain ⟨Fa, Osa, -, hia⟩ := ht0.inv.steps (ht1.trans hta)
    -- the goroutine of the model has not begun either
    have hstart : ta.threads[i]? = some ((Job.extract e).prog idna) := by
      obtain ⟨q, hq, hsim⟩ := haa.other hat
      have hcall : ∃ (k : Ref → _), (TextJob.extract e).prog c fuel = .call .loadRoot k := by
        rcases job_cases idna e with ⟨r, hv1, -⟩ | ⟨k, hk1, -⟩
        · rw [hv1] at hprog
          obtain ⟨x, hx, -⟩ := hprog.ret_right
          rw [hx] at hat
          cases hstep with
          | mk hi _ => rw [hat] at hi; cases hi
        · rw [hk1] at hprog
          obtain ⟨l, hl, -⟩ := hprog.symm.call_left
          exact ⟨l, hl⟩
      obtain ⟨k, hk⟩ := hcall
      rw [hk] at hsim
      obtain ⟨l, rfl, -⟩ := hsim.call_left
      rcases hia.threads i _ _ hj' hq with ⟨-, hq'⟩ | ⟨v, hv, -⟩
      · rw [hq, hq']
      · exact hv.elim
    obtain ⟨Fb, Osb, -, -, hgoal⟩ := hia.step htb
    obtain ⟨rules, hr, hin, hib⟩ := hgoal e hj' hstart rfl
    obtain ⟨F2, Os2, -, hi2⟩ := hib.steps ht2
    refine ⟨a, rules, ha, TextSteps.trans (.tail (.refl _) hstep) hb2, ?_, haa.installed hf hin, ?_⟩
    · rw [haa.mem]; exact hr
    · obtain ⟨q, hq, hsim⟩ := ha2.other hd
      obtain ⟨out, rfl, hend⟩ := hsim.ret_left
      rcases hi2.threads i _ _ hj' hq with ⟨hg, -⟩ | ⟨v, hv, hg⟩
      · simp [setGoal] at hg
      · have hv' : out = v := hv
        have hg' := hg _ (by simp [setGoal]; rfl)
        subst hv' hg'
        exact hend

omit hf in
theorem text_next (h : TextSteps s0 s) {i : Nat} {p} (hi : s.threads[i]? = some p) :
    (∃ v, p = .ret v ∧ ∀ incl path, jobs[i]? = some (.update incl path) → ∃ A, v = .ok (.err none, A)) ∨ ∃ s', TextStep i s s' := by
  obtain ⟨t0, ht0, ha0⟩ := h0.alike hp
  obtain ⟨t, ht, ha⟩ := ha0.steps h
  obtain ⟨q, hq, hsim⟩ := ha.other hi
  obtain ⟨F, Os, -, hi'⟩ := ht0.inv.steps ht
  cases p with
  | ret v =>
    obtain ⟨out, rfl, hend⟩ := hsim.ret_left
    refine .inl ⟨v, rfl, fun incl path hj => ?_⟩
    have hj' : (jobs.map (TextJob.job idna texts))[i]? = some ((TextJob.update incl path).job idna texts) := by rw [List.getElem?_map, hj]; rfl
    rcases hi'.threads i _ _ hj' hq with h | h
    · cases h; exact hend
    · exact h.elim
  | call o k =>
    obtain ⟨l, rfl, -⟩ := hsim.call_left
    obtain ⟨b, m', hd⟩ := hi'.can hq
    obtain ⟨s', h1, -⟩ := ha.stepBack (.mk hq hd)
    exact .inr ⟨s', h1⟩
end

end Fasttld.GoLang
