import Verif.Proofs.Views
import Verif.Props.Memory

/-!
# C69: it is enough that the pointer to the trie synchronises
-/

set_option linter.unusedSimpArgs false

namespace Fasttld.Props
open Fasttld Fasttld.Spec

/-- All values in memory are the first ones. -/
def asVMem (m : Mem) : VMem where
  nodes x := (m.nodes x).toList
  root := [(m.root, fun x => (m.nodes x).toList.length)]

theorem asVMem_latest (m : Mem) : (asVMem m).latest = m.nodes := by
  funext x
  simp only [VMem.latest, asVMem]
  cases m.nodes x <;> rfl

theorem asVMem_start (idna : Idna) (jobs : List Job) {rules0 : List Bytes} {m : Mem} (h1 : Holds m.nodes m.root rules0)
    (h2 : ∃ N, ∀ r, N ≤ r → m.nodes r = none) :
    VStart idna jobs rules0 ⟨asVMem m, jobs.map (Job.prog idna), fun _ _ => 0⟩ := by
  refine ⟨⟨m.root, rfl, by rw [asVMem_latest]; exact h1⟩, ?_, rfl, rfl⟩
  obtain ⟨N, hN⟩ := h2
  exact ⟨N, fun x hx => by simp [asVMem, hN x hx]⟩

/-- C69: there is a start for every list and all jobs. -/
theorem C69_start (idna : Idna) (jobs : List Job) (rules0 : List Bytes) : ∃ s, VStart idna jobs rules0 s := by
  obtain ⟨m, h1, h2⟩ := C51_memory rules0
  exact ⟨_, asVMem_start idna jobs h1 h2⟩

/-- Who is done stays done. -/
theorem done_staysV {a : Bool} {x s : VSys} (h : VSteps a x s) {j : Nat} {o : Outcome} (hj : x.threads[j]? = some (.ret o)) :
    s.threads[j]? = some (.ret o) := by
  rcases h.first hj with h | ⟨x', y, -, hs, -, h⟩
  · exact h
  · cases hs with
    | mk hi hd => rw [h] at hi; cases hi

/-- C69: an Extract returns the result for one list, which was there at the start or was installed by an Update before the
Extract was done.  The pointer may be an old one; what is behind it is complete. -/
theorem C69_one_list {a : Bool} {idna : Idna} {jobs : List Job} {rules0 : List Bytes} {s0 s : VSys}
    (h0 : VStart idna jobs rules0 s0) (h : VSteps a s0 s) {i : Nat} {e : URLParams}
    (hj : jobs[i]? = some (.extract e)) {out : Outcome} (hd : s.threads[i]? = some (.ret out)) :
    ∃ rules, (rules = rules0 ∨ ∃ j : Nat, jobs[j]? = some (.update rules) ∧ s.threads[j]? = some (.ret .updated)) ∧
      out = .extracted (extract idna (buildTrie rules) e) := by
  have hb : s0.threads[i]? = some ((Job.extract e).prog idna) := by rw [h0.threads, List.getElem?_map, hj]; rfl
  rcases h.first hb with hsame | ⟨x, y, hx, hstep, hy, hat⟩
  · rw [hd] at hsame
    rcases job_cases idna e with ⟨v, hv1, hv2⟩ | ⟨k, hk1, -⟩
    · rw [hv1] at hsame
      cases hsame
      exact ⟨rules0, .inl rfl, by rw [hv2]⟩
    · rw [hk1] at hsame; cases hsame
  · obtain ⟨⟨Fx, Osx, hix⟩, -⟩ := h0.inv.steps hx
    obtain ⟨Fy, Osy, -, -, hgoal⟩ := hix.step hstep
    obtain ⟨rules, hr, hiy⟩ := hgoal e hj hat rfl
    obtain ⟨⟨F2, Os2, hi2⟩, -⟩ := hiy.steps hy
    refine ⟨rules, ?_, ?_⟩
    · rcases hr with hr | ⟨j, hj1, hj2⟩
      · exact .inl hr
      · exact .inr ⟨j, hj1, done_staysV (VSteps.trans (.tail (.refl _) hstep) hy) hj2⟩
    · have hth := hi2.threads i _ _ hj hd
      rcases hth with ⟨hg, -⟩ | ⟨v, hv, hg⟩
      · simp [setGoal] at hg
      · have := hg _ (by simp [setGoal]; rfl)
        rw [← this]; exact hv

/-- C69: if moreover loads of the pointer return the latest one, then whatever happens also happens with sequential
consistency: the accesses see the latest values. -/
theorem C69_consistent {idna : Idna} {jobs : List Job} {rules0 : List Bytes} {s0 s s' : VSys}
    (h0 : VStart idna jobs rules0 s0) (h : VSteps true s0 s) (h' : VSteps true s s') :
    Start idna jobs rules0 s0.now ∧ Steps s0.now s.now ∧ Steps s.now s'.now := by
  obtain ⟨⟨F, Os, hi⟩, h1⟩ := h0.inv.steps h
  exact ⟨h0.start, h1 rfl, (hi.steps h').2 rfl⟩

/-- C69: and then an Extract that begins after `s1` and is done in `s2` returns the result for a list that was installed in
between. -/
theorem C69_atomic {idna : Idna} {jobs : List Job} {rules0 : List Bytes} {s0 s1 s2 : VSys}
    (h0 : VStart idna jobs rules0 s0) (h1 : VSteps true s0 s1) (h2 : VSteps true s1 s2) {i : Nat} {e : URLParams}
    (hj : jobs[i]? = some (.extract e)) (hb : s1.threads[i]? = some ((Job.extract e).prog idna))
    {out : Outcome} (hd : s2.threads[i]? = some (.ret out)) :
    ∃ s rules, Steps s1.now s ∧ Steps s s2.now ∧ Holds s.mem.nodes s.mem.root rules ∧
      (rules = rules0 ∨ ∃ j : Nat, jobs[j]? = some (.update rules) ∧ s.threads[j]? = some (.ret .updated)) ∧
      out = .extracted (extract idna (buildTrie rules) e) := by
  obtain ⟨h3, h4, h5⟩ := C69_consistent h0 h1 h2
  exact C45_one_list_partial h3 h4 h5 hj hb hd

/-- C69: no goroutine follows a nil or dangling pointer, or waits for another one. -/
theorem C69_no_panic {a : Bool} {idna : Idna} {jobs : List Job} {rules0 : List Bytes} {s0 s : VSys}
    (h0 : VStart idna jobs rules0 s0) (h : VSteps a s0 s) {i : Nat} {p : MProg Outcome} (hp : s.threads[i]? = some p) :
    (∃ out, p = .ret out) ∨ ∃ s', VStep a i s s' := by
  cases p with
  | ret out => exact .inl ⟨out, rfl⟩
  | call o k =>
    obtain ⟨⟨F, Os, hi⟩, -⟩ := h0.inv.steps h
    obtain ⟨b, m', v', hd⟩ := hi.can (h0.le.steps h) hp a
    exact .inr ⟨_, .mk hp hd⟩

/-- C69: a goroutine that runs on its own from any moment gets done. -/
theorem C69_gets_done {a : Bool} {idna : Idna} {jobs : List Job} {rules0 : List Bytes} {s0 s : VSys}
    (h0 : VStart idna jobs rules0 s0) (h : VSteps a s0 s) {i : Nat} {p : MProg Outcome} (hp : s.threads[i]? = some p) :
    ∃ s' out, VSteps a s s' ∧ s'.threads[i]? = some (.ret out) ∧ ∀ j, j ≠ i → s'.threads[j]? = s.threads[j]? := by
  induction p generalizing s with
  | ret out => exact ⟨s, out, .refl _, hp, fun _ _ => rfl⟩
  | call o k ih =>
    obtain ⟨⟨F, Os, hi⟩, -⟩ := h0.inv.steps h
    obtain ⟨b, m', v', hd⟩ := hi.can (h0.le.steps h) hp a
    have hlt := (List.getElem?_eq_some_iff.1 hp).1
    have hs : VStep a i s ⟨m', s.threads.set i (k b), fun j => if j = i then v' else s.views j⟩ := .mk hp hd
    obtain ⟨s', out, h1, h2, h3⟩ := ih b (.tail h hs) (by simp [hlt])
    refine ⟨s', out, VSteps.trans (.tail (.refl _) hs) h1, h2, fun j hj => ?_⟩
    rw [h3 j hj]
    dsimp only
    rw [List.getElem?_set_ne (fun hc => hj hc.symm)]

/-! ## Schedules -/

/-- The `c`-th latest value, if nothing later is known. -/
def pick (m : VMem) (v : View) (r : Ref) (c : Nat) : Option HNode :=
  if v r + c ≤ (m.nodes r).length then (m.nodes r)[c]? else none

/-- The access, when the `c`-th latest value is seen; allocation at the first free place. -/
def MOp.playV (c : Nat) : {β : Type} → MOp β → VMem → View → Option (β × VMem × View)
  | _, .loadRoot, m, v => m.root[c]?.map fun x => (x.1, m, v.join x.2)
  | _, .storeRoot r, m, v => some ((), { m with root := (r, v) :: m.root }, v)
  | _, .alloc, m, v => ((List.range 100).find? fun r => m.nodes r = []).map fun r => (r, m.push r ⟨false, []⟩, v.know r 1)
  | _, .get r key, m, v => (pick m v r c).map fun nd => (hget nd.kids key, m, v)
  | _, .set r key x, m, v =>
    (pick m v r c).map fun nd => ((), m.push r ⟨nd.isEnd, hset nd.kids key x⟩, v.know r ((m.nodes r).length + 1))
  | _, .isEnd r, m, v => (pick m v r c).map fun nd => (nd.isEnd, m, v)
  | _, .setEnd r, m, v => (pick m v r c).map fun nd => ((), m.push r ⟨true, nd.kids⟩, v.know r ((m.nodes r).length + 1))
  | _, .len r, m, v => (pick m v r c).map fun nd => (nd.kids.length, m, v)
  | _, .nil, _, _ => none
  | _, .scan r, m, v => (pick m v r c).map fun nd => (nd.kids, m, v)

theorem pick_sees {m : VMem} {v : View} {r : Ref} {c : Nat} {nd : HNode} (h : pick m v r c = some nd) : m.Sees v r nd := by
  unfold pick at h
  split at h
  · exact ⟨c, h, by assumption⟩
  · cases h

theorem playV_does {c : Nat} {β : Type} {o : MOp β} {m m' : VMem} {v v' : View} {b : β}
    (h : MOp.playV c o m v = some (b, m', v')) : o.DoesV false m v b m' v' := by
  cases o with
  | loadRoot =>
    obtain ⟨⟨r, w⟩, h1, h2⟩ := Option.map_eq_some_iff.1 h
    cases h2
    exact ⟨w, List.mem_of_getElem? h1, nofun, rfl, rfl⟩
  | storeRoot r => cases h; exact ⟨rfl, rfl⟩
  | alloc =>
    obtain ⟨r, h1, h2⟩ := Option.map_eq_some_iff.1 h
    cases h2
    exact ⟨by simpa using List.find?_some h1, rfl, rfl⟩
  | get r key => obtain ⟨nd, h1, h2⟩ := Option.map_eq_some_iff.1 h; cases h2; exact ⟨nd, pick_sees h1, rfl, rfl, rfl⟩
  | isEnd r => obtain ⟨nd, h1, h2⟩ := Option.map_eq_some_iff.1 h; cases h2; exact ⟨nd, pick_sees h1, rfl, rfl, rfl⟩
  | len r => obtain ⟨nd, h1, h2⟩ := Option.map_eq_some_iff.1 h; cases h2; exact ⟨nd, pick_sees h1, rfl, rfl, rfl⟩
  | scan r => obtain ⟨nd, h1, h2⟩ := Option.map_eq_some_iff.1 h; cases h2; exact ⟨nd, pick_sees h1, List.Perm.refl _, rfl, rfl⟩
  | set r key x => obtain ⟨nd, h1, h2⟩ := Option.map_eq_some_iff.1 h; cases h2; exact ⟨nd, pick_sees h1, rfl, rfl⟩
  | setEnd r => obtain ⟨nd, h1, h2⟩ := Option.map_eq_some_iff.1 h; cases h2; exact ⟨nd, pick_sees h1, rfl, rfl⟩
  | nil => cases h

/-- A schedule: which goroutine, and which of the past values it sees. -/
def VSys.play (s : VSys) : List (Nat × Nat) → Option VSys
  | [] => some s
  | (i, c) :: rest =>
    match s.threads[i]? with
    | some (.call o k) => match MOp.playV c o s.mem (s.views i) with
      | some (b, m', v') => VSys.play ⟨m', s.threads.set i (k b), fun j => if j = i then v' else s.views j⟩ rest
      | none => none
    | _ => none

theorem playV_steps {sched : List (Nat × Nat)} {s s' : VSys} (h : VSys.play s sched = some s') : VSteps false s s' := by
  induction sched generalizing s with
  | nil => cases h; exact .refl _
  | cons x rest ih =>
    obtain ⟨i, c⟩ := x
    unfold VSys.play at h
    split at h
    · rename_i o k hi
      split at h
      · rename_i b m' v' hp
        exact VSteps.trans (.tail (.refl _) (.mk hi (playV_does hp))) (ih h)
      · cases h
    · cases h

/-- Memory with the list `com`. -/
def comMem : Mem where
  nodes x := if x = 0 then some ⟨false, [(b! "com", 1)]⟩ else if x = 1 then some ⟨true, []⟩ else none
  root := 0

theorem comMem_holds : Holds comMem.nodes comMem.root [b! "com"] := by
  have h : ∃ m, Runs (buildTrieH [b! "com"]) ⟨fun _ => none, 0⟩ 0 m ∧ m.nodes = comMem.nodes := by
    refine ⟨?m, ?_, ?_⟩
    rotate_left
    · refine .call (b := 0) ⟨rfl, rfl⟩ ?_
      refine .call ⟨_, rfl, rfl, rfl⟩ ?_
      refine .call (b := 1) ⟨rfl, rfl⟩ ?_
      refine .call (b := ()) ⟨_, rfl, rfl⟩ ?_
      refine .call ⟨_, rfl, rfl, rfl⟩ ?_
      refine .call (b := ()) ⟨_, rfl, rfl⟩ ?_
      refine .call (b := [(b! "com", 1)]) ⟨_, rfl, List.Perm.refl _, rfl⟩ ?_
      refine .call ⟨_, rfl, rfl, rfl⟩ ?_
      exact .ret _ _
    · funext x
      simp only [Nodes.put, comMem]
      by_cases h1 : x = 1
      · subst h1; rfl
      · by_cases h0 : x = 0
        · subst h0; rfl
        · simp [h0, h1]
  obtain ⟨m, h1, h2⟩ := h
  rw [← h2]
  exact (C51_build _ h1).1

/-- An Update to the list `com`, `b.com`, and an Extract of `a.b.com`. -/
def exJobs : List Job := [.update [b! "com", b! "b.com"], .extract ⟨b! "a.b.com", false, false⟩]

def exViews : VSys := ⟨asVMem comMem, exJobs.map (Job.prog idId), fun _ _ => 0⟩

-- an execution as the theorems speak of
example : VStart idId exJobs [b! "com"] exViews :=
  asVMem_start idId exJobs comMem_holds ⟨2, fun r hr => by
    unfold comMem
    simp only
    rw [if_neg (Nat.ne_of_gt (Nat.lt_of_lt_of_le (by decide) hr)), if_neg (Nat.ne_of_gt (Nat.lt_of_lt_of_le (by decide) hr))]⟩

/-- What goroutine `i` came back with. -/
def VSys.outcome (s : VSys) (i : Nat) : Option Outcome :=
  match s.threads[i]? with
  | some (.ret a) => some a
  | _ => none

/-- The Suffix and the Domain that the Extract came back with after a schedule, and whether the Update is done. -/
def exViewResult (schedule : List (Nat × Nat)) : Option (Bool × Bytes × Bytes) :=
  match (VSys.play exViews schedule).map fun s => ((VSys.outcome s 0).isSome, VSys.outcome s 1) with
  | some (d, some (.extracted (.ok (r, none)))) => some (d, r.suffix, r.domain)
  | _ => none

-- before the list is published; after it; begun before and done after it
example : exViewResult (latest 0 15 ++ latest 1 5) = some (false, b! "com", b! "b") := by decide +kernel
example : exViewResult (latest 0 16 ++ latest 1 8) = some (true, b! "b.com", b! "a") := by decide +kernel
example : exViewResult (latest 0 15 ++ latest 1 1 ++ latest 0 1 ++ latest 1 4) = some (true, b! "com", b! "b") := by
  decide +kernel
-- with the new pointer nothing older than what is behind it is seen (the counterexample to C45)
example : exViewResult (latest 0 16 ++ [(1, 0), (1, 1), (1, 1)]) = none ∧
    (VSys.play exViews (latest 0 16 ++ [(1, 0), (1, 1)])).isNone ∧ (VSys.play exViews (latest 0 16 ++ [(1, 0), (1, 0)])).isSome := by
  decide +kernel

/-- C69: if loads of the pointer may return an old one, the list may be older than the call: the Update was done before the
Extract began.  So `C69_one_list` cannot say more. -/
theorem C69_counterexample_stale : exViewResult (latest 0 16 ++ [(1, 1)] ++ latest 1 4) = some (true, b! "com", b! "b") := by
  decide +kernel

end Fasttld.Props
