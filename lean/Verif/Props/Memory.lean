import Verif.Proofs.Threads
import Verif.Props.System

/-!
# C45, C51: the trie in memory, goroutines
-/

set_option linter.unusedSimpArgs false

namespace Fasttld.Props
open Fasttld Fasttld.Spec

/-! ## C51: building and reading in memory is what the trie values say -/

theorem wp_runs {α : Type} {post : Nodes → α → Prop} {p : MProg α} {O : Nodes} (h : p.wp post O) {m m' : Mem} {a : α}
    (hs : O.Sub m.nodes) (hr : Runs p m a m') :
    ∃ O', post O' a ∧ O'.Sub m'.nodes ∧ m'.root = m.root ∧
      ∀ r nd, m.nodes r = some nd → O r = none → O' r = none ∧ m'.nodes r = some nd := by
  induction hr generalizing O with
  | ret a m => exact ⟨O, h, hs, rfl, fun r nd h1 h2 => ⟨h2, h1⟩⟩
  | call hd _ ih =>
    rcases MOp.safe_step h hs hd with ⟨r, h1, -⟩ | ⟨O1, h1, h2, h3, h4, -⟩
    · exact h1.elim
    · obtain ⟨O2, h5, h6, h7, h8⟩ := ih h1 h3
      exact ⟨O2, h5, h6, h7.trans h2, fun r nd h9 h10 =>
        h8 r nd (h4 r nd h9 h10).2 (h4 r nd h9 h10).1⟩

theorem wp_ends {α : Type} {post : Nodes → α → Prop} {p : MProg α} {O : Nodes} (h : p.wp post O) {m : Mem}
    (hs : O.Sub m.nodes) (hb : ∃ N, ∀ r, N ≤ r → m.nodes r = none) :
    ∃ a m', Runs p m a m' ∧ ∃ N, ∀ r, N ≤ r → m'.nodes r = none := by
  induction p generalizing O m with
  | ret a => exact ⟨a, m, .ret a m, hb⟩
  | call o k ih =>
    obtain ⟨b, m1, hd⟩ := MOp.safe_can h hs hb
    rcases MOp.safe_step h hs hd with ⟨r, h1, -⟩ | ⟨O1, h1, h2, h3, h4, h5⟩
    · exact h1.elim
    · obtain ⟨N, hN⟩ := hb
      obtain ⟨a, m2, h6, h7⟩ := ih b h1 h3 (h5 N hN)
      exact ⟨a, m2, .call hd h6, h7⟩

/-- Building in place, in any memory and with any allocator and order of Scan: the structure is the one for the list, no
node is shared, and nothing else in memory has changed. -/
theorem C51_build (rules : List Bytes) {m m' : Mem} {r : Ref} (h : Runs (buildTrieH rules) m r m') :
    Holds m'.nodes r rules ∧ m'.nodes.Unshared r ∧ m'.root = m.root ∧
      ∀ x nd, m.nodes x = some nd → m'.nodes x = some nd := by
  obtain ⟨O, ⟨h1, h2⟩, h3, h4, h5⟩ := wp_runs (buildTrieH_wp rules (O := fun _ => none) (fun _ => rfl))
    (fun _ _ hc => by cases hc) h
  refine ⟨h1.sub h3, ?_, h4, fun x nd hx => (h5 x nd hx rfl).2⟩
  have h6 := (Rep.of_holds h1).isSome
  intro p q x hp hq
  rw [find_sub h3 h6 h1.closed] at hp hq
  exact h2 p q x hp hq

/-- Building comes to an end, without a panic. -/
theorem C51_build_ends (rules : List Bytes) (m : Mem) (hm : ∃ N, ∀ r, N ≤ r → m.nodes r = none) :
    ∃ r m', Runs (buildTrieH rules) m r m' ∧ ∃ N, ∀ r, N ≤ r → m'.nodes r = none :=
  wp_ends (buildTrieH_wp rules (O := fun _ => none) (fun _ => rfl)) (fun _ _ hc => by cases hc) hm

theorem reads_runs {α : Type} {F : Nodes} {v : α} {p : MProg α} (h : p.reads F v) {m m' : Mem} {a : α}
    (hs : F.Sub m.nodes) (hr : Runs p m a m') : a = v ∧ m' = m := by
  induction hr with
  | ret a m => exact ⟨h, rfl⟩
  | call hd _ ih =>
    obtain ⟨rfl, h1⟩ := MOp.sees_step h hs hd
    exact ih h1 hs

/-- Reading from memory: Extract returns what it returns for the trie value, and changes nothing. -/
theorem C51_extract (idna : Idna) (rules : List Bytes) (e : URLParams) {m m' : Mem}
    (hm : Holds m.nodes m.root rules) {v : Go (ExtractResult × Option Err)} (h : Runs (extractH idna e) m v m') :
    v = extract idna (buildTrie rules) e ∧ m' = m := by
  rcases extractH_cases idna e with ⟨w, h1, h2⟩ | ⟨k, h1, h2⟩
  · rw [h1] at h
    cases h
    exact ⟨(h2 _).symm, rfl⟩
  · rw [h1] at h
    cases h with
    | call hd hr =>
      obtain ⟨rfl, rfl⟩ := hd
      exact reads_runs (h2 _ _ _ (Rep.of_holds hm)) (Nodes.Sub.refl _) hr

/-- Memory in which `f.tldTrie` points to the structure for a list, for every list. -/
theorem C51_memory (rules : List Bytes) :
    ∃ m : Mem, Holds m.nodes m.root rules ∧ ∃ N, ∀ r, N ≤ r → m.nodes r = none := by
  obtain ⟨r, m, h1, h2⟩ := C51_build_ends rules ⟨fun _ => none, 0⟩ ⟨0, fun _ _ => rfl⟩
  exact ⟨⟨m.nodes, r⟩, (C51_build rules h1).1, h2⟩

/-! ## C45: goroutines -/

/-- There is a start for every list and all jobs. -/
theorem C45_start (idna : Idna) (jobs : List Job) (rules0 : List Bytes) : ∃ s, Start idna jobs rules0 s := by
  obtain ⟨m, h1, h2⟩ := C51_memory rules0
  exact ⟨⟨m, jobs.map (Job.prog idna)⟩, h1, h2, rfl⟩

/-- At every moment `f.tldTrie` points to the complete structure for one list: the first one, or that of an Update
that is done. -/
theorem C45_always_one_list {idna : Idna} {jobs : List Job} {rules0 : List Bytes} {s0 s : Sys}
    (h0 : Start idna jobs rules0 s0) (h : Steps s0 s) :
    ∃ rules, Holds s.mem.nodes s.mem.root rules ∧
      (rules = rules0 ∨ ∃ j : Nat, jobs[j]? = some (.update rules) ∧ s.threads[j]? = some (.ret .updated)) := by
  obtain ⟨F, Os, -, hi⟩ := h0.inv.steps h
  obtain ⟨rules, h1, h2⟩ := hi.root
  exact ⟨rules, h1.sub hi.subF, h2⟩

/-- An Extract that begins after `s1` and is done in `s2` returns the result for the list that `f.tldTrie` pointed to
at some moment in between: no mixture.  Any number of Extracts and Updates run at the same time.
Missing for the full claim: accesses are taken to be sequentially consistent, which Go does not promise for this code
(`C45_counterexample`). -/
theorem C45_one_list_partial {idna : Idna} {jobs : List Job} {rules0 : List Bytes} {s0 s1 s2 : Sys}
    (h0 : Start idna jobs rules0 s0) (h1 : Steps s0 s1) (h2 : Steps s1 s2) {i : Nat} {e : URLParams}
    (hj : jobs[i]? = some (.extract e)) (hb : s1.threads[i]? = some ((Job.extract e).prog idna))
    {out : Outcome} (hd : s2.threads[i]? = some (.ret out)) :
    ∃ s rules, Steps s1 s ∧ Steps s s2 ∧ Holds s.mem.nodes s.mem.root rules ∧
      (rules = rules0 ∨ ∃ j : Nat, jobs[j]? = some (.update rules) ∧ s.threads[j]? = some (.ret .updated)) ∧
      out = .extracted (extract idna (buildTrie rules) e) := by
  obtain ⟨F1, Os1, -, hi1⟩ := h0.inv.steps h1
  rcases h2.first hb with hsame | ⟨a, b, ha, hstep, hb2, hat⟩
  · rw [hd] at hsame
    rcases job_cases idna e with ⟨v, hv1, hv2⟩ | ⟨k, hk1, -⟩
    · rw [hv1] at hsame
      cases hsame
      obtain ⟨rules, hr, hin⟩ := C45_always_one_list h0 h1
      exact ⟨s1, rules, .refl _, h2, hr, hin, by rw [hv2]⟩
    · rw [hk1] at hsame; cases hsame
  · obtain ⟨Fa, Osa, -, hia⟩ := hi1.steps ha
    obtain ⟨Fb, Osb, -, -, hgoal⟩ := hia.step hstep
    obtain ⟨rules, hr, hin, hib⟩ := hgoal e hj hat rfl
    obtain ⟨F2, Os2, -, hi2⟩ := hib.steps hb2
    refine ⟨a, rules, ha, Steps.trans (.tail (.refl _) hstep) hb2, hr, hin, ?_⟩
    have hth := hi2.threads i _ _ hj hd
    rcases hth with ⟨hg, -⟩ | ⟨v, hv, hg⟩
    · simp [setGoal] at hg
    · have := hg _ (by simp [setGoal]; rfl)
      rw [← this]; exact hv

/-- What has been published is never changed. -/
theorem C45_published_stays {idna : Idna} {jobs : List Job} {rules0 : List Bytes} {s0 s s' : Sys}
    (h0 : Start idna jobs rules0 s0) (h : Steps s0 s) (h' : Steps s s') {p : List Bytes} {x : Ref}
    (hx : s.mem.nodes.find s.mem.root p = some x) : s'.mem.nodes x = s.mem.nodes x := by
  obtain ⟨F, Os, -, hi⟩ := h0.inv.steps h
  obtain ⟨rules, h1, -⟩ := hi.root
  rw [find_sub hi.subF (Rep.of_holds h1).isSome h1.closed] at hx
  obtain ⟨nd, hn⟩ := find_some hx
  obtain ⟨F', Os', h2, hi'⟩ := hi.steps h'
  rw [hi.subF _ _ hn, hi'.subF _ _ (h2 _ _ hn)]

/-- No goroutine follows a nil or dangling pointer, or waits for another one: each can always make its next access. -/
theorem C45_no_panic {idna : Idna} {jobs : List Job} {rules0 : List Bytes} {s0 s : Sys}
    (h0 : Start idna jobs rules0 s0) (h : Steps s0 s) {i : Nat} {p : MProg Outcome} (hp : s.threads[i]? = some p) :
    (∃ out, p = .ret out) ∨ ∃ s', Step i s s' := by
  cases p with
  | ret out => exact .inl ⟨out, rfl⟩
  | call o k =>
    obtain ⟨F, Os, -, hi⟩ := h0.inv.steps h
    obtain ⟨b, m', hd⟩ := hi.can hp
    exact .inr ⟨_, .mk hp hd⟩

/-- A goroutine that runs on its own from any moment gets done. -/
theorem C45_gets_done {idna : Idna} {jobs : List Job} {rules0 : List Bytes} {s0 s : Sys}
    (h0 : Start idna jobs rules0 s0) (h : Steps s0 s) {i : Nat} {p : MProg Outcome} (hp : s.threads[i]? = some p) :
    ∃ s' out, Steps s s' ∧ s'.threads[i]? = some (.ret out) ∧ ∀ j, j ≠ i → s'.threads[j]? = s.threads[j]? := by
  induction p generalizing s with
  | ret out => exact ⟨s, out, .refl _, hp, fun _ _ => rfl⟩
  | call o k ih =>
    obtain ⟨F, Os, -, hi⟩ := h0.inv.steps h
    obtain ⟨b, m', hd⟩ := hi.can hp
    have hlt := (List.getElem?_eq_some_iff.1 hp).1
    have hs : Step i s ⟨m', s.threads.set i (k b)⟩ := .mk hp hd
    obtain ⟨s', out, h1, h2, h3⟩ := ih b (.tail h hs) (by simp [hlt])
    refine ⟨s', out, Steps.trans (.tail (.refl _) hs) h1, h2, fun j hj => ?_⟩
    rw [h3 j hj]
    dsimp only
    rw [List.getElem?_set_ne (fun hc => hj hc.symm)]

/-! ## Schedules -/

/-- Empty memory, and goroutines that install the list `com`, install the list `com`, `b.com`, and extract from `a.b.com`. -/
def exThreads : WSys where
  mem := { nodes := fun _ => [], root := [], next := 0 }
  threads := [(Job.update [b! "com"]).prog idId, (Job.update [b! "com", b! "b.com"]).prog idId,
    (Job.extract ⟨b! "a.b.com", false, false⟩).prog idId]

/-- The Suffix and the Domain that the Extract came back with after a schedule. -/
def exResult (schedule : List (Nat × Nat)) : Option (Bytes × Bytes) :=
  match (exThreads.run schedule).bind fun s => s.outcome 2 with
  | some (.extracted (.ok (r, none))) => some (r.suffix, r.domain)
  | _ => none

/-- `n` accesses of goroutine `i` that see the latest values. -/
def latest (i n : Nat) : List (Nat × Nat) := List.replicate n (i, 0)

-- before the second list is published; after it; begun before and done after it
example : exResult (latest 0 9 ++ latest 1 15 ++ latest 2 5) = some (b! "com", b! "b") := by decide +kernel
example : exResult (latest 0 9 ++ latest 1 16 ++ latest 2 8) = some (b! "b.com", b! "a") := by decide +kernel
example : exResult (latest 0 9 ++ latest 1 15 ++ latest 2 1 ++ latest 1 1 ++ latest 2 4) = some (b! "com", b! "b") := by
  decide +kernel

/-- Without sequential consistency the claim is false: an Extract that sees the new `f.tldTrie` but an earlier state
of the node behind it returns the result of neither list, here no Suffix. -/
theorem C45_counterexample :
    exResult (latest 0 9 ++ latest 1 16 ++ [(2, 0), (2, 1), (2, 1)]) = some ([], b! "com") ∧
    (∀ rules ∈ [[b! "com"], [b! "com", b! "b.com"]],
      (extract idId (buildTrie rules) ⟨b! "a.b.com", false, false⟩).toOption.map (fun r => r.1.suffix) ≠ some []) := by
  decide +kernel

end Fasttld.Props
