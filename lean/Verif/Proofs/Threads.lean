import Verif.Proofs.Build

/-!
# Goroutines that share the trie

Memory splits into nodes that are published (`F`, never changed again) and, for each Update under way, the nodes it
has allocated and not published yet.
-/

set_option linter.unusedSimpArgs false

namespace Fasttld

open Spec Trie

/-! ## The two kinds of goroutines -/

/-- The rest of an Update that has allocated `O` and will publish the structure for `rules`. -/
def MProg.builds (rules : List Bytes) : MProg Outcome → Nodes → Prop
  | .ret _, _ => False
  | .call o k, O => o.safe O (fun r b => Holds O r rules ∧ k b = .ret .updated) (fun O' b => (k b).builds rules O')

theorem MProg.builds_bind {α : Type} {rules : List Bytes} {post : Nodes → α → Prop} {p : MProg α}
    {f : α → MProg Outcome} {O : Nodes} (h : p.wp post O) (hf : ∀ O a, post O a → (f a).builds rules O) :
    (p.bind f).builds rules O := by
  induction p generalizing O with
  | ret a => exact hf _ _ h
  | call o k ih => exact MOp.safe_mono (fun _ _ h => h.elim) (fun O b h => ih b h) h

theorem update_builds (rules : List Bytes) : (updateH rules).builds rules (fun _ => none) := by
  unfold updateH
  refine MProg.builds_bind (buildTrieH_wp rules (fun _ => rfl)) ?_
  rintro O r ⟨h, -⟩
  exact ⟨h, rfl⟩

theorem rep_iff_holds {m : Nodes} {r : Ref} {rules : List Bytes} : Rep m r (buildTrie rules) ↔ Holds m r rules :=
  ⟨fun h => ⟨fun p => by rw [h.has, buildTrie_has], fun p => by rw [h.ends, buildTrie_endAt], h.closed⟩, Rep.of_holds⟩

/-- What is left of Extract when the trie is loaded reads exactly the value. -/
theorem extractH_cases (idna : Idna) (e : URLParams) :
    (∃ v, extractH idna e = .ret v ∧ ∀ t, extract idna t e = v) ∨
    (∃ k, extractH idna e = .call .loadRoot k ∧ ∀ F r t, Rep F r t → (k r).reads F (extract idna t e)) := by
  have hx : ∀ t, extract idna t e = returned (extractM idna t e) := by
    intro t; unfold extract returned; rfl
  simp only [hx, extractM_split]
  unfold extractH
  cases beforeHost idna e with
  | error s => exact .inl ⟨returned (.error s), rfl, fun _ => rfl⟩
  | ok b =>
    cases b with
    | inl r => exact .inl ⟨.ok r, rfl, fun _ => rfl⟩
    | inr nu =>
      obtain ⟨netloc, u⟩ := nu
      refine .inr ⟨_, rfl, fun F r t hr => ?_⟩
      dsimp only [MProg.bind]
      refine MProg.reads_bind (walkLoopH_reads netloc u _ hr _ _) ?_
      exact congrArg returned (stageHost_split t e netloc u).symm

theorem job_cases (idna : Idna) (e : URLParams) :
    (∃ v, (Job.extract e).prog idna = .ret (.extracted v) ∧ ∀ t, extract idna t e = v) ∨
    (∃ k, (Job.extract e).prog idna = .call .loadRoot k ∧
      ∀ F r t, Rep F r t → (k r).reads F (.extracted (extract idna t e))) := by
  have hj : (Job.extract e).prog idna = (extractH idna e).bind fun r => .ret (.extracted r) := rfl
  rw [hj]
  rcases extractH_cases idna e with ⟨v, h1, h2⟩ | ⟨k, h1, h2⟩
  · rw [h1]; exact .inl ⟨v, rfl, h2⟩
  · rw [h1]; exact .inr ⟨_, rfl, fun F r t hr => MProg.reads_bind (h2 F r t hr) rfl⟩

/-- A goroutine with its job, given the published nodes and its own; `g` is its outcome if that is already decided. -/
def ThreadOK (idna : Idna) (F O : Nodes) (g : Option Outcome) : Job → MProg Outcome → Prop
  | .extract e, p => (g = none ∧ p = (Job.extract e).prog idna) ∨ ∃ v, p.reads F v ∧ ∀ w, g = some w → v = w
  | .update rules, p => p = .ret .updated ∨ p.builds rules O

/-- The list was there at the start, or an Update that is done put it there. -/
def Installed (jobs : List Job) (rules0 : List Bytes) (s : Sys) (rules : List Bytes) : Prop :=
  rules = rules0 ∨ ∃ j : Nat, jobs[j]? = some (.update rules) ∧ s.threads[j]? = some (.ret .updated)

structure Inv (idna : Idna) (jobs : List Job) (rules0 : List Bytes) (g : Nat → Option Outcome) (s : Sys)
    (F : Nodes) (Os : Nat → Nodes) : Prop where
  subF : F.Sub s.mem.nodes
  subO : ∀ i, (Os i).Sub s.mem.nodes
  disjF : ∀ i r nd, F r = some nd → Os i r = none
  disjO : ∀ i j r nd, i ≠ j → Os i r = some nd → Os j r = none
  root : ∃ rules, Holds F s.mem.root rules ∧ Installed jobs rules0 s rules
  len : s.threads.length = jobs.length
  threads : ∀ i job p, jobs[i]? = some job → s.threads[i]? = some p → ThreadOK idna F (Os i) (g i) job p
  bound : ∃ N, ∀ r, N ≤ r → s.mem.nodes r = none

theorem Spec.Holds.sub {m m' : Nodes} {r : Ref} {rules : List Bytes} (h : Holds m r rules) (hs : m.Sub m') :
    Holds m' r rules := rep_iff_holds.1 ((Rep.of_holds h).sub hs)

theorem ThreadOK.mono {idna : Idna} {F F' O : Nodes} {g : Option Outcome} {job : Job} {p : MProg Outcome}
    (h : ThreadOK idna F O g job p) (hs : F.Sub F') : ThreadOK idna F' O g job p := by
  cases job with
  | update rules => exact h
  | extract e =>
    rcases h with h | ⟨v, h1, h2⟩
    · exact .inl h
    · exact .inr ⟨v, MProg.reads_mono hs h1, h2⟩

/-- What an access of an Update does to memory. -/
theorem MOp.safe_step {β : Type} {o : MOp β} {O : Nodes} {pub : Ref → β → Prop} {K : Nodes → β → Prop}
    (h : o.safe O pub K) {m m' : Mem} {b : β} (hs : O.Sub m.nodes) (hd : o.Does m b m') :
    (∃ r, pub r b ∧ m' = { m with root := r }) ∨
    (∃ O', K O' b ∧ m'.root = m.root ∧ O'.Sub m'.nodes ∧
      (∀ r nd, m.nodes r = some nd → O r = none → O' r = none ∧ m'.nodes r = some nd) ∧
      (∀ N, (∀ r, N ≤ r → m.nodes r = none) → ∃ N', ∀ r, N' ≤ r → m'.nodes r = none)) := by
  have hput : ∀ r nd nd', O r = some nd → (O.put r nd').Sub (m.nodes.put r nd') ∧
      (∀ x ndx, m.nodes x = some ndx → O x = none → O.put r nd' x = none ∧ m.nodes.put r nd' x = some ndx) ∧
      (∀ N, (∀ r, N ≤ r → m.nodes r = none) → ∃ N', ∀ x, N' ≤ x → m.nodes.put r nd' x = none) := by
    intro r nd nd' hr
    refine ⟨?_, ?_, ?_⟩
    · intro x ndx hx
      by_cases hxr : x = r
      · subst hxr; rw [put_same] at hx ⊢; exact hx
      · rw [put_other _ _ hxr] at hx ⊢; exact hs _ _ hx
    · intro x ndx hx hO
      have hxr : x ≠ r := by rintro rfl; rw [hr] at hO; cases hO
      rw [put_other _ _ hxr, put_other _ _ hxr]
      exact ⟨hO, hx⟩
    · intro N hN
      refine ⟨N, fun x hx => ?_⟩
      have hxr : x ≠ r := by
        rintro rfl
        have := hs _ _ hr
        rw [hN _ hx] at this; cases this
      rw [put_other _ _ hxr]; exact hN _ hx
  have hsame : ∀ N, (∀ r, N ≤ r → m.nodes r = none) → ∃ N', ∀ r, N' ≤ r → m.nodes r = none := fun N hN => ⟨N, hN⟩
  cases o with
  | loadRoot => exact h.elim
  | storeRoot r => exact .inl ⟨r, h, hd⟩
  | alloc =>
    obtain ⟨h1, rfl⟩ := hd
    have h1' : O b = none := by
      cases hb : O b with
      | none => rfl
      | some nd => have := hs _ _ hb; rw [h1] at this; cases this
    refine .inr ⟨_, h b h1', rfl, ?_, ?_, ?_⟩
    · intro x ndx hx
      change m.nodes.put b _ x = some ndx
      by_cases hxr : x = b
      · subst hxr; rw [put_same] at hx ⊢; exact hx
      · rw [put_other _ _ hxr] at hx ⊢; exact hs _ _ hx
    · intro x ndx hx hO
      change _ ∧ m.nodes.put b _ x = some ndx
      have hxr : x ≠ b := by rintro rfl; rw [h1] at hx; cases hx
      rw [put_other _ _ hxr, put_other _ _ hxr]
      exact ⟨hO, hx⟩
    · intro N hN
      refine ⟨max N (b + 1), fun x hx => ?_⟩
      have hxr : x ≠ b := by
        have : b + 1 ≤ x := Nat.le_trans (Nat.le_max_right _ _) hx
        exact fun hc => absurd this (by rw [hc]; exact Nat.not_succ_le_self b)
      change m.nodes.put b _ x = none
      rw [put_other _ _ hxr]; exact hN _ (Nat.le_trans (Nat.le_max_left _ _) hx)
  | get r key =>
    obtain ⟨nd, h1, h2⟩ := h
    obtain ⟨nd', h3, rfl, rfl⟩ := hd
    rw [hs _ _ h1] at h3; cases h3
    exact .inr ⟨O, h2, rfl, hs, fun _ _ h4 h5 => ⟨h5, h4⟩, hsame⟩
  | isEnd r =>
    obtain ⟨nd, h1, h2⟩ := h
    obtain ⟨nd', h3, rfl, rfl⟩ := hd
    rw [hs _ _ h1] at h3; cases h3
    exact .inr ⟨O, h2, rfl, hs, fun _ _ h4 h5 => ⟨h5, h4⟩, hsame⟩
  | len r =>
    obtain ⟨nd, h1, h2⟩ := h
    obtain ⟨nd', h3, rfl, rfl⟩ := hd
    rw [hs _ _ h1] at h3; cases h3
    exact .inr ⟨O, h2, rfl, hs, fun _ _ h4 h5 => ⟨h5, h4⟩, hsame⟩
  | scan r =>
    obtain ⟨nd, h1, h2⟩ := h
    obtain ⟨nd', h3, h4, rfl⟩ := hd
    rw [hs _ _ h1] at h3; cases h3
    exact .inr ⟨O, h2 _ h4, rfl, hs, fun _ _ h4 h5 => ⟨h5, h4⟩, hsame⟩
  | set r key v =>
    obtain ⟨nd, h1, h2⟩ := h
    obtain ⟨nd', h3, rfl⟩ := hd
    rw [hs _ _ h1] at h3; cases h3
    exact .inr ⟨_, h2, rfl, hput _ _ _ h1⟩
  | setEnd r =>
    obtain ⟨nd, h1, h2⟩ := h
    obtain ⟨nd', h3, rfl⟩ := hd
    rw [hs _ _ h1] at h3; cases h3
    exact .inr ⟨_, h2, rfl, hput _ _ _ h1⟩
  | nil => exact h.elim

theorem MOp.safe_can {β : Type} {o : MOp β} {O : Nodes} {pub : Ref → β → Prop} {K : Nodes → β → Prop}
    (h : o.safe O pub K) {m : Mem} (hs : O.Sub m.nodes) (hb : ∃ N, ∀ r, N ≤ r → m.nodes r = none) :
    ∃ b m', o.Does m b m' := by
  cases o with
  | loadRoot => exact h.elim
  | nil => exact h.elim
  | storeRoot r => exact ⟨(), _, rfl⟩
  | alloc =>
    obtain ⟨N, hN⟩ := hb
    exact ⟨N, _, hN N (Nat.le_refl _), rfl⟩
  | get r key => obtain ⟨nd, h1, -⟩ := h; exact ⟨_, m, nd, hs _ _ h1, rfl, rfl⟩
  | isEnd r => obtain ⟨nd, h1, -⟩ := h; exact ⟨_, m, nd, hs _ _ h1, rfl, rfl⟩
  | len r => obtain ⟨nd, h1, -⟩ := h; exact ⟨_, m, nd, hs _ _ h1, rfl, rfl⟩
  | scan r => obtain ⟨nd, h1, -⟩ := h; exact ⟨_, m, nd, hs _ _ h1, List.Perm.refl _, rfl⟩
  | set r key v => obtain ⟨nd, h1, -⟩ := h; exact ⟨(), _, nd, hs _ _ h1, rfl⟩
  | setEnd r => obtain ⟨nd, h1, -⟩ := h; exact ⟨(), _, nd, hs _ _ h1, rfl⟩

/-! ## The invariant -/

theorem Installed.set {jobs : List Job} {rules0 rules : List Bytes} {s : Sys} (h : Installed jobs rules0 s rules)
    {i : Nat} {p p' : MProg Outcome} (hi : s.threads[i]? = some p) (hp : p ≠ .ret .updated) (m : Mem) :
    Installed jobs rules0 ⟨m, s.threads.set i p'⟩ rules := by
  rcases h with h | ⟨j, h1, h2⟩
  · exact .inl h
  · refine .inr ⟨j, h1, ?_⟩
    have hij : i ≠ j := by rintro rfl; rw [hi] at h2; cases h2; exact hp rfl
    simp only [List.getElem?_set_ne hij, h2]

/-- Replacing the program of goroutine `i`. -/
theorem threads_set {P : Nat → Job → MProg Outcome → Prop} {jobs : List Job} {ts : List (MProg Outcome)} {i : Nat}
    {p' : MProg Outcome} (hlen : ts.length = jobs.length)
    (h : ∀ j job p, j ≠ i → jobs[j]? = some job → ts[j]? = some p → P j job p)
    (hi : ∀ job, jobs[i]? = some job → P i job p') :
    ∀ j job p, jobs[j]? = some job → (ts.set i p')[j]? = some p → P j job p := by
  intro j job p hj hp
  by_cases hij : j = i
  · subst hij
    have hlt : j < ts.length := by rw [hlen]; exact (List.getElem?_eq_some_iff.1 hj).1
    rw [List.getElem?_set_self hlt] at hp
    cases hp
    exact hi job hj
  · rw [List.getElem?_set_ne (fun hc => hij hc.symm)] at hp
    exact h j job p hij hj hp

/-- The nodes of `F` and of `O`. -/
def Nodes.join (F O : Nodes) : Nodes := fun r => (F r).or (O r)

/-- The nodes of goroutine `i` replaced. -/
def setNodes (Os : Nat → Nodes) (i : Nat) (O : Nodes) : Nat → Nodes := fun j => if j = i then O else Os j

/-- The outcome of goroutine `i` is decided. -/
def setGoal (g : Nat → Option Outcome) (i : Nat) (v : Outcome) : Nat → Option Outcome :=
  fun j => if j = i then some v else g j

theorem Inv.step {idna : Idna} {jobs : List Job} {rules0 : List Bytes} {g : Nat → Option Outcome} {s s' : Sys}
    {F : Nodes} {Os : Nat → Nodes} (h : Inv idna jobs rules0 g s F Os) {i : Nat} (hs : Step i s s') :
    ∃ F' Os', F.Sub F' ∧ Inv idna jobs rules0 g s' F' Os' ∧
      (∀ e, jobs[i]? = some (.extract e) → s.threads[i]? = some ((Job.extract e).prog idna) → g i = none →
        ∃ rules, Holds s.mem.nodes s.mem.root rules ∧ Installed jobs rules0 s rules ∧
          Inv idna jobs rules0 (setGoal g i (.extracted (extract idna (buildTrie rules) e))) s' F' Os') := by
  cases hs with
  | @mk β o k b m' hi hd =>
  have hlt : i < jobs.length := by rw [← h.len]; exact (List.getElem?_eq_some_iff.1 hi).1
  obtain ⟨job, hjob⟩ : ∃ job, jobs[i]? = some job := ⟨_, List.getElem?_eq_getElem hlt⟩
  have hth := h.threads i job _ hjob hi
  have hne : MProg.call o k ≠ MProg.ret Outcome.updated := by intro hc; cases hc
  obtain ⟨rules, hr1, hr2⟩ := h.root
  cases job with
  | update rl =>
    have hno : ∀ e, jobs[i]? ≠ some (.extract e) := by intro e hc; rw [hjob] at hc; cases hc
    rcases hth with hth | hth
    · cases hth
    rcases MOp.safe_step hth (h.subO i) hd with ⟨r, ⟨h1, h2⟩, rfl⟩ | ⟨O', h1, h2, h3, h4, h5⟩
    · -- the structure is published
      have hsF : F.Sub (F.join (Os i)) := by intro x nd hx; simp [Nodes.join, hx]
      have hsO : (Os i).Sub (F.join (Os i)) := by
        intro x nd hx
        cases hf : F x with
        | none => simp [Nodes.join, hf, hx]
        | some nd' => have := h.disjF i x nd' hf; rw [hx] at this; cases this
      have hj : ∀ x nd, F.join (Os i) x = some nd → F x = some nd ∨ Os i x = some nd := by
        intro x nd hx
        unfold Nodes.join at hx
        cases hf : F x with
        | none => rw [hf] at hx; exact .inr hx
        | some nd' => rw [hf] at hx; exact .inl hx
      refine ⟨F.join (Os i), setNodes Os i (fun _ => none), hsF, ⟨?_, ?_, ?_, ?_, ?_, ?_, ?_, h.bound⟩, fun e he => absurd he (hno e)⟩
      · intro x nd hx
        rcases hj x nd hx with hx | hx
        · exact h.subF _ _ hx
        · exact h.subO i _ _ hx
      · intro j x nd hx
        unfold setNodes at hx
        by_cases hji : j = i
        · rw [if_pos hji] at hx; cases hx
        · rw [if_neg hji] at hx; exact h.subO j _ _ hx
      · intro j x nd hx
        unfold setNodes
        by_cases hji : j = i
        · rw [if_pos hji]
        · rw [if_neg hji]
          rcases hj x nd hx with hx | hx
          · exact h.disjF _ _ _ hx
          · exact h.disjO i j x nd (fun hc => hji hc.symm) hx
      · intro j l x nd hjl hx
        unfold setNodes at hx ⊢
        by_cases hli : l = i
        · rw [if_pos hli]
        · rw [if_neg hli]
          by_cases hji : j = i
          · rw [if_pos hji] at hx; cases hx
          · rw [if_neg hji] at hx; exact h.disjO j l x nd hjl hx
      · refine ⟨rl, h1.sub hsO, .inr ⟨i, hjob, ?_⟩⟩
        dsimp only
        rw [List.getElem?_set_self (by rw [h.len]; exact hlt), h2]
      · simp [h.len]
      · refine threads_set h.len (fun j job p hji hj hp => ?_) (fun job hj => ?_)
        · unfold setNodes
          rw [if_neg hji]
          exact (h.threads j job p hj hp).mono hsF
        · rw [hjob] at hj; cases hj
          exact .inl h2
    · -- more of the structure is built
      refine ⟨F, setNodes Os i O', Nodes.Sub.refl F, ⟨?_, ?_, ?_, ?_, ?_, ?_, ?_, ?_⟩, fun e he => absurd he (hno e)⟩
      · intro x nd hx
        exact (h4 x nd (h.subF _ _ hx) (h.disjF _ _ _ hx)).2
      · intro j x nd hx
        unfold setNodes at hx
        by_cases hji : j = i
        · rw [if_pos hji] at hx; exact h3 _ _ hx
        · rw [if_neg hji] at hx
          exact (h4 x nd (h.subO j _ _ hx) (h.disjO j i x nd hji hx)).2
      · intro j x nd hx
        unfold setNodes
        by_cases hji : j = i
        · rw [if_pos hji]; exact (h4 x nd (h.subF _ _ hx) (h.disjF _ _ _ hx)).1
        · rw [if_neg hji]; exact h.disjF _ _ _ hx
      · intro j l x nd hjl hx
        unfold setNodes at hx ⊢
        by_cases hli : l = i
        · rw [if_pos hli]
          have hji : j ≠ i := by rintro rfl; exact hjl hli.symm
          rw [if_neg hji] at hx
          exact (h4 x nd (h.subO j _ _ hx) (h.disjO j i x nd hji hx)).1
        · rw [if_neg hli]
          by_cases hji : j = i
          · rw [if_pos hji] at hx
            cases hl : Os l x with
            | none => rfl
            | some ndl =>
              have := (h4 x ndl (h.subO l _ _ hl) (h.disjO l i x ndl hli hl)).1
              rw [hx] at this; cases this
          · rw [if_neg hji] at hx; exact h.disjO j l x nd hjl hx
      · exact ⟨rules, by rw [h2]; exact hr1, hr2.set hi hne m'⟩
      · simp [h.len]
      · refine threads_set h.len (fun j job p hji hj hp => ?_) (fun job hj => ?_)
        · unfold setNodes
          rw [if_neg hji]
          exact h.threads j job p hj hp
        · rw [hjob] at hj; cases hj
          unfold setNodes
          rw [if_pos rfl]
          exact .inr h1
      · obtain ⟨N, hN⟩ := h.bound
        exact h5 N hN
  | extract e =>
    -- a reader changes nothing
    have key : ∀ g' : Nat → Option Outcome, (∀ j, j ≠ i → g' j = g j) → m' = s.mem →
        (∃ v, (k b).reads F v ∧ ∀ w, g' i = some w → v = w) →
        Inv idna jobs rules0 g' ⟨m', s.threads.set i (k b)⟩ F Os := by
      intro g' hg hm hv
      subst hm
      refine ⟨h.subF, h.subO, h.disjF, h.disjO, ⟨rules, hr1, hr2.set hi hne _⟩, by simp [h.len], ?_, h.bound⟩
      refine threads_set h.len (fun j job p hji hj hp => ?_) (fun job hj => ?_)
      · rw [hg j hji]; exact h.threads j job p hj hp
      · rw [hjob] at hj; cases hj
        exact .inr hv
    have hload : (MProg.call o k = (Job.extract e).prog idna) →
        m' = s.mem ∧ (k b).reads F (.extracted (extract idna (buildTrie rules) e)) := by
      intro hp
      rcases job_cases idna e with ⟨v, h1, -⟩ | ⟨k', h1, h2⟩
      · rw [h1] at hp; cases hp
      · rw [h1] at hp
        cases hp
        obtain ⟨rfl, rfl⟩ := hd
        exact ⟨rfl, h2 F _ _ (Rep.of_holds hr1)⟩
    have hgoal : ∀ e', jobs[i]? = some (.extract e') → s.threads[i]? = some ((Job.extract e').prog idna) → g i = none →
        ∃ rules, Holds s.mem.nodes s.mem.root rules ∧ Installed jobs rules0 s rules ∧
          Inv idna jobs rules0 (setGoal g i (.extracted (extract idna (buildTrie rules) e')))
            ⟨m', s.threads.set i (k b)⟩ F Os := by
      intro e' he' hp _
      rw [hjob] at he'; cases he'
      rw [hi] at hp
      obtain ⟨hm, hv⟩ := hload (by simpa using hp)
      refine ⟨rules, hr1.sub h.subF, hr2, key _ (fun j hj => by simp [setGoal, hj]) hm ⟨_, hv, fun w hw => ?_⟩⟩
      simpa [setGoal] using hw
    refine ⟨F, Os, Nodes.Sub.refl F, ?_, hgoal⟩
    rcases hth with ⟨hg, hp⟩ | ⟨v, hv, hg⟩
    · obtain ⟨hm, hv⟩ := hload hp
      exact key g (fun _ _ => rfl) hm ⟨_, hv, fun w hw => by rw [hg] at hw; cases hw⟩
    · obtain ⟨hm, hk⟩ := MOp.sees_step hv h.subF hd
      exact key g (fun _ _ => rfl) hm ⟨v, hk, hg⟩

theorem Inv.steps {idna : Idna} {jobs : List Job} {rules0 : List Bytes} {g : Nat → Option Outcome} {s s' : Sys}
    {F : Nodes} {Os : Nat → Nodes} (h : Inv idna jobs rules0 g s F Os) (hs : Steps s s') :
    ∃ F' Os', F.Sub F' ∧ Inv idna jobs rules0 g s' F' Os' := by
  induction hs with
  | refl => exact ⟨F, Os, Nodes.Sub.refl F, h⟩
  | tail _ h' ih =>
    obtain ⟨F1, Os1, h1, h2⟩ := ih
    obtain ⟨F2, Os2, h3, h4, -⟩ := h2.step h'
    exact ⟨F2, Os2, h1.trans h3, h4⟩

/-- Every goroutine that is not done can go on. -/
theorem Inv.can {idna : Idna} {jobs : List Job} {rules0 : List Bytes} {g : Nat → Option Outcome} {s : Sys}
    {F : Nodes} {Os : Nat → Nodes} (h : Inv idna jobs rules0 g s F Os) {i : Nat} {β : Type} {o : MOp β}
    {k : β → MProg Outcome} (hi : s.threads[i]? = some (.call o k)) : ∃ b m', o.Does s.mem b m' := by
  have hlt : i < jobs.length := by rw [← h.len]; exact (List.getElem?_eq_some_iff.1 hi).1
  obtain ⟨job, hjob⟩ : ∃ job, jobs[i]? = some job := ⟨_, List.getElem?_eq_getElem hlt⟩
  have hth := h.threads i job _ hjob hi
  cases job with
  | update rl =>
    rcases hth with hth | hth
    · cases hth
    · exact MOp.safe_can hth (h.subO i) h.bound
  | extract e =>
    rcases hth with ⟨-, hp⟩ | ⟨v, hv, -⟩
    · rcases job_cases idna e with ⟨v, h1, -⟩ | ⟨k', h1, -⟩
      · rw [h1] at hp; cases hp
      · rw [h1] at hp
        cases hp
        exact ⟨_, _, rfl, rfl⟩
    · exact MOp.sees_can hv h.subF

/-- The start: the extractor has a list, all goroutines are about to begin. -/
structure Start (idna : Idna) (jobs : List Job) (rules0 : List Bytes) (s : Sys) : Prop where
  /-- `f.tldTrie` points to the structure for `rules0` -/
  root : Holds s.mem.nodes s.mem.root rules0
  /-- memory is finite -/
  finite : ∃ N, ∀ r, N ≤ r → s.mem.nodes r = none
  threads : s.threads = jobs.map (Job.prog idna)

theorem Start.inv {idna : Idna} {jobs : List Job} {rules0 : List Bytes} {s : Sys} (h : Start idna jobs rules0 s) :
    Inv idna jobs rules0 (fun _ => none) s s.mem.nodes (fun _ _ => none) := by
  refine ⟨Nodes.Sub.refl _, fun i r nd hr => (by cases hr), fun _ _ _ _ => rfl, fun _ _ _ _ _ _ => rfl,
    ⟨rules0, h.root, .inl rfl⟩, by simp [h.threads], fun i job p hj hp => ?_, h.finite⟩
  rw [h.threads, List.getElem?_map, hj] at hp
  cases hp
  cases job with
  | extract e => exact .inl ⟨rfl, rfl⟩
  | update rl => exact .inr (update_builds rl)

theorem Steps.trans {a b c : Sys} (h : Steps a b) (h' : Steps b c) : Steps a c := by
  induction h' with
  | refl => exact h
  | tail _ hs ih => exact .tail ih hs

/-- A goroutine that has not begun and then has: there was a first access. -/
theorem Steps.first {s s' : Sys} (h : Steps s s') {i : Nat} {p : MProg Outcome} (hp : s.threads[i]? = some p) :
    s'.threads[i]? = some p ∨ ∃ a b, Steps s a ∧ Step i a b ∧ Steps b s' ∧ a.threads[i]? = some p := by
  induction h with
  | refl => exact .inl hp
  | @tail s1 s2 j h1 h2 ih =>
    rcases ih with ih | ⟨a, b, h3, h4, h5, h6⟩
    · by_cases hij : j = i
      · subst hij; exact .inr ⟨s1, s2, h1, h2, .refl _, ih⟩
      · cases h2 with
        | mk hj hd =>
          refine .inl ?_
          dsimp only
          rw [List.getElem?_set_ne hij]; exact ih
    · exact .inr ⟨a, b, h3, h4, .tail h5 h2, h6⟩

end Fasttld
