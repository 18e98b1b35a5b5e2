import Verif.Proofs.Threads
import Verif.Model.Views

/-!
# Goroutines that share the trie, when the pointer to it synchronises

As Proofs/Threads.lean.  In addition, every Update knows all stores to its own nodes, and every pointer comes with the
knowledge of all stores to the nodes behind it.
-/

set_option linter.unusedSimpArgs false

namespace Fasttld

open Spec Trie

/-- The nodes of `F` all stores to which are known in `w`. -/
def Nodes.upto (F : Nodes) (m : VMem) (w : View) : Nodes := fun x => if (m.nodes x).length ≤ w x then F x else none

theorem upto_some {F : Nodes} {m : VMem} {w : View} {x : Ref} {nd : HNode} :
    F.upto m w x = some nd ↔ (m.nodes x).length ≤ w x ∧ F x = some nd := by
  unfold Nodes.upto
  by_cases h : (m.nodes x).length ≤ w x <;> simp [h]

theorem upto_sub {F : Nodes} {m : VMem} {w : View} : (F.upto m w).Sub F := fun _ _ h => (upto_some.1 h).2

theorem upto_mono {F F' : Nodes} {m m' : VMem} {w w' : View} (hF : F.Sub F')
    (hm : ∀ x nd, F x = some nd → m'.nodes x = m.nodes x) (hw : ∀ x, w x ≤ w' x) : (F.upto m w).Sub (F'.upto m' w') := by
  intro x nd h
  obtain ⟨h1, h2⟩ := upto_some.1 h
  exact upto_some.2 ⟨by rw [hm x nd h2]; exact Nat.le_trans h1 (hw x), hF _ _ h2⟩

/-- When all stores are known, the latest value is seen. -/
theorem Sees_latest {m : VMem} {v : View} {r : Ref} {nd : HNode} (h : m.Sees v r nd) (hv : (m.nodes r).length ≤ v r) :
    m.latest r = some nd := by
  obtain ⟨c, h1, h2⟩ := h
  obtain rfl : c = 0 := by omega
  unfold VMem.latest
  rw [List.head?_eq_getElem?]
  exact h1

theorem le_join_left (v w : View) (x : Ref) : v x ≤ v.join w x := Nat.le_max_left ..
theorem le_join_right (v w : View) (x : Ref) : w x ≤ v.join w x := Nat.le_max_right ..
theorem le_know (v : View) (r : Ref) (n : Nat) (x : Ref) : v x ≤ v.know r n x := by
  unfold View.know; split <;> omega

theorem push_length {m : VMem} {v : View} {r : Ref} {nd : HNode} {n : Nat} (hn : (m.nodes r).length + 1 ≤ n) (x : Ref)
    (h : (m.nodes x).length ≤ v x) : ((m.push r nd).nodes x).length ≤ v.know r n x := by
  unfold VMem.push View.know
  by_cases hx : x = r
  · subst hx; simp; omega
  · simp [hx, h]

/-- Knowledge grows; who knows all stores to a node still does after an access of its own. -/
theorem DoesV_view {a : Bool} {β : Type} {o : MOp β} {m m' : VMem} {v v' : View} {b : β} (h : o.DoesV a m v b m' v') :
    (∀ x, v x ≤ v' x) ∧ ∀ x, (m.nodes x).length ≤ v x → (m'.nodes x).length ≤ v' x := by
  cases o with
  | loadRoot =>
    obtain ⟨w, -, -, rfl, rfl⟩ := h
    exact ⟨le_join_left v w, fun x hx => Nat.le_trans hx (le_join_left v w x)⟩
  | storeRoot r => obtain ⟨rfl, rfl⟩ := h; exact ⟨fun _ => Nat.le_refl _, fun _ hx => hx⟩
  | alloc =>
    obtain ⟨h1, rfl, rfl⟩ := h
    exact ⟨le_know v b 1, push_length (by simp [h1])⟩
  | get r key => obtain ⟨nd, -, -, rfl, rfl⟩ := h; exact ⟨fun _ => Nat.le_refl _, fun _ hx => hx⟩
  | isEnd r => obtain ⟨nd, -, -, rfl, rfl⟩ := h; exact ⟨fun _ => Nat.le_refl _, fun _ hx => hx⟩
  | len r => obtain ⟨nd, -, -, rfl, rfl⟩ := h; exact ⟨fun _ => Nat.le_refl _, fun _ hx => hx⟩
  | scan r => obtain ⟨nd, -, -, rfl, rfl⟩ := h; exact ⟨fun _ => Nat.le_refl _, fun _ hx => hx⟩
  | set r key x => obtain ⟨nd, -, rfl, rfl⟩ := h; exact ⟨le_know v r _, push_length (Nat.le_refl _)⟩
  | setEnd r => obtain ⟨nd, -, rfl, rfl⟩ := h; exact ⟨le_know v r _, push_length (Nat.le_refl _)⟩
  | nil => exact h.elim

theorem now_push (m : VMem) (r : Ref) (nd : HNode) : (m.push r nd).now = { m.now with nodes := m.now.nodes.put r nd } := by
  unfold VMem.now VMem.push VMem.latest Nodes.put
  simp only [Mem.mk.injEq, and_true]
  funext x
  by_cases hx : x = r <;> simp [hx]

/-- An access of an Update sees the latest values. -/
theorem safe_now {a : Bool} {β : Type} {o : MOp β} {O : Nodes} {pub : Ref → β → Prop} {K : Nodes → β → Prop}
    (h : o.safe O pub K) {m m' : VMem} {v v' : View} {b : β}
    (hv : ∀ r nd, O r = some nd → (m.nodes r).length ≤ v r) (hd : o.DoesV a m v b m' v') : o.Does m.now b m'.now := by
  cases o with
  | loadRoot => exact h.elim
  | nil => exact h.elim
  | storeRoot r => obtain ⟨rfl, rfl⟩ := hd; exact rfl
  | alloc =>
    obtain ⟨h1, rfl, rfl⟩ := hd
    exact ⟨by simp [VMem.now, VMem.latest, h1], now_push ..⟩
  | get r key =>
    obtain ⟨nd, h1, -⟩ := h; obtain ⟨nd', h2, rfl, rfl, rfl⟩ := hd
    exact ⟨nd', Sees_latest h2 (hv _ _ h1), rfl, rfl⟩
  | isEnd r =>
    obtain ⟨nd, h1, -⟩ := h; obtain ⟨nd', h2, rfl, rfl, rfl⟩ := hd
    exact ⟨nd', Sees_latest h2 (hv _ _ h1), rfl, rfl⟩
  | len r =>
    obtain ⟨nd, h1, -⟩ := h; obtain ⟨nd', h2, rfl, rfl, rfl⟩ := hd
    exact ⟨nd', Sees_latest h2 (hv _ _ h1), rfl, rfl⟩
  | scan r =>
    obtain ⟨nd, h1, -⟩ := h; obtain ⟨nd', h2, h3, rfl, rfl⟩ := hd
    exact ⟨nd', Sees_latest h2 (hv _ _ h1), h3, rfl⟩
  | set r key x =>
    obtain ⟨nd, h1, -⟩ := h; obtain ⟨nd', h2, rfl, rfl⟩ := hd
    exact ⟨nd', Sees_latest h2 (hv _ _ h1), now_push ..⟩
  | setEnd r =>
    obtain ⟨nd, h1, -⟩ := h; obtain ⟨nd', h2, rfl, rfl⟩ := hd
    exact ⟨nd', Sees_latest h2 (hv _ _ h1), now_push ..⟩

/-- What an access of an Update does to memory. -/
theorem safe_DoesV {a : Bool} {β : Type} {o : MOp β} {O : Nodes} {pub : Ref → β → Prop} {K : Nodes → β → Prop}
    (h : o.safe O pub K) {m m' : VMem} {v v' : View} {b : β} (hs : O.Sub m.latest)
    (hv : ∀ r nd, O r = some nd → (m.nodes r).length ≤ v r) (hd : o.DoesV a m v b m' v') :
    (∃ r, pub r b ∧ m' = { m with root := (r, v) :: m.root } ∧ v' = v) ∨
    (∃ O', K O' b ∧ m'.root = m.root ∧ O'.Sub m'.latest ∧
      (∀ r nd, m.latest r = some nd → O r = none → O' r = none ∧ m'.nodes r = m.nodes r) ∧
      (∀ N, (∀ r, N ≤ r → m.latest r = none) → ∃ N', ∀ r, N' ≤ r → m'.latest r = none)) := by
  have hn := safe_now h hv hd
  have key : o.safe O (fun _ _ => False) K → m'.root = m.root →
      (∀ r nd, m.latest r = some nd → O r = none → m'.nodes r = m.nodes r) →
      (∃ r, pub r b ∧ m' = { m with root := (r, v) :: m.root } ∧ v' = v) ∨
      (∃ O', K O' b ∧ m'.root = m.root ∧ O'.Sub m'.latest ∧
        (∀ r nd, m.latest r = some nd → O r = none → O' r = none ∧ m'.nodes r = m.nodes r) ∧
        (∀ N, (∀ r, N ≤ r → m.latest r = none) → ∃ N', ∀ r, N' ≤ r → m'.latest r = none)) := by
    intro h' hr hu
    rcases MOp.safe_step h' hs hn with ⟨r, h1, -⟩ | ⟨O', h1, -, h3, h4, h5⟩
    · exact h1.elim
    · exact .inr ⟨O', h1, hr, h3, fun r nd hx hO => ⟨(h4 r nd hx hO).1, hu r nd hx hO⟩, h5⟩
  have hpush : ∀ x nd0 nd, O x = some nd0 → ∀ r ndr, m.latest r = some ndr → O r = none → (m.push x nd).nodes r = m.nodes r := by
    intro x nd0 nd hx r ndr _ hO
    have : r ≠ x := by rintro rfl; rw [hx] at hO; cases hO
    simp [VMem.push, this]
  cases o with
  | loadRoot => exact h.elim
  | nil => exact h.elim
  | storeRoot r => exact .inl ⟨r, h, hd.1, hd.2⟩
  | alloc =>
    obtain ⟨h1, rfl, rfl⟩ := hd
    refine key h rfl fun r nd hr _ => ?_
    have : r ≠ b := by rintro rfl; simp [VMem.latest, h1] at hr
    simp [VMem.push, this]
  | get r key' => obtain ⟨nd', h2, rfl, rfl, rfl⟩ := hd; exact key h rfl fun _ _ _ _ => rfl
  | isEnd r => obtain ⟨nd', h2, rfl, rfl, rfl⟩ := hd; exact key h rfl fun _ _ _ _ => rfl
  | len r => obtain ⟨nd', h2, rfl, rfl, rfl⟩ := hd; exact key h rfl fun _ _ _ _ => rfl
  | scan r => obtain ⟨nd', h2, h3, rfl, rfl⟩ := hd; exact key h rfl fun _ _ _ _ => rfl
  | set r key' x =>
    obtain ⟨nd', h2, rfl, rfl⟩ := hd; obtain ⟨nd, h1, -⟩ := id h
    exact key h rfl (hpush _ _ _ h1)
  | setEnd r =>
    obtain ⟨nd', h2, rfl, rfl⟩ := hd; obtain ⟨nd, h1, -⟩ := id h
    exact key h rfl (hpush _ _ _ h1)

/-- A reader of nodes all stores to which it knows sees the latest values, and changes nothing. -/
theorem sees_DoesV {a : Bool} {β : Type} {o : MOp β} {F : Nodes} {K : β → Prop} {m m' : VMem} {v v' : View} {b : β}
    (h : o.sees (F.upto m v) K) (hs : F.Sub m.latest) (hd : o.DoesV a m v b m' v') :
    m' = m ∧ v' = v ∧ K b ∧ o.Does m.now b m'.now := by
  have key : ∀ {r nd nd'}, F.upto m v r = some nd → m.Sees v r nd' → m.latest r = some nd' ∧ nd' = nd := by
    intro r nd nd' h1 h2
    obtain ⟨h3, h4⟩ := upto_some.1 h1
    have h5 := Sees_latest h2 h3
    refine ⟨h5, ?_⟩
    rw [hs _ _ h4] at h5; cases h5; rfl
  cases o <;> simp only [MOp.sees] at h <;> obtain ⟨nd, h1, h2⟩ := h <;>
    obtain ⟨nd', h3, rfl, rfl, rfl⟩ := hd <;> obtain ⟨h4, rfl⟩ := key h1 h3 <;> exact ⟨rfl, rfl, h2, nd', h4, rfl, rfl⟩

/-! ## The invariant -/

/-- The list was there at the start, or an Update that is done put it there. -/
def InstalledV (jobs : List Job) (rules0 : List Bytes) (ts : List (MProg Outcome)) (rules : List Bytes) : Prop :=
  rules = rules0 ∨ ∃ j : Nat, jobs[j]? = some (.update rules) ∧ ts[j]? = some (.ret .updated)

theorem InstalledV.set {jobs : List Job} {rules0 rules : List Bytes} {ts : List (MProg Outcome)} (h : InstalledV jobs rules0 ts rules)
    {i : Nat} {p p' : MProg Outcome} (hi : ts[i]? = some p) (hp : p ≠ .ret .updated) :
    InstalledV jobs rules0 (ts.set i p') rules := by
  rcases h with h | ⟨j, h1, h2⟩
  · exact .inl h
  · refine .inr ⟨j, h1, ?_⟩
    have hij : i ≠ j := by rintro rfl; rw [hi] at h2; cases h2; exact hp rfl
    simp only [List.getElem?_set_ne hij, h2]

structure VInv (idna : Idna) (jobs : List Job) (rules0 : List Bytes) (g : Nat → Option Outcome) (s : VSys)
    (F : Nodes) (Os : Nat → Nodes) : Prop where
  subF : F.Sub s.mem.latest
  subO : ∀ i, (Os i).Sub s.mem.latest
  disjF : ∀ i r nd, F r = some nd → Os i r = none
  disjO : ∀ i j r nd, i ≠ j → Os i r = some nd → Os j r = none
  own : ∀ i r nd, Os i r = some nd → (s.mem.nodes r).length ≤ s.views i r
  roots : ∀ r w, (r, w) ∈ s.mem.root → ∃ rules, Holds (F.upto s.mem w) r rules ∧ InstalledV jobs rules0 s.threads rules
  nonempty : s.mem.root ≠ []
  len : s.threads.length = jobs.length
  threads : ∀ i job p, jobs[i]? = some job → s.threads[i]? = some p →
    ThreadOK idna (F.upto s.mem (s.views i)) (Os i) (g i) job p
  bound : ∃ N, ∀ r, N ≤ r → s.mem.latest r = none

theorem VInv.step {a : Bool} {idna : Idna} {jobs : List Job} {rules0 : List Bytes} {g : Nat → Option Outcome} {s s' : VSys}
    {F : Nodes} {Os : Nat → Nodes} (h : VInv idna jobs rules0 g s F Os) {i : Nat} (hs : VStep a i s s') :
    ∃ F' Os', VInv idna jobs rules0 g s' F' Os' ∧ (a = true → Step i s.now s'.now) ∧
      (∀ e, jobs[i]? = some (.extract e) → s.threads[i]? = some ((Job.extract e).prog idna) → g i = none →
        ∃ rules, InstalledV jobs rules0 s.threads rules ∧
          VInv idna jobs rules0 (setGoal g i (.extracted (extract idna (buildTrie rules) e))) s' F' Os') := by
  cases hs with
  | @mk β o k b m' v' hi hd =>
  have hlt : i < jobs.length := by rw [← h.len]; exact (List.getElem?_eq_some_iff.1 hi).1
  obtain ⟨job, hjob⟩ : ∃ job, jobs[i]? = some job := ⟨_, List.getElem?_eq_getElem hlt⟩
  have hth := h.threads i job _ hjob hi
  have hne : MProg.call o k ≠ MProg.ret Outcome.updated := by intro hc; cases hc
  obtain ⟨hview, hall⟩ := DoesV_view hd
  have hviews : ∀ j x, s.views j x ≤ (if j = i then v' else s.views j) x := by
    intro j x
    by_cases hji : j = i
    · subst hji; rw [if_pos rfl]; exact hview x
    · rw [if_neg hji]; exact Nat.le_refl _
  have hstep : o.Does s.mem.now b m'.now → Step i s.now (VSys.now ⟨m', s.threads.set i (k b), fun j => if j = i then v' else s.views j⟩) :=
    fun hd => .mk (s := s.now) hi hd
  cases job with
  | update rl =>
    have hno : ∀ e, jobs[i]? ≠ Option.some (.extract e) := by intro e hc; rw [hjob] at hc; cases hc
    rcases hth with hth | hth
    · cases hth
    have hnow := hstep (safe_now hth (h.own i) hd)
    rcases safe_DoesV hth (h.subO i) (h.own i) hd with ⟨r, ⟨h1, h2⟩, rfl, rfl⟩ | ⟨O', h1, h2, h3, h4, h5⟩
    · -- the structure is published
      have hsF : F.Sub (F.join (Os i)) := by intro x nd hx; simp [Nodes.join, hx]
      have hsO : (Os i).Sub (F.join (Os i)) := by
        intro x nd hx
        cases hf : F x with
        | none => simp [Nodes.join, hf, hx]
        | some nd' => have := h.disjF i x nd' hf; rw [hx] at this; cases this
      have hj : ∀ x nd, F.join (Os i) x = .some nd → F x = .some nd ∨ Os i x = .some nd := by
        intro x nd hx
        unfold Nodes.join at hx
        cases hf : F x with
        | none => rw [hf] at hx; exact .inr hx
        | some nd' => rw [hf] at hx; exact .inl hx
      have hsU : ∀ w w' : View, (∀ x, w x ≤ w' x) →
          (F.upto s.mem w).Sub ((F.join (Os i)).upto { s.mem with root := (r, s.views i) :: s.mem.root } w') :=
        fun w w' hw => upto_mono hsF (fun _ _ _ => rfl) hw
      refine ⟨F.join (Os i), setNodes Os i (fun _ => none), ⟨?_, ?_, ?_, ?_, ?_, ?_, by simp, ?_, ?_, h.bound⟩, fun _ => hnow,
        fun e he => absurd he (hno e)⟩
      · intro x nd hx
        rcases hj x nd hx with hx | hx
        · exact h.subF _ _ hx
        · exact h.subO i _ _ hx
      · intro j x nd hx
        unfold setNodes at hx
        by_cases hji : j = i
        · rw [if_pos hji] at hx; cases hx
        · rw [if_neg hji] at hx; exact h.subO j _ _ hx
      · intro j x nd hx
        unfold setNodes
        by_cases hji : j = i
        · rw [if_pos hji]
        · rw [if_neg hji]
          rcases hj x nd hx with hx | hx
          · exact h.disjF _ _ _ hx
          · exact h.disjO i j x nd (fun hc => hji hc.symm) hx
      · intro j l x nd hjl hx
        unfold setNodes at hx ⊢
        by_cases hli : l = i
        · rw [if_pos hli]
        · rw [if_neg hli]
          by_cases hji : j = i
          · rw [if_pos hji] at hx; cases hx
          · rw [if_neg hji] at hx; exact h.disjO j l x nd hjl hx
      · intro j x nd hx
        unfold setNodes at hx
        by_cases hji : j = i
        · rw [if_pos hji] at hx; cases hx
        · rw [if_neg hji] at hx
          exact Nat.le_trans (h.own j _ _ hx) (hviews j x)
      · intro x w hx
        rcases List.mem_cons.1 hx with hx | hx
        · cases hx
          refine ⟨rl, h1.sub ?_, .inr ⟨i, hjob, ?_⟩⟩
          · intro x nd hx
            exact upto_some.2 ⟨h.own i _ _ hx, hsO _ _ hx⟩
          · dsimp only
            rw [List.getElem?_set_self (by rw [h.len]; exact hlt), h2]
        · obtain ⟨rules, hr1, hr2⟩ := h.roots x w hx
          exact ⟨rules, hr1.sub (hsU w w fun _ => Nat.le_refl _), hr2.set hi hne⟩
      · simp [h.len]
      · refine threads_set h.len (fun j job p hji hj hp => ?_) (fun job hj => ?_)
        · unfold setNodes
          rw [if_neg hji]
          exact (h.threads j job p hj hp).mono (hsU _ _ (hviews j))
        · rw [hjob] at hj; cases hj
          exact .inl h2
    · -- more of the structure is built
      have hF : ∀ x nd, F x = .some nd → m'.nodes x = s.mem.nodes x := fun x nd hx =>
        (h4 x nd (h.subF _ _ hx) (h.disjF _ _ _ hx)).2
      have hl : ∀ x, m'.nodes x = s.mem.nodes x → m'.latest x = s.mem.latest x := by
        intro x hx; unfold VMem.latest; rw [hx]
      have hsU : ∀ w w' : View, (∀ x, w x ≤ w' x) → (F.upto s.mem w).Sub (F.upto m' w') :=
        fun w w' hw => upto_mono (Nodes.Sub.refl F) hF hw
      have hold : ∀ x nd, O' x = .some nd → (s.mem.nodes x).length ≤ s.views i x := by
        intro x nd hx
        cases hO : Os i x with
        | some nd' => exact h.own i _ _ hO
        | none =>
          cases hm : s.mem.latest x with
          | none =>
            unfold VMem.latest at hm
            rw [List.head?_eq_none_iff.1 hm]; exact Nat.zero_le _
          | some nd' => rw [(h4 x nd' hm hO).1] at hx; cases hx
      refine ⟨F, setNodes Os i O', ⟨?_, ?_, ?_, ?_, ?_, ?_, by rw [h2]; exact h.nonempty, ?_, ?_, ?_⟩, fun _ => hnow,
        fun e he => absurd he (hno e)⟩
      · intro x nd hx
        rw [hl x (hF x nd hx)]; exact h.subF _ _ hx
      · intro j x nd hx
        unfold setNodes at hx
        by_cases hji : j = i
        · rw [if_pos hji] at hx; exact h3 _ _ hx
        · rw [if_neg hji] at hx
          have hx' := h.subO j _ _ hx
          rw [hl x (h4 x nd hx' (h.disjO j i x nd hji hx)).2]; exact hx'
      · intro j x nd hx
        unfold setNodes
        by_cases hji : j = i
        · rw [if_pos hji]; exact (h4 x nd (h.subF _ _ hx) (h.disjF _ _ _ hx)).1
        · rw [if_neg hji]; exact h.disjF _ _ _ hx
      · intro j l x nd hjl hx
        unfold setNodes at hx ⊢
        by_cases hli : l = i
        · rw [if_pos hli]
          have hji : j ≠ i := by rintro rfl; exact hjl hli.symm
          rw [if_neg hji] at hx
          exact (h4 x nd (h.subO j _ _ hx) (h.disjO j i x nd hji hx)).1
        · rw [if_neg hli]
          by_cases hji : j = i
          · rw [if_pos hji] at hx
            cases hl : Os l x with
            | none => rfl
            | some ndl =>
              have := (h4 x ndl (h.subO l _ _ hl) (h.disjO l i x ndl hli hl)).1
              rw [hx] at this; cases this
          · rw [if_neg hji] at hx; exact h.disjO j l x nd hjl hx
      · intro j x nd hx
        unfold setNodes at hx
        by_cases hji : j = i
        · rw [if_pos hji] at hx
          dsimp only
          rw [if_pos hji]
          exact hall x (hold x nd hx)
        · rw [if_neg hji] at hx
          dsimp only
          rw [if_neg hji, (h4 x nd (h.subO j _ _ hx) (h.disjO j i x nd hji hx)).2]
          exact h.own j _ _ hx
      · intro x w hx
        dsimp only at hx
        rw [h2] at hx
        obtain ⟨rules, hr1, hr2⟩ := h.roots x w hx
        exact ⟨rules, hr1.sub (hsU w w fun _ => Nat.le_refl _), hr2.set hi hne⟩
      · simp [h.len]
      · refine threads_set h.len (fun j job p hji hj hp => ?_) (fun job hj => ?_)
        · unfold setNodes
          rw [if_neg hji]
          exact (h.threads j job p hj hp).mono (hsU _ _ (hviews j))
        · rw [hjob] at hj; cases hj
          unfold setNodes
          rw [if_pos rfl]
          exact .inr h1
      · obtain ⟨N, hN⟩ := h.bound
        exact h5 N hN
  | extract e =>
    -- a reader changes nothing
    have key : ∀ g' : Nat → Option Outcome, (∀ j, j ≠ i → g' j = g j) → m' = s.mem →
        (∃ v, (k b).reads (F.upto s.mem v') v ∧ ∀ w, g' i = .some w → v = w) →
        VInv idna jobs rules0 g' ⟨m', s.threads.set i (k b), fun j => if j = i then v' else s.views j⟩ F Os := by
      intro g' hg hm hv
      subst hm
      refine ⟨h.subF, h.subO, h.disjF, h.disjO, fun j x nd hx => Nat.le_trans (h.own j _ _ hx) (hviews j x), ?_, h.nonempty,
        by simp [h.len], ?_, h.bound⟩
      · intro x w hx
        obtain ⟨rules, hr1, hr2⟩ := h.roots x w hx
        exact ⟨rules, hr1, hr2.set hi hne⟩
      refine threads_set h.len (fun j job p hji hj hp => ?_) (fun job hj => ?_)
      · rw [hg j hji]; exact (h.threads j job p hj hp).mono (upto_mono (Nodes.Sub.refl F) (fun _ _ _ => rfl) (hviews j))
      · rw [hjob] at hj; cases hj
        dsimp only
        rw [if_pos rfl]
        exact .inr hv
    have hload : (MProg.call o k = (Job.extract e).prog idna) →
        m' = s.mem ∧ (a = true → o.Does s.mem.now b m'.now) ∧ ∃ rules, InstalledV jobs rules0 s.threads rules ∧
          (k b).reads (F.upto s.mem v') (.extracted (extract idna (buildTrie rules) e)) := by
      intro hp
      rcases job_cases idna e with ⟨v, h1, -⟩ | ⟨k', h1, h2⟩
      · rw [h1] at hp; cases hp
      · rw [h1] at hp
        cases hp
        obtain ⟨w, hw1, hw2, rfl, rfl⟩ := hd
        obtain ⟨rules, hr1, hr2⟩ := h.roots _ _ hw1
        refine ⟨rfl, fun ha => ⟨?_, rfl⟩, rules, hr2, ?_⟩
        · simp [VMem.now, hw2 ha]
        · exact MProg.reads_mono (upto_mono (Nodes.Sub.refl F) (fun _ _ _ => rfl) (le_join_right _ w)) (h2 _ _ _ (Rep.of_holds hr1))
    have hgoal : ∀ e', jobs[i]? = .some (.extract e') → s.threads[i]? = .some ((Job.extract e').prog idna) → g i = none →
        ∃ rules, InstalledV jobs rules0 s.threads rules ∧
          VInv idna jobs rules0 (setGoal g i (.extracted (extract idna (buildTrie rules) e')))
            ⟨m', s.threads.set i (k b), fun j => if j = i then v' else s.views j⟩ F Os := by
      intro e' he' hp _
      rw [hjob] at he'; cases he'
      rw [hi] at hp
      obtain ⟨hm, -, rules, hr, hv⟩ := hload (by simpa using hp)
      refine ⟨rules, hr, key _ (fun j hj => by simp [setGoal, hj]) hm ⟨_, hv, fun w hw => ?_⟩⟩
      simpa [setGoal] using hw
    rcases hth with ⟨hg, hp⟩ | ⟨v, hv, hg⟩
    · obtain ⟨hm, hd', rules, -, hv⟩ := hload hp
      exact ⟨F, Os, key g (fun _ _ => rfl) hm ⟨_, hv, fun w hw => by rw [hg] at hw; cases hw⟩, fun ha => hstep (hd' ha), hgoal⟩
    · obtain ⟨hm, rfl, hk, hd'⟩ := sees_DoesV hv h.subF hd
      exact ⟨F, Os, key g (fun _ _ => rfl) hm ⟨v, hk, hg⟩, fun _ => hstep hd', hgoal⟩

theorem VInv.steps {a : Bool} {idna : Idna} {jobs : List Job} {rules0 : List Bytes} {g : Nat → Option Outcome} {s s' : VSys}
    {F : Nodes} {Os : Nat → Nodes} (h : VInv idna jobs rules0 g s F Os) (hs : VSteps a s s') :
    (∃ F' Os', VInv idna jobs rules0 g s' F' Os') ∧ (a = true → Steps s.now s'.now) := by
  induction hs with
  | refl => exact ⟨⟨F, Os, h⟩, fun _ => .refl _⟩
  | tail _ h' ih =>
    obtain ⟨⟨F1, Os1, h2⟩, h3⟩ := ih
    obtain ⟨F2, Os2, h4, h5, -⟩ := h2.step h'
    exact ⟨⟨F2, Os2, h4⟩, fun ha => .tail (h3 ha) (h5 ha)⟩

/-- No view knows of more stores than there are. -/
structure VLe (s : VSys) : Prop where
  views : ∀ i x, s.views i x ≤ (s.mem.nodes x).length
  roots : ∀ r w, (r, w) ∈ s.mem.root → ∀ x, w x ≤ (s.mem.nodes x).length

theorem push_le (m : VMem) (r : Ref) (nd : HNode) (x : Ref) : (m.nodes x).length ≤ ((m.push r nd).nodes x).length := by
  unfold VMem.push
  by_cases hx : x = r <;> simp [hx]

theorem know_le {m : VMem} {v : View} {r : Ref} {nd : HNode} {n : Nat} (hn : n ≤ (m.nodes r).length + 1)
    (hv : ∀ x, v x ≤ (m.nodes x).length) (x : Ref) : v.know r n x ≤ ((m.push r nd).nodes x).length := by
  have := hv x
  unfold VMem.push View.know
  by_cases hx : x = r
  · subst hx; simp; omega
  · simp [hx]; exact this

theorem DoesV_le {a : Bool} {β : Type} {o : MOp β} {m m' : VMem} {v v' : View} {b : β} (h : o.DoesV a m v b m' v')
    (hv : ∀ x, v x ≤ (m.nodes x).length) (hr : ∀ r w, (r, w) ∈ m.root → ∀ x, w x ≤ (m.nodes x).length) :
    (∀ x, (m.nodes x).length ≤ (m'.nodes x).length) ∧ (∀ x, v' x ≤ (m'.nodes x).length) ∧
      ∀ r w, (r, w) ∈ m'.root → ∀ x, w x ≤ (m'.nodes x).length := by
  cases o with
  | loadRoot =>
    obtain ⟨w, h1, -, rfl, rfl⟩ := h
    exact ⟨fun _ => Nat.le_refl _, fun x => Nat.max_le.2 ⟨hv x, hr _ _ h1 x⟩, hr⟩
  | storeRoot r =>
    obtain ⟨rfl, rfl⟩ := h
    refine ⟨fun _ => Nat.le_refl _, hv, fun x w hx => ?_⟩
    rcases List.mem_cons.1 hx with hx | hx
    · cases hx; exact hv
    · exact hr _ _ hx
  | alloc =>
    obtain ⟨h1, rfl, rfl⟩ := h
    exact ⟨push_le m b _, know_le (by omega) hv, fun r w hx x => Nat.le_trans (hr r w hx x) (push_le ..)⟩
  | get r key => obtain ⟨nd, -, -, rfl, rfl⟩ := h; exact ⟨fun _ => Nat.le_refl _, hv, hr⟩
  | isEnd r => obtain ⟨nd, -, -, rfl, rfl⟩ := h; exact ⟨fun _ => Nat.le_refl _, hv, hr⟩
  | len r => obtain ⟨nd, -, -, rfl, rfl⟩ := h; exact ⟨fun _ => Nat.le_refl _, hv, hr⟩
  | scan r => obtain ⟨nd, -, -, rfl, rfl⟩ := h; exact ⟨fun _ => Nat.le_refl _, hv, hr⟩
  | set r key x =>
    obtain ⟨nd, -, rfl, rfl⟩ := h
    exact ⟨push_le m r _, know_le (Nat.le_refl _) hv, fun y w hx z => Nat.le_trans (hr y w hx z) (push_le ..)⟩
  | setEnd r =>
    obtain ⟨nd, -, rfl, rfl⟩ := h
    exact ⟨push_le m r _, know_le (Nat.le_refl _) hv, fun y w hx z => Nat.le_trans (hr y w hx z) (push_le ..)⟩
  | nil => exact h.elim

theorem VLe.steps {a : Bool} {s s' : VSys} (h : VLe s) (hs : VSteps a s s') : VLe s' := by
  induction hs with
  | refl => exact h
  | tail _ h' ih =>
    cases h' with
    | @mk β o k b m' v' hi hd =>
      obtain ⟨h1, h2, h3⟩ := DoesV_le hd (ih.views _) ih.roots
      refine ⟨fun j x => ?_, h3⟩
      dsimp only
      split
      · exact h2 x
      · exact Nat.le_trans (ih.views j x) (h1 x)

/-- Every goroutine that is not done can go on. -/
theorem VInv.can {idna : Idna} {jobs : List Job} {rules0 : List Bytes} {g : Nat → Option Outcome} {s : VSys}
    {F : Nodes} {Os : Nat → Nodes} (h : VInv idna jobs rules0 g s F Os) {i : Nat} {β : Type} {o : MOp β}
    (hle : VLe s)
    {k : β → MProg Outcome} (hi : s.threads[i]? = Option.some (.call o k)) (a : Bool) :
    ∃ b m' v', o.DoesV a s.mem (s.views i) b m' v' := by
  have hlt : i < jobs.length := by rw [← h.len]; exact (List.getElem?_eq_some_iff.1 hi).1
  obtain ⟨job, hjob⟩ : ∃ job, jobs[i]? = some job := ⟨_, List.getElem?_eq_getElem hlt⟩
  have hth := h.threads i job _ hjob hi
  have see : ∀ {r nd}, s.mem.latest r = Option.some nd → s.mem.Sees (s.views i) r nd := by
    intro r nd hr
    refine ⟨0, ?_, by have := hle.views i r; omega⟩
    unfold VMem.latest at hr
    rwa [List.head?_eq_getElem?] at hr
  cases job with
  | update rl =>
    rcases hth with hth | hth
    · cases hth
    have hO := h.subO i
    obtain ⟨b, m', hd⟩ := MOp.safe_can hth (m := s.mem.now) hO h.bound
    cases o with
    | loadRoot => exact hth.elim
    | nil => exact hth.elim
    | storeRoot r => exact ⟨(), _, _, rfl, rfl⟩
    | alloc => exact ⟨b, _, _, List.head?_eq_none_iff.1 hd.1, rfl, rfl⟩
    | get r key => obtain ⟨nd, h1, -⟩ := hd; exact ⟨_, _, _, nd, see h1, rfl, rfl, rfl⟩
    | isEnd r => obtain ⟨nd, h1, -⟩ := hd; exact ⟨_, _, _, nd, see h1, rfl, rfl, rfl⟩
    | len r => obtain ⟨nd, h1, -⟩ := hd; exact ⟨_, _, _, nd, see h1, rfl, rfl, rfl⟩
    | scan r => obtain ⟨nd, h1, -⟩ := hd; exact ⟨_, _, _, nd, see h1, List.Perm.refl _, rfl, rfl⟩
    | set r key x => obtain ⟨nd, h1, -⟩ := hd; exact ⟨(), _, _, nd, see h1, rfl, rfl⟩
    | setEnd r => obtain ⟨nd, h1, -⟩ := hd; exact ⟨(), _, _, nd, see h1, rfl, rfl⟩
  | extract e =>
    rcases hth with ⟨-, hp⟩ | ⟨v, hv, -⟩
    · rcases job_cases idna e with ⟨v, h1, -⟩ | ⟨k', h1, -⟩
      · rw [h1] at hp; cases hp
      · rw [h1] at hp
        cases hp
        obtain ⟨⟨r, w⟩, rest, hr⟩ := List.exists_cons_of_ne_nil h.nonempty
        exact ⟨r, _, _, w, by simp [hr], fun _ => by simp [hr], rfl, rfl⟩
    · simp only [MProg.reads] at hv
      cases o <;> simp only [MOp.sees] at hv <;> obtain ⟨nd, h1, -⟩ := hv <;>
        exact ⟨_, _, _, nd, see (h.subF _ _ (upto_sub _ _ h1)), rfl, rfl, rfl⟩

/-- The start: the extractor has a list, all goroutines are about to begin and know of no store. -/
structure VStart (idna : Idna) (jobs : List Job) (rules0 : List Bytes) (s : VSys) : Prop where
  /-- `f.tldTrie` points to the structure for `rules0`, and comes with the knowledge of it -/
  root : ∃ r, s.mem.root = [(r, fun x => (s.mem.nodes x).length)] ∧ Holds s.mem.latest r rules0
  /-- memory is finite -/
  finite : ∃ N, ∀ r, N ≤ r → s.mem.nodes r = []
  threads : s.threads = jobs.map (Job.prog idna)
  views : s.views = fun _ _ => 0

theorem VStart.le {idna : Idna} {jobs : List Job} {rules0 : List Bytes} {s : VSys} (h : VStart idna jobs rules0 s) : VLe s := by
  obtain ⟨r, hr, -⟩ := h.root
  refine ⟨fun i x => by rw [h.views]; exact Nat.zero_le _, fun x w hx y => ?_⟩
  rw [hr, List.mem_singleton] at hx
  cases hx; exact Nat.le_refl _

theorem VStart.start {idna : Idna} {jobs : List Job} {rules0 : List Bytes} {s : VSys} (h : VStart idna jobs rules0 s) :
    Start idna jobs rules0 s.now := by
  obtain ⟨r, hr, hh⟩ := h.root
  refine ⟨?_, ?_, h.threads⟩
  · simp only [VSys.now, VMem.now, hr]; exact hh
  · obtain ⟨N, hN⟩ := h.finite
    exact ⟨N, fun x hx => by simp [VSys.now, VMem.now, VMem.latest, hN x hx]⟩

theorem VStart.inv {idna : Idna} {jobs : List Job} {rules0 : List Bytes} {s : VSys} (h : VStart idna jobs rules0 s) :
    VInv idna jobs rules0 (fun _ => none) s s.mem.latest (fun _ _ => none) := by
  obtain ⟨r, hr, hh⟩ := h.root
  refine ⟨Nodes.Sub.refl _, fun i r nd hr => (by cases hr), fun _ _ _ _ => rfl, fun _ _ _ _ _ _ => rfl,
    fun _ _ _ hx => (by cases hx), fun x w hx => ?_, by simp [hr], by simp [h.threads], fun i job p hj hp => ?_, h.start.finite⟩
  · rw [hr, List.mem_singleton] at hx
    cases hx
    exact ⟨rules0, hh.sub fun x nd hx => upto_some.2 ⟨Nat.le_refl _, hx⟩, .inl rfl⟩
  · rw [h.threads, List.getElem?_map, hj] at hp
    cases hp
    cases job with
    | extract e => exact .inl ⟨rfl, rfl⟩
    | update rl => exact .inr (update_builds rl)

theorem VSteps.trans {a : Bool} {x y z : VSys} (h : VSteps a x y) (h' : VSteps a y z) : VSteps a x z := by
  induction h' with
  | refl => exact h
  | tail _ hs ih => exact .tail ih hs

/-- A goroutine that has not begun and then has: there was a first access. -/
theorem VSteps.first {a : Bool} {s s' : VSys} (h : VSteps a s s') {i : Nat} {p : MProg Outcome} (hp : s.threads[i]? = some p) :
    s'.threads[i]? = some p ∨ ∃ x y, VSteps a s x ∧ VStep a i x y ∧ VSteps a y s' ∧ x.threads[i]? = some p := by
  induction h with
  | refl => exact .inl hp
  | @tail s1 s2 j h1 h2 ih =>
    rcases ih with ih | ⟨x, y, h3, h4, h5, h6⟩
    · by_cases hij : j = i
      · subst hij; exact .inr ⟨s1, s2, h1, h2, .refl _, ih⟩
      · cases h2 with
        | mk hj hd =>
          refine .inl ?_
          dsimp only
          rw [List.getElem?_set_ne hij]; exact ih
    · exact .inr ⟨x, y, h3, h4, .tail h5 h2, h6⟩

end Fasttld
