import Verif.Spec.Memory
import Verif.Proofs.Trie

/-!
# The trie in memory

Reading the structure in memory gives what reading the trie value gives, and the construction in place gives the
structure for the list.
-/

set_option linter.unusedSimpArgs false

namespace Fasttld

open Spec Trie

/-! ## Association lists -/

theorem hget_hset (ks : List (Bytes × Ref)) (k : Bytes) (v : Ref) (k' : Bytes) :
    hget (hset ks k v) k' = if k' = k then some v else hget ks k' := by
  induction ks with
  | nil => simp only [hset, hget, eq_comm]
  | cons e ks ih =>
    obtain ⟨a, w⟩ := e
    by_cases h : a = k
    · subst h
      simp only [hset, if_pos, hget]
      by_cases h2 : a = k' <;> simp [h2, eq_comm]
      intro hc; exact absurd hc.symm h2
    · simp only [hset, if_neg h, hget, ih]
      by_cases h2 : a = k'
      · subst h2; simp [h]
      · simp [h2]

theorem hget_mem {ks : List (Bytes × Ref)} {k : Bytes} {v : Ref} (h : hget ks k = some v) : (k, v) ∈ ks := by
  induction ks with
  | nil => simp [hget] at h
  | cons e ks ih =>
    obtain ⟨a, w⟩ := e
    by_cases h2 : a = k
    · simp [hget, h2] at h; simp [h2, h]
    · simp only [hget, if_neg h2] at h
      exact List.mem_cons_of_mem _ (ih h)

theorem hget_length (ks : List (Bytes × Ref)) : ks.length = 0 ↔ ∀ l, hget ks l = none := by
  cases ks with
  | nil => simp [hget]
  | cons p ks =>
    obtain ⟨k, v⟩ := p
    simp only [List.length_cons, Nat.add_eq_zero_iff, Nat.succ_ne_self, and_false, false_iff]
    intro hc
    have := hc k
    simp [hget] at this

/-- Every entry is the one its key finds. -/
def KeysUnique (ks : List (Bytes × Ref)) : Prop := ∀ e ∈ ks, hget ks e.1 = some e.2

theorem hset_new {ks : List (Bytes × Ref)} {k : Bytes} {v : Ref} (h : hget ks k = none) :
    hset ks k v = ks ++ [(k, v)] := by
  induction ks with
  | nil => rfl
  | cons e ks ih =>
    obtain ⟨a, w⟩ := e
    by_cases h2 : a = k
    · simp [hget, h2] at h
    · simp only [hget, if_neg h2] at h
      simp [hset, if_neg h2, ih h]

theorem KeysUnique.hset {ks : List (Bytes × Ref)} (hu : KeysUnique ks) {k : Bytes} {v : Ref} (h : hget ks k = none) :
    KeysUnique (hset ks k v) := by
  intro e he
  rw [hget_hset]
  rw [hset_new h, List.mem_append, List.mem_singleton] at he
  rcases he with he | rfl
  · have h1 := hu e he
    by_cases h2 : e.1 = k
    · rw [h2, h] at h1; exact absurd h1 (by simp)
    · rw [if_neg h2, h1]
  · simp

/-! ## Memory -/

theorem put_same (m : Nodes) (r : Ref) (nd : HNode) : m.put r nd r = some nd := by simp [Nodes.put]

theorem put_other (m : Nodes) {r x : Ref} (nd : HNode) (h : x ≠ r) : m.put r nd x = m x := by simp [Nodes.put, h]

theorem Nodes.Sub.refl (m : Nodes) : m.Sub m := fun _ _ h => h

theorem Nodes.Sub.trans {a b c : Nodes} (h : a.Sub b) (h' : b.Sub c) : a.Sub c := fun r nd x => h' r nd (h r nd x)

theorem find_snoc (m : Nodes) (r : Ref) (p : List Bytes) (l : Bytes) :
    m.find r (p ++ [l]) = (m.find r p).bind fun x => (m x).bind fun nd => (hget nd.kids l).bind fun y =>
      (m y).map fun _ => y := by
  induction p generalizing r with
  | nil =>
    simp only [List.nil_append, Nodes.find]
    cases h : m r with
    | none => rfl
    | some nd => simp [h]
  | cons k p ih =>
    simp only [List.cons_append, Nodes.find]
    cases h : m r with
    | none => rfl
    | some nd =>
      simp only [Option.bind_some]
      cases hget nd.kids k with
      | none => rfl
      | some y => simp only [Option.bind_some]; exact ih y

theorem find_some {m : Nodes} {r x : Ref} {p : List Bytes} (h : m.find r p = some x) : ∃ nd, m x = some nd := by
  induction p generalizing r with
  | nil =>
    simp only [Nodes.find, Option.map_eq_some_iff] at h
    obtain ⟨nd, h1, rfl⟩ := h
    exact ⟨nd, h1⟩
  | cons l p ih =>
    simp only [Nodes.find, Option.bind_eq_some_iff] at h
    obtain ⟨nd, -, y, -, h2⟩ := h
    exact ih h2

theorem find_append (m : Nodes) (r : Ref) (p q : List Bytes) :
    m.find r (p ++ q) = (m.find r p).bind fun x => m.find x q := by
  induction p generalizing r with
  | nil =>
    simp only [List.nil_append, Nodes.find]
    cases h : m r with
    | none => cases q <;> simp [Nodes.find, h]
    | some nd => simp
  | cons k p ih =>
    simp only [List.cons_append, Nodes.find]
    cases h : m r with
    | none => rfl
    | some nd =>
      simp only [Option.bind_some]
      cases hget nd.kids k with
      | none => rfl
      | some y => simp only [Option.bind_some]; exact ih y

theorem Nodes.Closed.child {m : Nodes} {r y : Ref} {nd : HNode} {l : Bytes} (h : m.Closed r) (hr : m r = some nd)
    (hl : hget nd.kids l = some y) : m.Closed y := by
  intro p x nd' hx hn
  refine h (l :: p) x nd' ?_ hn
  simp [Nodes.find, hr, hl, hx]

theorem find_sub {m m' : Nodes} (hs : m.Sub m') {r : Ref} (hr : (m r).isSome = true) (hc : m.Closed r)
    (p : List Bytes) : m'.find r p = m.find r p := by
  induction p generalizing r with
  | nil =>
    obtain ⟨nd, h⟩ := Option.isSome_iff_exists.1 hr
    simp [Nodes.find, h, hs r nd h]
  | cons l p ih =>
    obtain ⟨nd, h⟩ := Option.isSome_iff_exists.1 hr
    simp only [Nodes.find, h, hs r nd h, Option.bind_some]
    cases hl : hget nd.kids l with
    | none => rfl
    | some y =>
      simp only [Option.bind_some]
      exact ih (hc [] r nd (by simp [Nodes.find, h]) h _ (hget_mem hl)) (hc.child h hl)

theorem Nodes.Closed.sub {m m' : Nodes} (hs : m.Sub m') {r : Ref} (hr : (m r).isSome = true) (hc : m.Closed r) :
    m'.Closed r := by
  intro p x nd hx hn e he
  rw [find_sub hs hr hc] at hx
  obtain ⟨nd', h'⟩ := find_some hx
  have := hs x nd' h'
  rw [hn] at this
  obtain rfl : nd = nd' := by simpa using this
  obtain ⟨nd2, h2⟩ := Option.isSome_iff_exists.1 (hc p x nd hx h' e he)
  simp [hs _ _ h2]

/-! ## Memory and trie values -/

/-- The structure at `r` is the trie `t`. -/
structure Rep (m : Nodes) (r : Ref) (t : Trie) : Prop where
  has : ∀ p, (m.find r p).isSome = true ↔ t.has p
  ends : ∀ p, m.Marked r p ↔ t.endAt p
  closed : m.Closed r

theorem Rep.node {m : Nodes} {r : Ref} {t : Trie} (h : Rep m r t) : ∃ nd, m r = some nd ∧ nd.isEnd = t.isEnd := by
  have := (h.has []).2 (has_nil t)
  simp only [Nodes.find, Option.isSome_map] at this
  obtain ⟨nd, hn⟩ := Option.isSome_iff_exists.1 this
  refine ⟨nd, hn, ?_⟩
  have h2 := h.ends []
  rw [endAt_nil] at h2
  rw [Bool.eq_iff_iff, ← h2]
  unfold Nodes.Marked
  simp only [Nodes.find, hn, Option.map_some, Option.some.injEq]
  constructor
  · intro he; exact ⟨r, nd, rfl, hn, he⟩
  · rintro ⟨x, nd', rfl, h3, h4⟩
    rw [hn] at h3
    obtain rfl : nd = nd' := by simpa using h3
    exact h4

theorem Rep.isSome {m : Nodes} {r : Ref} {t : Trie} (h : Rep m r t) : (m r).isSome = true := by
  obtain ⟨nd, hn, -⟩ := h.node
  simp [hn]

theorem Rep.get {m : Nodes} {r : Ref} {t : Trie} (h : Rep m r t) {nd : HNode} (hn : m r = some nd) (l : Bytes) :
    (hget nd.kids l = none ∧ t.get l = none) ∨ ∃ y v, hget nd.kids l = some y ∧ t.get l = some v ∧ Rep m y v := by
  have h1 := h.has [l]
  rw [has_cons] at h1
  simp only [Nodes.find, hn, Option.bind_some] at h1
  cases ha : hget nd.kids l with
  | none =>
    cases hb : t.get l with
    | none => exact .inl ⟨rfl, rfl⟩
    | some w => rw [ha, hb] at h1; simp [has_nil] at h1
  | some y =>
    cases hb : t.get l with
    | none =>
      rw [ha, hb] at h1
      have := h.closed [] r nd (by simp [Nodes.find, hn]) hn _ (hget_mem ha)
      simp [has_nil] at h1
      simp [h1] at this
    | some v =>
      refine .inr ⟨y, v, rfl, rfl, fun p => ?_, fun p => ?_, h.closed.child hn ha⟩
      · have := h.has (l :: p)
        rw [has_cons, hb] at this
        simpa [Nodes.find, hn, ha] using this
      · have := h.ends (l :: p)
        rw [endAt_cons, hb] at this
        simpa [Nodes.Marked, Nodes.find, hn, ha] using this

theorem Rep.len {m : Nodes} {r : Ref} {t : Trie} (h : Rep m r t) {nd : HNode} (hn : m r = some nd) :
    nd.kids.length = 0 ↔ t.kids.length = 0 := by
  rw [hget_length, kids_empty_iff]
  constructor
  · intro hk l
    rcases h.get hn l with ⟨-, h2⟩ | ⟨y, v, h1, -⟩
    · exact h2
    · rw [hk l] at h1; simp at h1
  · intro hk l
    rcases h.get hn l with ⟨h2, -⟩ | ⟨y, v, -, h1, -⟩
    · exact h2
    · rw [hk l] at h1; simp at h1

theorem Rep.sub {m m' : Nodes} {r : Ref} {t : Trie} (h : Rep m r t) (hs : m.Sub m') : Rep m' r t := by
  refine ⟨fun p => ?_, fun p => ?_, h.closed.sub hs h.isSome⟩
  · rw [find_sub hs h.isSome h.closed]; exact h.has p
  · rw [← h.ends p]
    unfold Nodes.Marked
    simp only [find_sub hs h.isSome h.closed]
    constructor
    · rintro ⟨x, nd, h1, h2, h3⟩
      obtain ⟨nd', h'⟩ := find_some h1
      have := hs x nd' h'
      rw [h2] at this
      obtain rfl : nd = nd' := by simpa using this
      exact ⟨x, nd, h1, h', h3⟩
    · rintro ⟨x, nd, h1, h2, h3⟩
      exact ⟨x, nd, h1, hs _ _ h2, h3⟩

theorem Rep.of_holds {m : Nodes} {r : Ref} {rules : List Bytes} (h : Holds m r rules) : Rep m r (buildTrie rules) :=
  ⟨fun p => by rw [h.paths, buildTrie_has], fun p => by rw [h.marks, buildTrie_endAt], h.closed⟩

/-! ## Programs that only read -/

/-- The access only reads, and finds a node in `F`. -/
def MOp.sees : {β : Type} → MOp β → Nodes → (β → Prop) → Prop
  | _, .get r key, F, K => ∃ nd, F r = some nd ∧ K (hget nd.kids key)
  | _, .isEnd r, F, K => ∃ nd, F r = some nd ∧ K nd.isEnd
  | _, .len r, F, K => ∃ nd, F r = some nd ∧ K nd.kids.length
  | _, _, _, _ => False

/-- The program only reads nodes in `F`, and comes back with `v`. -/
def MProg.reads {α : Type} (F : Nodes) (v : α) : MProg α → Prop
  | .ret a => a = v
  | .call o k => o.sees F (fun b => (k b).reads F v)

theorem MOp.sees_mono {β : Type} {o : MOp β} {F F' : Nodes} {K K' : β → Prop} (hs : F.Sub F')
    (hk : ∀ b, K b → K' b) (h : o.sees F K) : o.sees F' K' := by
  cases o <;> simp only [MOp.sees] at h ⊢ <;> obtain ⟨nd, h1, h2⟩ := h <;> exact ⟨nd, hs _ _ h1, hk _ h2⟩

theorem MProg.reads_mono {α : Type} {F F' : Nodes} (hs : F.Sub F') {v : α} {p : MProg α} (h : p.reads F v) :
    p.reads F' v := by
  induction p with
  | ret a => exact h
  | call o k ih => exact MOp.sees_mono hs (fun b => ih b) h

theorem MProg.reads_bind {α γ : Type} {F : Nodes} {p : MProg α} {f : α → MProg γ} {v : α} {w : γ}
    (h : p.reads F v) (h' : (f v).reads F w) : (p.bind f).reads F w := by
  induction p with
  | ret a => cases h; exact h'
  | call o k ih => exact MOp.sees_mono (Nodes.Sub.refl F) (fun b => ih b) h

theorem MOp.sees_step {β : Type} {o : MOp β} {F : Nodes} {K : β → Prop} (h : o.sees F K) {m m' : Mem} {b : β}
    (hs : F.Sub m.nodes) (hd : o.Does m b m') : m' = m ∧ K b := by
  cases o <;> simp only [MOp.sees] at h <;> obtain ⟨nd, h1, h2⟩ := h <;> simp only [MOp.Does, hs _ _ h1] at hd <;>
    obtain ⟨nd', h3, rfl, rfl⟩ := hd <;> cases h3 <;> exact ⟨rfl, h2⟩

theorem MOp.sees_can {β : Type} {o : MOp β} {F : Nodes} {K : β → Prop} (h : o.sees F K) {m : Mem}
    (hs : F.Sub m.nodes) : ∃ b m', o.Does m b m' := by
  cases o <;> simp only [MOp.sees] at h <;> obtain ⟨nd, h1, h2⟩ := h <;> exact ⟨_, m, nd, hs _ _ h1, rfl, rfl⟩

/-! ## Extract reads the trie value -/

theorem endH_reads {F : Nodes} {y : Ref} {t : Trie} (h : Rep F y t) (w : Walk) :
    (endH y w).reads F (if !w.hasSuffix && t.isEnd then
      { w with suffixEndIdx := w.previousSepIdx, hasSuffix := true } else w) := by
  obtain ⟨nd, hn, he⟩ := h.node
  unfold endH
  cases hs : w.hasSuffix with
  | true => rfl
  | false => exact ⟨nd, hn, by simp [he, MProg.reads, MProg.bind, pure]⟩

theorem walkLabelH_reads {F : Nodes} (netloc : Bytes) {node : Ref} {t : Trie} (hr : Rep F node t) (label : Bytes)
    (isLast : Bool) (w : Walk) {c : Ref → Walk → MProg (M Walk)} {c' : Trie → Walk → M Walk}
    (hc : ∀ y v w, Rep F y v → (c y w).reads F (c' v w)) :
    (walkLabelH netloc node label isLast w c).reads F (walkLabel netloc t label isLast w c') := by
  obtain ⟨nd, hn, -⟩ := hr.node
  unfold walkLabelH walkLabel
  refine ⟨nd, hn, ?_⟩
  dsimp only [MProg.bind]
  rcases hr.get hn (b! "*") with ⟨h1, h2⟩ | ⟨y, v, h1, h2, -⟩
  · rw [h1, h2]
    refine ⟨nd, hn, ?_⟩
    dsimp only [MProg.bind]
    rcases hr.get hn (unescapeOrEmpty label) with ⟨h3, h4⟩ | ⟨y, v, h3, h4, h5⟩
    · rw [h3, h4]; rfl
    · rw [h3, h4]
      refine MProg.reads_bind (endH_reads h5 _) ?_
      obtain ⟨nd', hn', -⟩ := h5.node
      refine ⟨nd', hn', ?_⟩
      dsimp only [MProg.bind]
      by_cases h6 : v.kids.length = 0
      · rw [if_pos ((h5.len hn').2 h6), if_pos h6]; rfl
      · rw [if_neg (fun hc => h6 ((h5.len hn').1 hc)), if_neg h6]
        cases isLast with
        | true => rfl
        | false => exact hc _ _ _ h5
  · rw [h1, h2]
    refine ⟨nd, hn, ?_⟩
    dsimp only [MProg.bind]
    rcases hr.get hn (33 :: label) with ⟨h3, h4⟩ | ⟨y, v, h3, h4, h5⟩ <;> rw [h3, h4] <;> rfl

/-- The value version of one iteration, split like `walkLoopH`. -/
theorem walkLoop_head (netloc : Bytes) (u : ExtractResult) (fuel : Nat) (t : Trie) (hasLabels : Bool) (w : Walk) :
    walkLoop netloc u (fuel + 1) t hasLabels w =
      match walkHead netloc u hasLabels w with
      | .error s => .error s
      | .ok (.skip w) => walkLoop netloc u fuel t hasLabels w
      | .ok (.label l false w) => walkLabel netloc t l false w (fun node w => walkLoop netloc u fuel node true w)
      | .ok (.label l true w) => walkLabel netloc t l true w (fun _ w => .ok w) := by
  rw [walkLoop]
  unfold walkHead
  cases h0 : liftGo (slice netloc 0 w.sepIdx) with
  | error e => rfl
  | ok pre =>
    simp only [bind, Except.bind]
    cases liftGo (lastIndexAny pre labelSeparatorsRuneSet) with
    | error e => rfl
    | ok sepIdx =>
      dsimp only
      by_cases h : sepIdx ≠ -1
      · rw [if_pos h, if_pos h]
        cases liftGo (index netloc sepIdx) with
        | error e => rfl
        | ok b =>
          dsimp only
          cases liftGo (slice netloc (sepIdx + sepSize b) w.sepIdx) with
          | error e => rfl
          | ok label =>
            dsimp only
            by_cases h2 : label.length = 0
            · rw [if_pos h2, if_pos h2]
              cases hasLabels <;> rfl
            · rw [if_neg h2, if_neg h2]
      · rw [if_neg h, if_neg h]
        simp only [h0]

theorem walkLoopH_reads {F : Nodes} (netloc : Bytes) (u : ExtractResult) (fuel : Nat) {node : Ref} {t : Trie}
    (hr : Rep F node t) (hasLabels : Bool) (w : Walk) :
    (walkLoopH netloc u fuel node hasLabels w).reads F (walkLoop netloc u fuel t hasLabels w) := by
  induction fuel generalizing node t hasLabels w with
  | zero => rfl
  | succ fuel ih =>
    rw [walkLoop_head, walkLoopH]
    cases walkHead netloc u hasLabels w with
    | error s => rfl
    | ok h =>
      cases h with
      | skip w => exact ih hr _ _
      | label l isLast w =>
        cases isLast with
        | false => exact walkLabelH_reads netloc hr l false w (fun y v w h => ih h true w)
        | true => exact walkLabelH_reads netloc hr l true w (fun y v w _ => rfl)

theorem extractM_split (idna : Idna) (t : Trie) (e : URLParams) :
    extractM idna t e = (beforeHost idna e >>= fun
      | .inl r => .ok r
      | .inr (netloc, u) => stageHost t e netloc u) := by
  unfold extractM beforeHost
  simp only [bind, Except.bind]
  cases liftGo (fastTrim e.url whitespaceRuneSet .trimBoth) with
  | error e => rfl
  | ok netloc =>
    dsimp only
    cases liftGo (stageScheme netloc {}) with
    | error e => rfl
    | ok r =>
      dsimp only
      cases liftGo (stageUserInfo r.2 r.1) with
      | error e => rfl
      | ok r =>
        dsimp only
        cases scanLoop r.2.length r.2 0 (-1) (-1) with
        | err er => rfl
        | done opening closing hostEnd =>
          dsimp only
          cases stageIPv6 r.2 opening closing (adjustHostEnd r.2.length closing hostEnd) r.1 with
          | error e => rfl
          | ok u =>
            dsimp only
            cases liftGo (stageSplit r.2 (adjustHostEnd r.2.length closing hostEnd)) with
            | error e => rfl
            | ok hs =>
              dsimp only
              cases stagePortPath hs.2 u with
              | error e => rfl
              | ok u =>
                dsimp only
                split
                · rfl
                · cases stageIdna idna e hs.1 u <;> rfl

theorem stageHost_split (t : Trie) (e : URLParams) (netloc : Bytes) (u : ExtractResult) :
    stageHost t e netloc u = (walkLoop netloc u (netloc.length + 2) t false
      { hasSuffix := false, previousSepIdx := 0, sepIdx := netloc.length, suffixStartIdx := netloc.length,
        suffixEndIdx := netloc.length } >>= afterWalk e netloc u) := rfl

end Fasttld
