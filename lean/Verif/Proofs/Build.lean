import Verif.Proofs.Memory

/-!
# Building the trie in place

A program that builds owns the nodes it allocated.  `MOp.safe` says what an access needs from them and does to them.
-/

set_option linter.unusedSimpArgs false

namespace Fasttld

open Spec Trie

/-- The access needs only nodes in `O`; then `K` holds of the nodes afterwards and the answer.  `pub` must hold of a
pointer that is published. -/
def MOp.safe : {β : Type} → MOp β → Nodes → (Ref → β → Prop) → (Nodes → β → Prop) → Prop
  | _, .loadRoot, _, _, _ => False
  | _, .storeRoot r, _, pub, _ => pub r ()
  | _, .alloc, O, _, K => ∀ r, O r = none → K (O.put r ⟨false, []⟩) r
  | _, .get r key, O, _, K => ∃ nd, O r = some nd ∧ K O (hget nd.kids key)
  | _, .set r key v, O, _, K => ∃ nd, O r = some nd ∧ K (O.put r ⟨nd.isEnd, hset nd.kids key v⟩) ()
  | _, .isEnd r, O, _, K => ∃ nd, O r = some nd ∧ K O nd.isEnd
  | _, .setEnd r, O, _, K => ∃ nd, O r = some nd ∧ K (O.put r ⟨true, nd.kids⟩) ()
  | _, .len r, O, _, K => ∃ nd, O r = some nd ∧ K O nd.kids.length
  | _, .nil, _, _, _ => False
  | _, .scan r, O, _, K => ∃ nd, O r = some nd ∧ ∀ b : List (Bytes × Ref), b.Perm nd.kids → K O b

/-- The program, started with the nodes `O`, needs no others and ends with `post`. -/
def MProg.wp {α : Type} (post : Nodes → α → Prop) : MProg α → Nodes → Prop
  | .ret a, O => post O a
  | .call o k, O => o.safe O (fun _ _ => False) (fun O' b => (k b).wp post O')

theorem MOp.safe_mono {β : Type} {o : MOp β} {O : Nodes} {pub pub' : Ref → β → Prop} {K K' : Nodes → β → Prop}
    (hp : ∀ r b, pub r b → pub' r b) (hk : ∀ O b, K O b → K' O b) (h : o.safe O pub K) : o.safe O pub' K' := by
  cases o <;> simp only [MOp.safe] at h ⊢
  · exact hp _ _ h
  · exact fun r hr => hk _ _ (h r hr)
  · obtain ⟨nd, h1, h2⟩ := h; exact ⟨nd, h1, hk _ _ h2⟩
  · obtain ⟨nd, h1, h2⟩ := h; exact ⟨nd, h1, hk _ _ h2⟩
  · obtain ⟨nd, h1, h2⟩ := h; exact ⟨nd, h1, hk _ _ h2⟩
  · obtain ⟨nd, h1, h2⟩ := h; exact ⟨nd, h1, hk _ _ h2⟩
  · obtain ⟨nd, h1, h2⟩ := h; exact ⟨nd, h1, hk _ _ h2⟩
  · obtain ⟨nd, h1, h2⟩ := h; exact ⟨nd, h1, fun b hb => hk _ _ (h2 b hb)⟩

theorem MProg.wp_mono {α : Type} {post post' : Nodes → α → Prop} (hp : ∀ O a, post O a → post' O a) {p : MProg α}
    {O : Nodes} (h : p.wp post O) : p.wp post' O := by
  induction p generalizing O with
  | ret a => exact hp _ _ h
  | call o k ih => exact MOp.safe_mono (fun _ _ h => h) (fun O b h => ih b h) h

theorem MProg.wp_bind {α γ : Type} {post : Nodes → α → Prop} {post' : Nodes → γ → Prop} {p : MProg α}
    {f : α → MProg γ} {O : Nodes} (h : p.wp post O) (hf : ∀ O a, post O a → (f a).wp post' O) :
    (p.bind f).wp post' O := by
  induction p generalizing O with
  | ret a => exact hf _ _ h
  | call o k ih => exact MOp.safe_mono (fun _ _ h => h) (fun O b h => ih b h) h

/-! ## The structure that is being built -/

/-- The nodes `O` with the paths `H` and the marks `E` from `root`. -/
structure Good (O : Nodes) (root : Ref) (H E : List Bytes → Prop) : Prop where
  has : ∀ p, (O.find root p).isSome = true ↔ H p
  ends : ∀ p, O.Marked root p ↔ E p
  closed : ∀ x nd, O x = some nd → ∀ e ∈ nd.kids, (O e.2).isSome = true
  uniq : ∀ x nd, O x = some nd → KeysUnique nd.kids
  inj : O.Unshared root

theorem Good.congr {O : Nodes} {root : Ref} {H E H' E' : List Bytes → Prop} (h : Good O root H E)
    (hH : ∀ p, H p ↔ H' p) (hE : ∀ p, E p ↔ E' p) : Good O root H' E' :=
  ⟨fun p => (h.has p).trans (hH p), fun p => (h.ends p).trans (hE p), h.closed, h.uniq, h.inj⟩

theorem Good.closedAt {O : Nodes} {root : Ref} {H E : List Bytes → Prop} (h : Good O root H E) (r : Ref) :
    O.Closed r := fun _ _ _ _ hn => h.closed _ _ hn

theorem sub_put {O : Nodes} {r : Ref} {nd : HNode} (h : O r = none) : O.Sub (O.put r nd) := by
  intro x nd' hx
  rw [put_other _ _ (by rintro rfl; rw [h] at hx; cases hx)]
  exact hx

/-- A path only depends on the pointers. -/
theorem find_put_kids {O : Nodes} {r : Ref} {nd nd' : HNode} (h : O r = some nd) (hk : nd'.kids = nd.kids)
    (x : Ref) (p : List Bytes) : (O.put r nd').find x p = O.find x p := by
  induction p generalizing x with
  | nil =>
    by_cases hx : x = r
    · subst hx; simp [Nodes.find, put_same, h]
    · simp [Nodes.find, put_other _ _ hx]
  | cons l p ih =>
    by_cases hx : x = r
    · subst hx; simp only [Nodes.find, put_same, h, hk, Option.bind_some, ih]
    · simp only [Nodes.find, put_other _ _ hx, ih]

theorem Good.setEnd {O : Nodes} {root cur : Ref} {H E : List Bytes → Prop} (h : Good O root H E) {pre : List Bytes}
    (hp : O.find root pre = some cur) {nd : HNode} (hn : O cur = some nd) :
    Good (O.put cur ⟨true, nd.kids⟩) root H (fun p => E p ∨ p = pre) := by
  have hf := find_put_kids (nd' := ⟨true, nd.kids⟩) hn rfl root
  have hsome : ∀ x, ((O.put cur ⟨true, nd.kids⟩) x).isSome = (O x).isSome := by
    intro x
    by_cases hx : x = cur
    · subst hx; simp [put_same, hn]
    · rw [put_other _ _ hx]
  refine ⟨fun p => ?_, fun p => ?_, fun x nd' hx e he => ?_, fun x nd' hx => ?_, fun p q x h1 h2 => ?_⟩
  · rw [hf]; exact h.has p
  · rw [← h.ends p]
    unfold Nodes.Marked
    simp only [hf]
    constructor
    · rintro ⟨x, nd', h1, h2, h3⟩
      by_cases hx : x = cur
      · subst hx; exact .inr (h.inj _ _ _ h1 hp)
      · rw [put_other _ _ hx] at h2; exact .inl ⟨x, nd', h1, h2, h3⟩
    · rintro (⟨x, nd', h1, h2, h3⟩ | rfl)
      · by_cases hx : x = cur
        · subst hx; exact ⟨x, _, h1, put_same _ _ _, rfl⟩
        · exact ⟨x, nd', h1, by rw [put_other _ _ hx]; exact h2, h3⟩
      · exact ⟨cur, _, hp, put_same _ _ _, rfl⟩
  · rw [hsome]
    by_cases hc : x = cur
    · subst hc; rw [put_same] at hx; cases hx; exact h.closed _ _ hn _ he
    · rw [put_other _ _ hc] at hx; exact h.closed _ _ hx _ he
  · by_cases hc : x = cur
    · subst hc; rw [put_same] at hx; cases hx; have := h.uniq _ _ hn; exact this
    · rw [put_other _ _ hc] at hx; exact h.uniq _ _ hx
  · rw [hf] at h1 h2; exact h.inj _ _ _ h1 h2

theorem snoc_ind {P : List Bytes → Prop} (nil : P []) (snoc : ∀ q k, P q → P (q ++ [k])) (p : List Bytes) : P p := by
  have : ∀ r : List Bytes, P r.reverse := by
    intro r
    induction r with
    | nil => exact nil
    | cons k r ih => rw [List.reverse_cons]; exact snoc _ _ ih
  have h := this p.reverse
  rwa [List.reverse_reverse] at h

/-- Adding a new child: exactly one new path. -/
theorem Good.find_add {O : Nodes} {root cur n : Ref} {H E : List Bytes → Prop} (h : Good O root H E)
    {pre : List Bytes} (hp : O.find root pre = some cur) {nd : HNode} (hn : O cur = some nd) {key : Bytes}
    (hk : hget nd.kids key = none) (hfresh : O n = none) (p : List Bytes) :
    ((O.put n ⟨false, []⟩).put cur ⟨nd.isEnd, hset nd.kids key n⟩).find root p =
      if p = pre ++ [key] then some n else O.find root p := by
  have hcn : cur ≠ n := by rintro rfl; rw [hfresh] at hn; cases hn
  have hgone : O.find root (pre ++ [key]) = none := by rw [find_snoc, hp]; simp [hn, hk]
  generalize hO : (O.put n ⟨false, []⟩).put cur ⟨nd.isEnd, hset nd.kids key n⟩ = O'
  have hcur : O' cur = some ⟨nd.isEnd, hset nd.kids key n⟩ := by rw [← hO, put_same]
  have hnew : O' n = some ⟨false, []⟩ := by rw [← hO, put_other _ _ hcn.symm, put_same]
  have hoth : ∀ x, x ≠ cur → x ≠ n → O' x = O x := by
    intro x h1 h2; rw [← hO, put_other _ _ h1, put_other _ _ h2]
  have hmap : ∀ y, (O y).isSome = true → (O' y).map (fun _ => y) = (O y).map (fun _ => y) := by
    intro y hy
    by_cases hyn : y = n
    · subst hyn; rw [hfresh] at hy; cases hy
    · by_cases hyc : y = cur
      · subst hyc; simp [hcur, hn]
      · rw [hoth _ hyc hyn]
  induction p using snoc_ind with
  | nil =>
    rw [if_neg (by intro hc; have := congrArg List.length hc; simp at this)]
    simp only [Nodes.find]
    refine hmap root ?_
    have h2 : O.find root pre = (O.find root []).bind fun x => O.find x pre := by
      rw [← find_append, List.nil_append]
    rw [hp] at h2
    cases hr : O root with
    | none => simp [Nodes.find, hr] at h2
    | some => rfl
  | snoc q k ih =>
    rw [find_snoc, ih]
    by_cases h1 : q = pre ++ [key]
    · subst h1
      rw [if_pos rfl, if_neg (by intro hc; have := congrArg List.length hc; simp at this), find_snoc, hgone]
      simp [hnew, hget]
    · rw [if_neg h1]
      rw [find_snoc]
      cases hq : O.find root q with
      | none =>
        rw [if_neg]
        · rfl
        · intro hc
          obtain ⟨rfl, -⟩ := by simpa using hc
          rw [hp] at hq; cases hq
      | some x =>
        obtain ⟨ndx, hx⟩ := find_some hq
        simp only [Option.bind_some]
        by_cases hxc : x = cur
        · subst hxc
          obtain rfl := h.inj _ _ _ hq hp
          rw [hn] at hx
          cases hx
          simp only [hcur, hn, Option.bind_some, hget_hset]
          by_cases hkk : k = key
          · subst hkk; simp [hnew]
          · rw [if_neg hkk, if_neg (by simpa using hkk)]
            cases hg : hget nd.kids k with
            | none => rfl
            | some y => exact hmap y (h.closed _ _ hn _ (hget_mem hg))
        · have hxn : x ≠ n := by rintro rfl; rw [hfresh] at hx; cases hx
          rw [hoth x hxc hxn, hx]
          have : ¬ q ++ [k] = pre ++ [key] := by
            intro hc
            obtain ⟨rfl, -⟩ := by simpa using hc
            rw [hp] at hq; cases hq; exact hxc rfl
          rw [if_neg this]
          simp only [Option.bind_some]
          cases hg : hget ndx.kids k with
          | none => rfl
          | some y => exact hmap y (h.closed _ _ hx _ (hget_mem hg))

theorem Good.add {O : Nodes} {root cur n : Ref} {H E : List Bytes → Prop} (h : Good O root H E)
    {pre : List Bytes} (hp : O.find root pre = some cur) {nd : HNode} (hn : O cur = some nd) {key : Bytes}
    (hk : hget nd.kids key = none) (hfresh : O n = none) :
    Good ((O.put n ⟨false, []⟩).put cur ⟨nd.isEnd, hset nd.kids key n⟩) root (fun p => H p ∨ p = pre ++ [key]) E := by
  have hf := h.find_add hp hn hk hfresh
  have hcn : cur ≠ n := by rintro rfl; rw [hfresh] at hn; cases hn
  have hgone : O.find root (pre ++ [key]) = none := by rw [find_snoc, hp]; simp [hn, hk]
  generalize hO : (O.put n ⟨false, []⟩).put cur ⟨nd.isEnd, hset nd.kids key n⟩ = O' at hf
  have hcur : O' cur = some ⟨nd.isEnd, hset nd.kids key n⟩ := by rw [← hO, put_same]
  have hnew : O' n = some ⟨false, []⟩ := by rw [← hO, put_other _ _ hcn.symm, put_same]
  have hoth : ∀ x, x ≠ cur → x ≠ n → O' x = O x := by
    intro x h1 h2; rw [← hO, put_other _ _ h1, put_other _ _ h2]
  have hdom : ∀ x, (O x).isSome = true → (O' x).isSome = true := by
    intro x hx
    by_cases h1 : x = cur
    · subst h1; simp [hcur]
    · by_cases h2 : x = n
      · subst h2; simp [hnew]
      · rw [hoth _ h1 h2]; exact hx
  refine ⟨fun p => ?_, fun p => ?_, fun x nd' hx e he => ?_, fun x nd' hx => ?_, fun p q x h1 h2 => ?_⟩
  · rw [hf]
    by_cases hpp : p = pre ++ [key]
    · simp [hpp]
    · simp only [if_neg hpp, hpp, or_false]; exact h.has p
  · rw [← h.ends p]
    unfold Nodes.Marked
    simp only [hf]
    by_cases hpp : p = pre ++ [key]
    · subst hpp
      rw [if_pos rfl, hgone]
      constructor
      · rintro ⟨x, nd', h1, h2, h3⟩
        cases h1
        rw [hnew] at h2; cases h2; simp at h3
      · rintro ⟨x, nd', h1, -⟩; cases h1
    · simp only [if_neg hpp]
      constructor
      · rintro ⟨x, nd', h1, h2, h3⟩
        by_cases hc : x = cur
        · subst hc; rw [hcur] at h2; cases h2; exact ⟨x, nd, h1, hn, h3⟩
        · have hxn : x ≠ n := by
            rintro rfl
            obtain ⟨ndx, hx⟩ := find_some h1
            rw [hfresh] at hx; cases hx
          rw [hoth _ hc hxn] at h2
          exact ⟨x, nd', h1, h2, h3⟩
      · rintro ⟨x, nd', h1, h2, h3⟩
        by_cases hc : x = cur
        · subst hc; rw [hn] at h2; cases h2; exact ⟨x, _, h1, hcur, h3⟩
        · have hxn : x ≠ n := by rintro rfl; rw [hfresh] at h2; cases h2
          exact ⟨x, nd', h1, by rw [hoth _ hc hxn]; exact h2, h3⟩
  · by_cases hc : x = cur
    · subst hc; rw [hcur] at hx; cases hx
      simp only [hset_new hk, List.mem_append, List.mem_singleton] at he
      rcases he with he | rfl
      · exact hdom _ (h.closed _ _ hn _ he)
      · simp [hnew]
    · by_cases hxn : x = n
      · subst hxn; rw [hnew] at hx; cases hx; simp at he
      · rw [hoth _ hc hxn] at hx; exact hdom _ (h.closed _ _ hx _ he)
  · by_cases hc : x = cur
    · subst hc; rw [hcur] at hx; cases hx; exact (h.uniq _ _ hn).hset hk
    · by_cases hxn : x = n
      · subst hxn; rw [hnew] at hx; cases hx; intro e he; simp at he
      · rw [hoth _ hc hxn] at hx; exact h.uniq _ _ hx
  · rw [hf] at h1 h2
    have hnot : ∀ q, O.find root q ≠ some n := by
      intro q hq
      obtain ⟨ndx, hx⟩ := find_some hq
      rw [hfresh] at hx; cases hx
    by_cases hpp : p = pre ++ [key] <;> by_cases hqq : q = pre ++ [key]
    · rw [hpp, hqq]
    · rw [if_pos hpp] at h1; rw [if_neg hqq] at h2; cases h1; exact absurd h2 (hnot _)
    · rw [if_neg hpp] at h1; rw [if_pos hqq] at h2; cases h2; exact absurd h1 (hnot _)
    · rw [if_neg hpp] at h1; rw [if_neg hqq] at h2; exact h.inj _ _ _ h1 h2

/-! ## The programs -/

theorem Good.prefix {O : Nodes} {root cur : Ref} {H E : List Bytes → Prop} (h : Good O root H E) {pre p : List Bytes}
    (hp : O.find root pre = some cur) (hpp : p <+: pre) : H p := by
  rw [← h.has]
  obtain ⟨q, rfl⟩ := hpp
  rw [find_append] at hp
  cases hq : O.find root p with
  | none => rw [hq] at hp; cases hp
  | some x => rfl

theorem ensureH_wp {O : Nodes} {root cur : Ref} {H E : List Bytes → Prop} (h : Good O root H E)
    {pre : List Bytes} (hp : O.find root pre = some cur) (key : Bytes) :
    (ensureH cur key).wp (fun O' _ => Good O' root (fun p => H p ∨ p <+: pre ++ [key]) E ∧
      O'.find root pre = some cur) O := by
  obtain ⟨nd, hn⟩ := find_some hp
  unfold ensureH
  refine ⟨nd, hn, ?_⟩
  have hpre : ∀ p, p <+: pre ++ [key] ↔ p <+: pre ∨ p = pre ++ [key] := by
    intro p
    rw [List.prefix_concat_iff, or_comm]
  cases hg : hget nd.kids key with
  | some y =>
    refine ⟨h.congr (fun p => ?_) (fun p => Iff.rfl), hp⟩
    constructor
    · exact .inl
    · rintro (h1 | h1)
      · exact h1
      · rcases (hpre p).1 h1 with h2 | rfl
        · exact h.prefix hp h2
        · rw [← h.has, find_snoc, hp]
          obtain ⟨ndy, hy⟩ := Option.isSome_iff_exists.1 (h.closed _ _ hn _ (hget_mem hg))
          simp only [] at hy
          simp [hn, hg, hy]
  | none =>
    intro n hfresh
    have hcn : cur ≠ n := by rintro rfl; rw [hfresh] at hn; cases hn
    refine ⟨nd, by rw [put_other _ _ hcn]; exact hn, ?_, ?_⟩
    · refine (h.add hp hn hg hfresh).congr (fun p => ?_) (fun p => Iff.rfl)
      rw [hpre]
      constructor
      · rintro (h1 | h1)
        · exact .inl h1
        · exact .inr (.inr h1)
      · rintro (h1 | h1 | h1)
        · exact .inl h1
        · exact .inl (h.prefix hp h1)
        · exact .inr h1
    · rw [h.find_add hp hn hg hfresh, if_neg (by intro hc; have := congrArg List.length hc; simp at this)]
      exact hp

theorem nestedDictH_wp {root cur : Ref} {H E : List Bytes → Prop} (keys : List Bytes) {O : Nodes}
    (h : Good O root H E) {pre : List Bytes} (hp : O.find root pre = some cur) :
    (nestedDictH cur keys).wp (fun O' _ => Good O' root (fun p => H p ∨ p <+: pre ++ keys)
      (fun p => E p ∨ p = pre ++ keys)) O := by
  induction keys generalizing O cur pre H with
  | nil =>
    obtain ⟨nd, hn⟩ := find_some hp
    refine ⟨nd, hn, (h.setEnd hp hn).congr (fun p => ?_) (fun p => by simp)⟩
    rw [List.append_nil]
    exact ⟨.inl, fun hc => hc.elim id (h.prefix hp)⟩
  | cons key keys ih =>
    unfold nestedDictH
    refine MProg.wp_bind (ensureH_wp h hp key) ?_
    rintro O1 - ⟨h1, hp1⟩
    obtain ⟨nd, hn⟩ := find_some hp1
    refine ⟨nd, hn, ?_⟩
    dsimp only [MProg.bind]
    have h2 := (h1.has (pre ++ [key])).2 (.inr (List.prefix_refl _))
    obtain ⟨y, hy⟩ := Option.isSome_iff_exists.1 h2
    have hy' := hy
    rw [find_snoc, hp1] at hy'
    simp only [hn, Option.bind_some] at hy'
    cases hg : hget nd.kids key with
    | none => rw [hg] at hy'; cases hy'
    | some z =>
      rw [hg] at hy'
      simp only [Option.bind_some, Option.map_eq_some_iff] at hy'
      obtain ⟨ndz, -, rfl⟩ := hy'
      refine MProg.wp_mono ?_ (ih h1 hy)
      intro O2 _ h3
      rw [List.append_assoc] at h3
      refine h3.congr (fun p => ?_) (fun p => Iff.rfl)
      simp only [List.cons_append, List.nil_append, or_assoc]
      constructor
      · rintro (h4 | h4 | h4)
        · exact .inl h4
        · exact .inr (h4.trans ⟨keys, by simp⟩)
        · exact .inr h4
      · rintro (h4 | h4)
        · exact .inl h4
        · exact .inr (.inr h4)

theorem Good.root {O : Nodes} {root : Ref} {H E : List Bytes → Prop} (h : Good O root H E) (h0 : H []) :
    O.find root [] = some root := by
  have := (h.has []).2 h0
  simp only [Nodes.find, Option.isSome_map] at this
  obtain ⟨nd, hn⟩ := Option.isSome_iff_exists.1 this
  simp [Nodes.find, hn]

theorem insertAllH_wp {root : Ref} {H E : List Bytes → Prop} (rules : List Bytes) {O : Nodes}
    (h : Good O root H E) (h0 : H []) :
    (insertAllH root rules).wp (fun O' _ => Good O' root
      (fun p => H p ∨ ∃ r ∈ rules, p <+: (splitByte 46 r).reverse)
      (fun p => E p ∨ ∃ r ∈ rules, p = (splitByte 46 r).reverse)) O := by
  induction rules generalizing O H E with
  | nil => exact h.congr (fun p => by simp) (fun p => by simp)
  | cons r rules ih =>
    refine MProg.wp_bind (nestedDictH_wp _ h (h.root h0)) ?_
    intro O1 _ h1
    refine MProg.wp_mono ?_ (ih h1 (.inl h0))
    intro O2 _ h2
    refine h2.congr (fun p => ?_) (fun p => ?_)
    · simp only [List.nil_append, reverse_eq, List.mem_cons, exists_eq_or_imp, or_assoc]
    · simp only [List.nil_append, reverse_eq, List.mem_cons, exists_eq_or_imp, or_assoc]

theorem markAllH_wp {root : Ref} {H E : List Bytes → Prop} (es : List (Bytes × Ref)) {O : Nodes}
    (h : Good O root H E) (hes : ∀ e ∈ es, O.find root [e.1] = some e.2) :
    (markAllH es).wp (fun O' _ => Good O' root H
      (fun p => E p ∨ ∃ e ∈ es, p = [e.1] ∧ H [e.1, star])) O := by
  induction es generalizing O E with
  | nil => exact h.congr (fun p => Iff.rfl) (fun p => by simp)
  | cons e es ih =>
    obtain ⟨l, v⟩ := e
    have hv : O.find root [l] = some v := hes (l, v) (by simp)
    obtain ⟨nd, hn⟩ := find_some hv
    refine ⟨nd, hn, ?_⟩
    dsimp only [MProg.bind]
    have hst : H [l, star] ↔ (hget nd.kids (b! "*")).isSome = true := by
      rw [← h.has]
      have : [l, star] = [l] ++ [star] := rfl
      rw [this, find_snoc, hv]
      simp only [Option.bind_some, hn]
      change ((hget nd.kids (b! "*")).bind _).isSome = true ↔ _
      cases hg : hget nd.kids (b! "*") with
      | none => simp
      | some y =>
        have := h.closed _ _ hn _ (hget_mem hg)
        simpa using this
    cases hg : hget nd.kids (b! "*") with
    | none =>
      rw [hg] at hst
      refine MProg.wp_mono ?_ (ih h (fun e he => hes e (by simp [he])))
      intro O1 _ h1
      refine h1.congr (fun p => Iff.rfl) (fun p => ?_)
      simp only [List.mem_cons, exists_eq_or_imp]
      have : ¬ H [l, star] := by rw [hst]; simp
      simp [this]
    | some y =>
      rw [hg] at hst
      refine ⟨nd, hn, ?_⟩
      dsimp only [MProg.bind]
      refine MProg.wp_mono ?_ (ih (h.setEnd hv hn) (fun e he => ?_))
      · intro O1 _ h1
        refine h1.congr (fun p => Iff.rfl) (fun p => ?_)
        simp only [List.mem_cons, exists_eq_or_imp]
        have : H [l, star] := by rw [hst]; simp
        simp [this, or_assoc]
      · rw [find_put_kids (nd' := ⟨true, nd.kids⟩) hn rfl]; exact hes e (by simp [he])

theorem buildTrieH_wp (rules : List Bytes) {O : Nodes} (hO : ∀ r, O r = none) :
    (buildTrieH rules).wp (fun O' r => Holds O' r rules ∧ O'.Unshared r) O := by
  unfold buildTrieH
  intro root _
  dsimp only [MProg.bind]
  have hput : ∀ x, x ≠ root → O.put root ⟨false, []⟩ x = none := by
    intro x hx; rw [put_other _ _ hx]; exact hO x
  have hfind : ∀ p, (O.put root ⟨false, []⟩).find root p = if p = [] then some root else none := by
    intro p
    cases p with
    | nil => simp [Nodes.find, put_same]
    | cons l p => simp [Nodes.find, put_same, hget]
  have h0 : Good (O.put root ⟨false, []⟩) root (fun p => p = []) (fun _ => False) := by
    refine ⟨fun p => ?_, fun p => ?_, fun x nd hx e he => ?_, fun x nd hx => ?_, fun p q x h1 h2 => ?_⟩
    · rw [hfind]; by_cases hp : p = [] <;> simp [hp]
    · unfold Nodes.Marked
      rw [hfind]
      simp only [iff_false]
      rintro ⟨x, nd, h1, h2, h3⟩
      by_cases hp : p = []
      · rw [if_pos hp] at h1; cases h1
        rw [put_same] at h2; cases h2; simp at h3
      · rw [if_neg hp] at h1; cases h1
    · by_cases hr : x = root
      · subst hr; rw [put_same] at hx; cases hx; simp at he
      · rw [hput _ hr] at hx; cases hx
    · by_cases hr : x = root
      · subst hr; rw [put_same] at hx; cases hx; intro e he; simp at he
      · rw [hput _ hr] at hx; cases hx
    · rw [hfind] at h1 h2
      by_cases hp : p = [] <;> by_cases hq : q = [] <;> simp_all
  refine MProg.wp_bind (insertAllH_wp rules h0 rfl) ?_
  intro O1 _ h1
  have hr := h1.root (.inl rfl)
  obtain ⟨nd, hn⟩ := find_some hr
  refine ⟨nd, hn, fun entries hperm => ?_⟩
  dsimp only [MProg.bind]
  refine MProg.wp_bind (markAllH_wp entries h1 (fun e he => ?_)) ?_
  · have he' := hperm.mem_iff.1 he
    have hy := h1.closed _ _ hn _ he'
    obtain ⟨ndy, hy⟩ := Option.isSome_iff_exists.1 hy
    simp [Nodes.find, hn, h1.uniq _ _ hn e he', hy]
  intro O2 _ h2
  have hsub : ∀ p, RuleAt rules p ↔ ∃ r ∈ rules, p = (splitByte 46 r).reverse := by
    intro p
    unfold RuleAt
    constructor
    · rintro ⟨r, hr, hl⟩
      rw [isLabels_iff] at hl
      exact ⟨r, hr, by rw [← hl]; simp⟩
    · rintro ⟨r, hr, hl⟩
      exact ⟨r, hr, isLabels_iff.2 (by rw [hl]; simp)⟩
  have hpre : ∀ p, PrefixAt rules p ↔ ∃ r ∈ rules, p <+: (splitByte 46 r).reverse := by
    intro p
    unfold PrefixAt
    simp only [hsub]
    constructor
    · rintro ⟨q, h3, r, h4, rfl⟩; exact ⟨r, h4, h3⟩
    · rintro ⟨r, h4, h3⟩; exact ⟨_, h3, r, h4, rfl⟩
  refine ⟨⟨fun p => ?_, fun p => ?_, h2.closedAt root⟩, h2.inj⟩
  · rw [h2.has, hpre]
  · rw [h2.ends, hsub]
    simp only [false_or]
    refine or_congr Iff.rfl ?_
    constructor
    · rintro ⟨e, he, rfl, h3⟩
      refine ⟨e.1, rfl, ?_⟩
      rw [hpre]
      rcases h3 with h3 | h3
      · simp at h3
      · exact h3
    · rintro ⟨l, rfl, h3⟩
      rw [hpre] at h3
      obtain ⟨r, hr1, hr2⟩ := h3
      have h4 : (O1.find root [l]).isSome = true := by
        rw [h1.has]; exact .inr ⟨r, hr1, List.IsPrefix.trans ⟨[star], rfl⟩ hr2⟩
      simp only [Nodes.find, hn, Option.bind_some] at h4
      cases hg : hget nd.kids l with
      | none => rw [hg] at h4; cases h4
      | some y => exact ⟨(l, y), hperm.mem_iff.2 (hget_mem hg), rfl, .inr ⟨r, hr1, hr2⟩⟩

end Fasttld
