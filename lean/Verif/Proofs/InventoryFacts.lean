import Verif.Proofs.Inventory

/-!
# What the checks of Proofs/Inventory.lean mean
-/

namespace Fasttld.Inv
open Fasttld Fasttld.Spec

/-- Facts about a list of rules `L`, with exceptions `G` and `S`. -/
structure Facts (L G S : List Bytes) : Prop where
  /-- what follows a dot in a rule is a rule, the parent of a wildcard, or in `G` -/
  gap : ∀ r ∈ L, ∀ s, 46 :: s <:+ r → s ∈ L ∨ 42 :: 46 :: s ∈ L ∨ s ∈ G
  /-- what follows the second dot or a later one in a rule is not the parent of a wildcard, or is in `S` -/
  shadow : ∀ r ∈ L, ∀ t s, 46 :: t <:+ r → 46 :: s <:+ t → 42 :: 46 :: s ∈ L → s ∈ S
  /-- exceptions are next to a wildcard -/
  exc : ∀ t, 33 :: t ∈ L → ∃ l s, 46 ∉ l ∧ l ≠ [42] ∧ t = l ++ 46 :: s ∧ 42 :: 46 :: s ∈ L
  /-- no `*` after a dot -/
  noStar : ∀ r ∈ L, ∀ s, 46 :: s <:+ r → 42 ∉ s
  noTop : [42] ∉ L
  /-- parents of wildcards are in ASCII -/
  ascii : ∀ s, 42 :: 46 :: s ∈ L → (∀ b ∈ s, b < 128) ∧ ¬ b! "xn--" <:+: s

theorem suffix_dot {l s t : Bytes} (hl : 46 ∉ l) (h : 46 :: s <:+ l ++ 46 :: t) : s = t ∨ 46 :: s <:+ t := by
  obtain ⟨u, hu⟩ := h
  induction l generalizing u with
  | nil =>
    cases u with
    | nil => simp at hu; exact .inl hu
    | cons c u =>
      simp at hu
      exact .inr ⟨u, hu.2⟩
  | cons c l ih =>
    cases u with
    | nil =>
      simp at hu
      exact absurd (by simp [hu.1]) hl
    | cons c' u =>
      simp at hu
      exact ih (fun h => hl (List.mem_cons_of_mem _ h)) u hu.2

theorem find_mono {f g : Nat → Nat → Bool} (h : ∀ p s, f p s = true → g p s = true) {n : Nat} : ∀ {t : Table},
    t.find f n = true → t.find g n = true := by
  intro t
  induction t with
  | leaf => intro h; simp [Table.find] at h
  | node l k p s r ih1 ih2 =>
    intro h1
    rw [Table.find] at h1 ⊢
    simp only [Bool.cond_eq_ite] at h1 ⊢
    split
    · rename_i e; rw [if_pos e] at h1; exact h _ _ h1
    · rename_i e
      rw [if_neg e] at h1
      split
      · rename_i e; rw [if_pos e] at h1; exact ih1 h1
      · rename_i e; rw [if_neg e] at h1; exact ih2 h1

theorem chain_sound {T : Table} : ∀ {fuel p : Nat}, chain T fuel p = true → ∀ s, 46 :: s <:+ unpack p →
    ∃ a, unpack a = s ∧ T.find (fun _ s => bif Nat.beq s 1 then false else true) a = true := by
  intro fuel
  induction fuel with
  | zero => intro p h; simp [chain] at h
  | succ fuel ih =>
    intro p h s hs
    rw [chain] at h
    rcases withParent_sound h with ⟨h1, -⟩ | ⟨l, a, hl, e, h1⟩
    · exact absurd (hs.subset (by simp)) h1
    · rw [Bool.cond_eq_ite] at h1
      split at h1
      · rename_i h2
        rw [e] at hs
        rcases suffix_dot hl hs with rfl | h3
        · exact ⟨a, rfl, h2⟩
        · exact ih h1 s h3
      · simp at h1

theorem ruleOK_sound {T : Table} {r : Nat} (h : ruleOK T r = true) :
    (46 ∉ unpack r ∧ r % 256 ≠ 33 ∧ r ≠ 42) ∨
    ∃ l p, 46 ∉ l ∧ unpack r = l ++ 46 :: unpack p ∧
      T.find (fun _ s => bif Nat.beq (Nat.mod r 65536) 11818 then Nat.ble 1 s
        else bif Nat.beq (Nat.mod r 256) 33 then (bif Nat.beq (Nat.mod (Nat.div r 256) 256) 42 then false else Nat.ble 1 s) else true) p = true ∧ chain T 10 p = true := by
  unfold ruleOK at h
  rcases withParent_sound h with ⟨h1, h2⟩ | ⟨l, p, hl, e, h1⟩
  · left
    rw [mod_def, Bool.cond_eq_ite] at h2
    split at h2
    · simp at h2
    · rename_i h3
      rw [Bool.cond_eq_ite] at h2
      split at h2
      · simp at h2
      · rename_i h4
        exact ⟨h1, fun e => h3 (by rw [e]; rfl), fun e => h4 (by rw [e]; rfl)⟩
  · right
    rw [Bool.cond_eq_ite] at h1
    split at h1
    · rename_i h2
      exact ⟨l, p, hl, e, h2, h1⟩
    · simp at h1

theorem noAce_sound : ∀ {fuel n : Nat}, noAce fuel n = true → ¬ b! "xn--" <:+: unpack n := by
  intro fuel
  induction fuel with
  | zero => intro n h; simp [noAce] at h
  | succ fuel ih =>
    intro n h hi
    rw [noAce] at h
    simp only [mod_def, div_def] at h
    by_cases hn : n = 0
    · subst hn; rw [unpack_zero] at hi; simp at hi
    · rw [beq_false hn, cond_false, Bool.cond_eq_ite] at h
      split at h
      · simp at h
      · rename_i hne
        have hne : n % 4294967296 ≠ 757952120 := fun e => hne (by rw [e]; rfl)
        have ih := ih h
        rw [unpack_pos hn, List.infix_cons_iff] at hi
        rcases hi with hp | hi
        · rw [List.cons_prefix_cons] at hp
          obtain ⟨a1, hp⟩ := hp
          have n1 : n / 256 ≠ 0 := by rintro e; rw [e, unpack_zero] at hp; simp at hp
          rw [unpack_pos n1, List.cons_prefix_cons] at hp
          obtain ⟨a2, hp⟩ := hp
          have n2 : n / 256 / 256 ≠ 0 := by rintro e; rw [e, unpack_zero] at hp; simp at hp
          rw [unpack_pos n2, List.cons_prefix_cons] at hp
          obtain ⟨a3, hp⟩ := hp
          have n3 : n / 256 / 256 / 256 ≠ 0 := by rintro e; rw [e, unpack_zero] at hp; simp at hp
          rw [unpack_pos n3, List.cons_prefix_cons] at hp
          obtain ⟨a4, -⟩ := hp
          have a1 := congrArg UInt8.toNat a1
          have a2 := congrArg UInt8.toNat a2
          have a3 := congrArg UInt8.toNat a3
          have a4 := congrArg UInt8.toNat a4
          simp at a1 a2 a3 a4
          omega
        · exact ih hi

theorem white_ends (r : Nat) (hr : r ∈ unicodeWhite) :
    ∃ x t, encode r = x :: t ∧ visible x.toNat = false ∧ ∃ y u, encode r = u ++ [y] ∧ visible y.toNat = false := by
  have key : ∀ r ∈ unicodeWhite, (match encode r with | [] => false | x :: _ => !visible x.toNat) = true ∧
      (match (encode r).reverse with | [] => false | x :: _ => !visible x.toNat) = true := by decide +kernel
  obtain ⟨h1, h2⟩ := key r hr
  split at h1
  · simp at h1
  · rename_i x t e1
    split at h2
    · simp at h2
    · rename_i y u e2
      refine ⟨x, t, e1, by simpa using h1, y, u.reverse, ?_, by simpa using h2⟩
      rw [← List.reverse_reverse (encode r), e2, List.reverse_cons]

theorem stripped_sound {n : Nat} (h : stripped n = true) : 10 ∉ unpack n ∧ Stripped (unpack n) (unpack n) := by
  have key : (bif scan (fun _ => true) 200 0 n then trimSpace (unpack n) == unpack n else false) = true →
      10 ∉ unpack n ∧ Stripped (unpack n) (unpack n) := by
    intro h
    rw [Bool.cond_eq_ite] at h
    split at h
    · rename_i h1
      exact ⟨(scan_sound h1).1, stripped_iff.2 (by simpa using (beq_iff_eq.1 h).symm)⟩
    · simp at h
  unfold stripped at h
  by_cases hn : n = 0
  · subst hn; rw [unpack_zero]; exact ⟨by simp, stripped_iff.2 (by decide +kernel)⟩
  · rw [beq_false hn, cond_false, Bool.cond_eq_ite] at h
    split at h
    · rename_i h1
      rw [Bool.cond_eq_ite] at h
      split at h
      · rename_i h2
        obtain ⟨i1, -, i2⟩ := scan_sound h2
        refine ⟨i1, ?_⟩
        rcases i2 with ⟨h, -⟩ | ⟨s, b, h3, h4⟩
        · exact absurd h hn
        · refine ⟨[], [], by simp, madeOf_nil _, madeOf_nil _, by simp, by simp, fun _ r hr hpre => ?_, fun _ r hr hsuf => ?_⟩
          · obtain ⟨x, t, e1, e2, -⟩ := white_ends r hr
            rw [e1, unpack_pos hn, List.cons_prefix_cons] at hpre
            rw [hpre.1] at e2
            have : n % 256 < 256 := Nat.mod_lt _ (by decide)
            rw [mod_def] at h1
            simp [Nat.mod_eq_of_lt this, h1] at e2
          · obtain ⟨-, -, -, -, y, u, e1, e2⟩ := white_ends r hr
            rw [e1, h3] at hsuf
            obtain ⟨w, hw⟩ := hsuf
            rw [← List.append_assoc] at hw
            have := (List.append_inj' hw rfl).2
            simp at this
            rw [this, h4] at e2
            simp at e2
      · exact key h
    · exact key h

/-- The rule lines of a list in parts. -/
noncomputable def rulesIn (parts : List (List Nat)) : List Bytes := (parts.flatten.map unpack).filter (fun t => decide (IsRuleLine t))

theorem mem_rulesIn {parts : List (List Nat)} {t : Bytes} : t ∈ rulesIn parts ↔ ∃ n ∈ parts.flatten, isRule n = true ∧ unpack n = t := by
  unfold rulesIn
  rw [List.mem_filter, List.mem_map]
  simp only [decide_eq_true_eq]
  constructor
  · rintro ⟨⟨n, h1, rfl⟩, h2⟩; exact ⟨n, h1, isRule_iff.2 h2, rfl⟩
  · rintro ⟨n, h1, h2, rfl⟩; exact ⟨⟨n, h1, rfl⟩, isRule_iff.1 h2⟩

/-- Every part has been checked. -/
def PartsOK (T : Table) : (E parts : List (List Nat)) → Prop
  | [], [] => True
  | e :: es, p :: ps => partOK T e p = true ∧ PartsOK T es ps
  | _, _ => False

theorem partOK_sound {T : Table} {e p : List Nat} (h : partOK T e p = true) :
    (∀ n ∈ p, lineOK T n = true) ∧ ∀ n ∈ e, n ∈ p ∧ isRule n = true := by
  unfold partOK at h
  simp only [Bool.cond_eq_ite] at h
  split at h
  · rename_i h1
    split at h
    · rename_i h2
      exact ⟨allL_sound h1, fun n hn => ⟨sub_sound h2 n hn, allL_sound h n hn⟩⟩
    · simp at h
  · simp at h

theorem partsOK_sound {T : Table} : ∀ {E parts : List (List Nat)}, PartsOK T E parts →
    (∀ n ∈ parts.flatten, lineOK T n = true) ∧ ∀ e ∈ E, ∀ n ∈ e, n ∈ parts.flatten ∧ isRule n = true := by
  intro E
  induction E with
  | nil =>
    intro parts h
    cases parts with
    | nil => simp
    | cons p ps => exact h.elim
  | cons e es ih =>
    intro parts h
    cases parts with
    | nil => exact h.elim
    | cons p ps =>
      obtain ⟨h1, h2⟩ := h
      obtain ⟨a1, a2⟩ := partOK_sound h1
      obtain ⟨b1, b2⟩ := ih h2
      simp only [List.flatten_cons, List.mem_append, List.mem_cons]
      refine ⟨?_, ?_⟩
      · rintro n (h | h)
        · exact a1 n h
        · exact b1 n h
      · rintro e' (rfl | he) n hn
        · exact ⟨.inl (a2 n hn).1, (a2 n hn).2⟩
        · exact ⟨.inr (b2 e' he n hn).1, (b2 e' he n hn).2⟩

theorem lineOK_sound {T : Table} {n : Nat} (h : lineOK T n = true) :
    stripped n = true ∧ (isRule n = true → ruleOK T n = true) := by
  unfold lineOK at h
  simp only [Bool.cond_eq_ite] at h
  split at h
  · rename_i h1
    refine ⟨h1, fun h2 => ?_⟩
    rwa [if_pos h2] at h
  · simp at h

theorem getD_mem {E : List (List Nat)} {i n : Nat} (h : n ∈ E.getD i []) : ∃ e ∈ E, n ∈ e := by
  rw [List.getD_eq_getElem?_getD] at h
  cases he : E[i]? with
  | none => rw [he] at h; simp at h
  | some e => rw [he] at h; exact ⟨e, List.mem_of_getElem? he, by simpa using h⟩

/-- What an entry of the table says. -/
theorem entryOK_sound {E : List (List Nat)} {G S : List Nat} {k p s : Nat} (h : entryOK E G S k p s = true) :
    42 ∉ unpack k ∧ (s = 0 ∧ (k ∈ G ∨ ∃ e ∈ E, k ∈ e) ∨
      s ≠ 0 ∧ (∃ e ∈ E, starOf k ∈ e) ∧ (∀ b ∈ unpack k, b < 128) ∧ ¬ b! "xn--" <:+: unpack k ∧ (s = 1 ∨ k ∈ S)) := by
  unfold entryOK at h
  rw [Bool.cond_eq_ite] at h
  split at h
  · rename_i h1
    refine ⟨fun h42 => by have := allBytes_sound h1 _ h42; simp at this, ?_⟩
    rw [Bool.cond_eq_ite] at h
    split at h
    · rename_i hs
      refine .inl ⟨Nat.eq_of_beq_eq_true hs, ?_⟩
      rw [Bool.cond_eq_ite] at h
      split at h
      · exact .inl (elem_sound h)
      · exact .inr (getD_mem (elem_sound h))
    · rename_i hs
      refine .inr ⟨fun e => hs (by rw [e]; rfl), ?_⟩
      rw [Bool.cond_eq_ite] at h
      split at h
      · rename_i h2
        refine ⟨getD_mem (elem_sound h2), ?_⟩
        rw [Bool.cond_eq_ite] at h
        split at h
        · rename_i h3
          refine ⟨fun b hb => ?_, ?_⟩
          · have := allBytes_sound h3 b hb
            rw [Nat.blt_eq] at this
            exact UInt8.lt_iff_toNat_lt.2 this
          · rw [Bool.cond_eq_ite] at h
            split at h
            · rename_i h4
              refine ⟨noAce_sound h4, ?_⟩
              rw [Bool.cond_eq_ite] at h
              split at h
              · rename_i h5; exact .inl (Nat.eq_of_beq_eq_true h5)
              · exact .inr (elem_sound h)
            · simp at h
        · simp at h
      · simp at h
  · simp at h

theorem starOf_mod (n : Nat) : Nat.mod (starOf n) 65536 = 11818 := by
  rw [mod_def]; unfold starOf; omega

theorem facts {T : Table} {E parts : List (List Nat)} {G S : List Nat} (hT : T.all (entryOK E G S) 1 = true)
    (hP : PartsOK T E parts) : Facts (rulesIn parts) (G.map unpack) (S.map unpack) := by
  obtain ⟨hl, hE⟩ := partsOK_sound hP
  have used : ∀ {k}, (∃ e ∈ E, k ∈ e) → unpack k ∈ rulesIn parts := by
    rintro k ⟨e, he, hk⟩
    exact mem_rulesIn.2 ⟨k, (hE e he k hk).1, (hE e he k hk).2, rfl⟩
  -- all ancestors have an entry
  have anc : ∀ r ∈ rulesIn parts, ∀ s, 46 :: s <:+ r → ∃ a, unpack a = s ∧ T.find (fun _ _ => true) a = true := by
    intro r hr s hs
    obtain ⟨n, h1, h2, rfl⟩ := mem_rulesIn.1 hr
    rcases ruleOK_sound ((lineOK_sound (hl n h1)).2 h2) with ⟨h3, -, -⟩ | ⟨l, p, hl', e, h3, h4⟩
    · exact absurd (hs.subset (by simp)) h3
    · rw [e] at hs
      rcases suffix_dot hl' hs with rfl | h5
      · exact ⟨p, rfl, find_mono (fun _ _ _ => rfl) h3⟩
      · obtain ⟨a, e1, e2⟩ := chain_sound h4 s h5
        exact ⟨a, e1, find_mono (fun _ _ _ => rfl) e2⟩
  -- parents of wildcards are marked
  have mark : ∀ a, unpack (starOf a) ∈ rulesIn parts → T.find (fun _ s => Nat.ble 1 s) a = true := by
    intro a ha
    obtain ⟨n, h1, h2, e⟩ := mem_rulesIn.1 ha
    obtain rfl := unpack_inj _ _ e
    rw [unpack_starOf] at e
    rcases ruleOK_sound ((lineOK_sound (hl _ h1)).2 h2) with ⟨h3, -, -⟩ | ⟨l, p, hl', e', h3, -⟩
    · rw [unpack_starOf] at h3; simp at h3
    · rw [unpack_starOf] at e'
      obtain rfl : p = a := by
        apply unpack_inj
        match l, e', hl' with
        | [], e', _ => simp at e'
        | [x], e', _ => simp at e'; exact e'.2.symm
        | x :: y :: l, e', hl' =>
          simp at e'
          exact absurd (by simp [e'.2.1]) hl'
      rw [starOf_mod] at h3
      exact find_mono (fun _ s h => by simpa using h) h3
  have star_of : ∀ {s : Bytes}, 42 :: 46 :: s ∈ rulesIn parts → ∃ a, unpack a = s ∧ unpack (starOf a) ∈ rulesIn parts := by
    intro s hs
    obtain ⟨n, h1, h2, e⟩ := mem_rulesIn.1 hs
    have n0 : n ≠ 0 := by rintro rfl; rw [unpack_zero] at e; simp at e
    rw [unpack_pos n0] at e
    obtain ⟨-, e2⟩ := List.cons.inj e
    have n1 : n / 256 ≠ 0 := by intro h; rw [h, unpack_zero] at e2; simp at e2
    rw [unpack_pos n1] at e2
    obtain ⟨-, e3⟩ := List.cons.inj e2
    exact ⟨_, e3, by rw [unpack_starOf, e3]; exact hs⟩
  refine ⟨?_, ?_, ?_, ?_, ?_, ?_⟩
  · intro r hr s hs
    obtain ⟨a, rfl, h⟩ := anc r hr s hs
    obtain ⟨p, f, -, h⟩ := Table.find_all h hT
    rcases (entryOK_sound h).2 with ⟨-, h | h⟩ | ⟨-, h, -⟩
    · exact .inr (.inr (List.mem_map_of_mem h))
    · exact .inl (used h)
    · exact .inr (.inl (by rw [← unpack_starOf]; exact used h))
  · intro r hr t s ht hs hst
    obtain ⟨n, h1, h2, rfl⟩ := mem_rulesIn.1 hr
    obtain ⟨a, rfl, ha⟩ := star_of hst
    rcases ruleOK_sound ((lineOK_sound (hl n h1)).2 h2) with ⟨h3, -, -⟩ | ⟨l, p, hl', e, h3, h4⟩
    · exact absurd (ht.subset (by simp)) h3
    · rw [e] at ht
      have hs' : 46 :: unpack a <:+ unpack p := by
        rcases suffix_dot hl' ht with rfl | h5
        · exact hs
        · exact hs.trans ((List.suffix_cons _ _).trans h5)
      obtain ⟨a', e1, e2⟩ := chain_sound h4 _ hs'
      obtain rfl := unpack_inj _ _ e1
      obtain ⟨q, f, h6, h7⟩ := Table.find_all (Table.find_and e2 (mark _ ha)) hT
      rcases (entryOK_sound h7).2 with ⟨rfl, -⟩ | ⟨-, -, -, -, rfl | h⟩
      · simp at h6
      · simp at h6
      · exact List.mem_map_of_mem h
  · intro t ht
    obtain ⟨n, h1, h2, e⟩ := mem_rulesIn.1 ht
    have n0 : n ≠ 0 := by rintro rfl; rw [unpack_zero] at e; simp at e
    have hm : n % 256 = 33 := by
      rw [unpack_pos n0] at e
      have := congrArg UInt8.toNat (List.cons.inj e).1
      simp at this
      exact this
    rcases ruleOK_sound ((lineOK_sound (hl n h1)).2 h2) with ⟨-, h3, -⟩ | ⟨l, p, hl', e', h3, -⟩
    · exact absurd hm h3
    · rw [e] at e'
      cases l with
      | nil => simp at e'
      | cons c l =>
        simp only [List.cons_append, List.cons.injEq] at e'
        have hnd : Nat.mod n 65536 ≠ 11818 := by rw [mod_def]; omega
        rw [show Nat.mod n 256 = 33 from hm, beq_false hnd] at h3
        refine ⟨l, unpack p, fun h => hl' (List.mem_cons_of_mem _ h), ?_, e'.2, ?_⟩
        · rintro rfl
          rw [unpack_pos n0] at e
          have e2 := (List.cons.inj e).2
          rw [e'.2] at e2
          have n1 : n / 256 ≠ 0 := by intro h; rw [h, unpack_zero] at e2; simp at e2
          rw [unpack_pos n1] at e2
          have := congrArg UInt8.toNat (List.cons.inj e2).1
          simp at this
          rw [show Nat.mod (Nat.div n 256) 256 = 42 from this] at h3
          obtain ⟨q, f, h6, -⟩ := Table.find_all h3 hT
          simp at h6
        have h4 : T.find (fun _ s => Nat.ble 1 s) p = true := by
          refine find_mono (fun _ s h => ?_) h3
          simp only [Bool.cond_eq_ite] at h
          split at h
          · rename_i h'; exact absurd h' (by simp)
          · split at h
            · split at h
              · simp at h
              · exact h
            · rename_i h'; simp at h'
        obtain ⟨q, f, h6, h7⟩ := Table.find_all h4 hT
        rcases (entryOK_sound h7).2 with ⟨rfl, -⟩ | ⟨-, h, -⟩
        · simp at h6
        · rw [← unpack_starOf]; exact used h
  · intro r hr s hs
    obtain ⟨a, rfl, h⟩ := anc r hr s hs
    obtain ⟨p, f, -, h⟩ := Table.find_all h hT
    exact (entryOK_sound h).1
  · intro h
    obtain ⟨n, h1, h2, e⟩ := mem_rulesIn.1 h
    obtain rfl : n = 42 := unpack_inj _ _ (by rw [e]; decide +kernel)
    rcases ruleOK_sound ((lineOK_sound (hl _ h1)).2 h2) with ⟨-, -, h3⟩ | ⟨l, p, hl', e', -⟩
    · exact h3 rfl
    · rw [e] at e'
      have := congrArg (fun x : Bytes => (46 : UInt8) ∈ x) e'
      simp at this
  · intro s hs
    obtain ⟨a, rfl, ha⟩ := star_of hs
    obtain ⟨q, f, h6, h7⟩ := Table.find_all (mark _ ha) hT
    rcases (entryOK_sound h7).2 with ⟨rfl, -⟩ | ⟨-, -, h1, h2, -⟩
    · simp at h6
    · exact ⟨h1, h2⟩

end Fasttld.Inv
