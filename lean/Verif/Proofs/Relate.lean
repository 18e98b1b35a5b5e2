import Verif.Proofs.Cut
import Verif.Proofs.Invalid
import Verif.Proofs.IPv4Host
import Verif.Proofs.WalkSpec

/-!
# Relating runs on different hosts
-/

set_option linter.unusedSimpArgs false

namespace Fasttld
open Spec

/-! ## The character check on joined labels -/

/-- The characters of a text. -/
def runes (s : Bytes) : List Nat := (toks s).map Prod.fst

theorem runes_append_sep (x y : Bytes) {s : Nat} (hs : s ∈ separators) :
    runes (x ++ encode s ++ y) = runes x ++ s :: runes y := by
  have h : IsScalar s := (goodSet_separators s hs).1
  unfold runes
  rw [toks_append_encode x h]; simp

theorem runes_ne_nil {x : Bytes} (h : x ≠ []) : runes x ≠ [] := by
  intro hc
  unfold runes at hc
  rw [List.map_eq_nil_iff] at hc
  have := flat_toks x
  rw [hc] at this; exact h this.symm

theorem runes_free {x : Bytes} (h : FreeOf separators x) : ∀ c ∈ runes x, c ∉ separators := by
  intro c hc
  obtain ⟨t, ht, rfl⟩ := List.mem_map.1 hc
  exact (freeOf_iff goodSet_separators).1 h t ht

/-- The check on the characters. -/
def RunesOK (cs : List Nat) : Prop :=
  cs.head? ≠ some 45 ∧ (∀ a ∈ strictSeparators, cs.head? ≠ some a) ∧ cs.getLast? ≠ some 45 ∧
  (∀ a ∈ strictSeparators, ∀ b ∈ strictSeparators, ¬ [a, b] <:+: cs) ∧
  ∀ c ∈ cs, ¬ (c ∈ invalidChars ∧ c ∉ missedChars)

theorem hostCharsOK_iff (s : Bytes) : HostCharsOK s ↔ RunesOK (runes s) := by
  rw [← hasInvalidChars_false_iff, hasInvalidChars_eq, badChars_false_iff]
  unfold RunesOK runes
  simp
  grind

theorem pair_infix_append {α : Type} (a b : α) (X Y : List α) :
    [a, b] <:+: X ++ Y ↔ [a, b] <:+: X ∨ [a, b] <:+: Y ∨ (X.getLast? = some a ∧ Y.head? = some b) := by
  induction X with
  | nil => simp
  | cons x X ih =>
    rw [List.cons_append, List.infix_cons_iff, List.infix_cons_iff, ih]
    cases X with
    | nil =>
      cases Y with
      | nil => simp
      | cons y Y => simp; grind
    | cons x' X => simp [List.getLast?_cons_cons]; grind

theorem strict_sub {a : Nat} (h : a ∈ strictSeparators) : a ∈ separators := by
  revert a; decide

theorem sep_not_invalid {a : Nat} (h : a ∈ separators) : a ∉ invalidChars := by
  revert a; decide +kernel

theorem sep_ne_dash {a : Nat} (h : a ∈ separators) : a ≠ 45 := by
  revert a; decide

/-- A label put before a text that passes the check. -/
theorem hostCharsOK_prepend {x y : Bytes} {s : Nat} (hs : s ∈ separators) (hx : x ≠ []) (hf : FreeOf separators x)
    (hx1 : ¬ encode 45 <+: x) (hx2 : ∀ c ∈ invalidChars, c ∉ missedChars → ¬ encode c <:+: x) (hy : HostCharsOK y) :
    HostCharsOK (x ++ encode s ++ y) := by
  rw [hostCharsOK_iff] at hy ⊢
  rw [runes_append_sep x y hs]
  have hX := runes_ne_nil hx
  have hF := runes_free hf
  have h45 : IsScalar 45 ∧ (45 : Nat) ≠ 0xFFFD := by decide
  have g1 : (runes x).head? ≠ some 45 := by
    intro hc
    apply hx1
    rw [prefix_encode_iff h45.1 h45.2]
    unfold runes at hc
    cases ht : toks x with
    | nil => rw [ht] at hc; simp at hc
    | cons t B =>
      rw [ht] at hc
      simp at hc
      exact ⟨B, t, rfl, hc⟩
  have g2 : ∀ c ∈ runes x, ¬ (c ∈ invalidChars ∧ c ∉ missedChars) := by
    rintro c hc ⟨hi, hm⟩
    apply hx2 c hi hm
    have g := goodSet_invalid c hi
    rw [infix_encode_iff g.1 g.2]
    unfold runes at hc
    simpa [List.mem_map] using hc
  have hlX : ∀ a ∈ separators, (runes x).getLast? ≠ some a := fun a ha hc => hF a (List.mem_of_getLast? hc) ha
  have hhX : ∀ a ∈ separators, (runes x).head? ≠ some a := fun a ha hc => hF a (List.mem_of_head? hc) ha
  obtain ⟨y1, y2, y3, y4, y5⟩ := hy
  have hh : (runes x ++ s :: runes y).head? = (runes x).head? := by
    cases hr : runes x with
    | nil => exact absurd hr hX
    | cons => rfl
  refine ⟨by rw [hh]; exact g1, fun a ha => by rw [hh]; exact hhX a (strict_sub ha), ?_, ?_, ?_⟩
  · rw [List.getLast?_append, List.getLast?_cons]
    simp
    cases hl : (runes y).getLast? with
    | none => simpa using sep_ne_dash hs
    | some z => rw [hl] at y3; simpa using y3
  · intro a ha b hb h
    rw [pair_infix_append] at h
    rcases h with h | h | h
    · exact hF a (h.subset (by simp)) (strict_sub ha)
    · rw [List.infix_cons_iff] at h
      rcases h with h | h
      · simp at h
        exact y2 b hb (by
          obtain ⟨-, h⟩ := h
          cases hr : runes y with
          | nil => rw [hr] at h; simp at h
          | cons z Z => rw [hr] at h; simp at h; simp [h])
      · exact y4 a ha b hb h
    · exact hlX a (strict_sub ha) h.1
  · intro c hc
    simp only [List.mem_append, List.mem_cons] at hc
    rcases hc with hc | rfl | hc
    · exact g2 c hc
    · exact fun h => sep_not_invalid hs h.1
    · exact y5 c hc

/-- The end of a text that passes the check. -/
theorem hostCharsOK_suffix {y z : Bytes} (hy : HostCharsOK y) (hz : z <:+ y) (h1 : ¬ encode 45 <+: z)
    (h2 : ∀ a ∈ strictSeparators, ¬ encode a <+: z) : HostCharsOK z :=
  ⟨h1, fun h => hy.2.1 (h.trans hz), h2, fun a ha b hb h => hy.2.2.2.1 a ha b hb (h.trans hz.isInfix),
    fun c hc hm h => hy.2.2.2.2 c hc hm (h.trans hz.isInfix)⟩

/-! ## A label more -/

theorem lab_snoc {x h : Bytes} {rt : List SepLabel} {s k : Nat} (hk : k ≤ rt.length) :
    lab x (rt ++ [(s, h)]) k = lab h rt k := by
  unfold lab
  rw [List.drop_append_of_le_length hk]
  cases rt.drop k with
  | nil => rfl
  | cons p r => rfl

theorem pre_snoc {x h : Bytes} {rt : List SepLabel} {s k : Nat} (hk : k ≤ rt.length) :
    pre x (rt ++ [(s, h)]) k = x ++ encode s ++ pre h rt k := by
  unfold pre
  rw [List.drop_append_of_le_length hk, joinR_append, ← joinR_prepend]
  rfl

theorem seg_snoc {x h : Bytes} {rt : List SepLabel} {s a b : Nat} (hab : a < b) (hb : b ≤ rt.length + 1) :
    seg x (rt ++ [(s, h)]) a b = seg h rt a b := by
  unfold seg
  rw [lab_snoc (by omega), List.drop_append_of_le_length (by omega), List.take_append_of_le_length (by simp; omega)]

theorem leadEmpty_snoc {h : Bytes} {rt : List SepLabel} {s : Nat} (hne : lab h rt (leadEmpty rt) ≠ []) :
    leadEmpty (rt ++ [(s, h)]) = leadEmpty rt := by
  induction rt with
  | nil => simpa [leadEmpty, lab] using hne
  | cons p rt ih =>
    obtain ⟨s', l⟩ := p
    simp only [List.cons_append, leadEmpty]
    by_cases hl : l = []
    · rw [if_pos hl, if_pos hl, ih]
      simpa [leadEmpty, hl, lab] using hne
    · rw [if_neg hl, if_neg hl]

theorem labels_snoc {x h : Bytes} {rt : List SepLabel} {s k : Nat} (hk : k ≤ rt.length) :
    labels x (rt ++ [(s, h)]) k = labels h rt k ++ [x] := by
  unfold labels
  rw [List.drop_append_of_le_length hk]; simp

/-- Outcomes of one label do not depend on whether it is the first, unless the label is matched by a node. -/
theorem labelL_last {node : Trie} {l : Bytes} {b : Bool} {k : Nat} {endK : Option Nat} {o : Out}
    (h : labelL node l b k endK = .stop o) (hs : o.start = k) (b' : Bool) : labelL node l b' k endK = .stop o := by
  unfold labelL at h ⊢
  split at h
  · exact h
  · split at h
    · exact h
    · simp only at h
      split at h
      · simp only [LabelStep.stop.injEq] at h
        rw [← h] at hs; simp at hs
      · simp at h

theorem labelL_prev {node : Trie} {l : Bytes} {b : Bool} {k : Nat} {endK : Option Nat} {o : Out}
    (h : labelL node l b k endK = .stop o) : o.prev = k ∧ k ≤ o.start ∧ o.start ≤ k + 1 ∧ o.start ≤ o.sep ∧
      o.sep ≤ k + 1 := by
  unfold labelL at h
  split at h
  · simp only [LabelStep.stop.injEq] at h; rw [← h]; simp only; split <;> simp
  · split at h
    · simp only [LabelStep.stop.injEq] at h; rw [← h]; simp
    · simp only at h
      split at h
      · simp only [LabelStep.stop.injEq] at h; rw [← h]; simp
      · simp at h

theorem walkL_prev {node ls k endK o} (h : walkL node ls k endK = some o) : k ≤ o.prev := by
  induction ls generalizing node k endK with
  | nil => simp only [walkL, Option.some.injEq] at h; rw [← h]; exact Nat.le_refl _
  | cons l ls ih =>
    rw [walkL] at h
    split at h
    · simp at h
    · split at h
      · rename_i o' ho
        injection h with h; subst h
        rw [(labelL_prev ho).1]; exact Nat.le_refl _
      · have := ih h; omega

theorem walkL_sep {node ls k endK o} (h : walkL node ls k endK = some o) (hne : ls ≠ []) : o.prev ≤ o.start ∧ o.start ≤ o.sep := by
  induction ls generalizing node k endK with
  | nil => exact absurd rfl hne
  | cons l ls ih =>
    rw [walkL] at h
    split at h
    · simp at h
    · split at h
      · rename_i o' ho
        injection h with h; subst h
        have := labelL_prev ho
        omega
      · rename_i val e' hn
        exact ih h (by simpa using (labelL_next hn).1)

/-- A walk that ends before the last label, or there without a match, does not change with more labels. -/
theorem walkL_snoc {node : Trie} {ls : List Bytes} {k : Nat} {endK : Option Nat} {o : Out} (x : Bytes)
    (h : walkL node ls k endK = some o) (hne : ls ≠ []) (hs : o.start < k + ls.length)
    (hl : ∀ l, ls[o.prev - k]? = some l → l ≠ []) : walkL node (ls ++ [x]) k endK = some o := by
  induction ls generalizing node k endK with
  | nil => exact absurd rfl hne
  | cons l ls ih =>
    rw [walkL] at h
    rw [List.cons_append, walkL]
    split at h
    · simp at h
    rename_i hc
    cases hlab : labelL node l ls.isEmpty k endK with
    | stop o' =>
      rw [hlab] at h
      simp only [Option.some.injEq] at h
      subst h
      have hp := labelL_prev hlab
      have hlne : l ≠ [] := hl l (by rw [hp.1]; simp)
      rw [if_neg (by simp [hlne])]
      cases ls with
      | nil =>
        simp at hs
        rw [labelL_last hlab (by omega)]
      | cons l' ls =>
        have : (l' :: ls ++ [x]).isEmpty = (l' :: ls).isEmpty := by simp
        rw [this, hlab]
    | next v e' =>
      rw [hlab] at h
      simp only at h
      have hls : ls ≠ [] := by simpa using (labelL_next hlab).1
      have hlne : l ≠ [] := fun h => hc ⟨h, hls⟩
      rw [if_neg (by simp [hlne])]
      have he : (ls ++ [x]).isEmpty = ls.isEmpty := by
        cases ls with
        | nil => exact absurd rfl hls
        | cons => rfl
      rw [he, hlab]
      simp only
      have hpb := walkL_prev h
      refine ih h hls (by simp at hs; omega) ?_
      intro l' hl'
      apply hl l'
      have : o.prev - k = (o.prev - (k + 1)) + 1 := by omega
      rw [this]; simpa using hl'

/-- A walk needs only the labels up to the one before the suffix. -/
theorem walkL_take {node : Trie} {ls : List Bytes} {k : Nat} {endK : Option Nat} {o : Out}
    (h : walkL node ls k endK = some o) (hs : o.sep < k + ls.length) :
    walkL node (ls.take (o.sep - k + 1)) k endK = some o := by
  induction ls generalizing node k endK with
  | nil =>
    simp only [walkL, Option.some.injEq] at h; rw [← h] at hs; simp at hs
  | cons l ls ih =>
    rw [walkL] at h
    split at h
    · simp at h
    rename_i hc
    rw [List.take_succ_cons, walkL]
    have htl : ls.take (o.sep - k) ≠ [] → ls ≠ [] := by rintro h rfl; simp at h
    rw [if_neg (fun hh => hc ⟨hh.1, htl hh.2⟩)]
    cases hlab : labelL node l ls.isEmpty k endK with
    | stop o' =>
      rw [hlab] at h
      simp only [Option.some.injEq] at h
      subst h
      have hp := labelL_prev hlab
      rcases Nat.lt_or_ge k o'.sep with h1 | h1
      · have h2 : o'.sep - k = 1 := by omega
        have h3 : (ls.take (o'.sep - k)).isEmpty = ls.isEmpty := by
          rw [h2]
          cases ls <;> simp
        rw [h3, hlab]
      · rw [labelL_last hlab (by omega)]
    | next v e' =>
      rw [hlab] at h
      simp only at h
      have hls : ls ≠ [] := by simpa using (labelL_next hlab).1
      have hpb := walkL_prev h
      have hsb := walkL_sep h hls
      have h3 : (ls.take (o.sep - k)).isEmpty = ls.isEmpty := by
        obtain ⟨j, hj⟩ : ∃ j, o.sep - k = j + 1 := ⟨o.sep - k - 1, by omega⟩
        rw [hj]
        cases ls <;> simp
      rw [h3, hlab]
      simp only
      have := ih h (by simp at hs; omega)
      have h4 : o.sep - k = o.sep - (k + 1) + 1 := by omega
      rw [h4]; exact this

/-- The label the walk ended at is not empty. -/
theorem NameOK.prev_ne {trie : Trie} {n : Bytes} {o : Out} (h : NameOK trie n o) {e : Nat} (he : o.endK = some e) :
    lab (hostSplit n).1 (hostSplit n).2 o.prev ≠ [] := by
  obtain ⟨s1, s2, s3, s4, s5, s6, s7, s8, s9⟩ := h.some_case e he
  rcases Nat.lt_or_ge o.prev (hostSplit n).2.length with h1 | h1
  · have := walkL_nonempty h.walk (i := o.prev - leadEmpty (hostSplit n).2) (by omega) (by rw [labels_length]; omega)
    rw [labels_get (by omega)] at this
    rw [show leadEmpty (hostSplit n).2 + (o.prev - leadEmpty (hostSplit n).2) = o.prev by omega] at this
    intro hc; rw [hc] at this; exact this rfl
  · have : o.prev = o.sep := by omega
    rw [this]; exact s5

/-- The first label from the right that is looked at is not empty. -/
theorem NameOK.lead_ne {trie : Trie} {n : Bytes} {o : Out} (h : NameOK trie n o) :
    lab (hostSplit n).1 (hostSplit n).2 (leadEmpty (hostSplit n).2) ≠ [] := by
  cases he : o.endK with
  | none => exact h.none_case he
  | some e =>
    obtain ⟨s1, s2, s3, s4, -⟩ := h.some_case e he
    rcases (leadEmpty_spec (hostSplit n).1 (hostSplit n).2).2 with h1 | h1
    · have := congrArg List.length h1
      rw [labels_length] at this
      simp at this; omega
    · exact h1

theorem walkL_top_start {node ls k o} (ht : TopComplete node) (h : walkL node ls k none = some o) (hne : ls ≠ [])
    (he : o.endK = none) : o.prev = k ∧ o.start = k := by
  cases ls with
  | nil => exact absurd rfl hne
  | cons l ls =>
    have hp := (walkL_top ht h hne).1 he
    refine ⟨hp, ?_⟩
    rw [walkL] at h
    split at h
    · simp at h
    cases hlab : labelL node l ls.isEmpty k none with
    | stop o' =>
      rw [hlab] at h
      simp only [Option.some.injEq] at h
      subst h
      unfold labelL at hlab
      split at hlab
      · simp only [LabelStep.stop.injEq] at hlab; rw [← hlab]
      · split at hlab
        · simp only [LabelStep.stop.injEq] at hlab; rw [← hlab]
        · rename_i v hv
          simp only [ht _ _ hv, and_self, if_true] at hlab
          split at hlab
          · simp only [LabelStep.stop.injEq] at hlab; rw [← hlab] at he; simp at he
          · simp at hlab
    | next v e' =>
      rw [hlab] at h
      have := walkL_prev h
      omega

theorem hostSplit_prepend {n x : Bytes} {s : Nat} (hs : s ∈ separators) (hf : FreeOf separators x) :
    hostSplit (x ++ encode s ++ n) = (x, (hostSplit n).2 ++ [(s, (hostSplit n).1)]) := by
  have g := hostSplit_good n
  rw [← hostSplit_joinR (h := x) (rt := (hostSplit n).2 ++ [(s, (hostSplit n).1)])]
  · rw [joinR_append]
    simp only [joinR]
    rw [joinR_prepend, hostSplit_join]
  · refine ⟨hf, fun p hp => ?_⟩
    simp only [List.mem_append, List.mem_cons, List.mem_nil_iff, or_false] at hp
    rcases hp with hp | rfl
    · exact g.2 p hp
    · exact ⟨hs, g.1⟩

/-- A label put before an accepted name. -/
theorem name_prepend {trie : Trie} {n x : Bytes} {o : Out} {s : Nat} (h : NameOK trie n o)
    (ht : o.endK ≠ none ∨ TopComplete trie) (hs : s ∈ separators) (hx : x ≠ []) (hf : FreeOf separators x)
    (hx1 : ¬ encode 45 <+: x) (hx2 : ∀ c ∈ invalidChars, c ∉ missedChars → ¬ encode c <:+: x)
    (h4 : ¬ IsIPv4 (x ++ encode s ++ n)) : NameOK trie (x ++ encode s ++ n) o := by
  have hsp := hostSplit_prepend (n := n) hs hf
  have hle := leadEmpty_le (hostSplit n).2
  have hlead : leadEmpty (hostSplit (x ++ encode s ++ n)).2 = leadEmpty (hostSplit n).2 := by
    rw [hsp]; exact leadEmpty_snoc h.lead_ne
  -- the walk ends inside of the old labels
  have hin : o.prev ≤ (hostSplit n).2.length ∧ o.start ≤ (hostSplit n).2.length ∧
      lab (hostSplit n).1 (hostSplit n).2 o.prev ≠ [] := by
    cases he : o.endK with
    | some e =>
      obtain ⟨s1, s2, s3, s4, s5, s6, s7, s8, s9⟩ := h.some_case e he
      exact ⟨by omega, by omega, h.prev_ne he⟩
    | none =>
      have ht' : TopComplete trie := by
        rcases ht with ht | ht
        · exact absurd he ht
        · exact ht
      obtain ⟨p1, p2⟩ := walkL_top_start ht' h.walk (labels_ne_nil _ _ _) he
      rw [p1, p2]
      exact ⟨hle, hle, h.none_case he⟩
  refine ⟨?_, h4, ?_, ?_, ?_⟩
  · rw [hlead, hsp, labels_snoc hle]
    have hp := walkL_prev h.walk
    apply walkL_snoc x h.walk (labels_ne_nil _ _ _)
    · rw [labels_length]; omega
    · intro l hl
      rw [labels_get (by omega)] at hl
      rw [show leadEmpty (hostSplit n).2 + (o.prev - leadEmpty (hostSplit n).2) = o.prev by omega] at hl
      injection hl with hl
      rw [← hl]; exact hin.2.2
  · have hc := h.chars
    rw [hsp]
    unfold checkedText at hc ⊢
    cases he : o.endK with
    | none =>
      rw [he] at hc
      simp only at hc ⊢
      rw [pre_snoc hin.1, hasInvalidChars_false_iff]
      exact hostCharsOK_prepend hs hx hf hx1 hx2 ((hasInvalidChars_false_iff _).1 hc)
    | some e =>
      rw [he] at hc
      obtain ⟨s1, s2, s3, s4, s5, s6, s7, s8, s9⟩ := h.some_case e he
      simp only at hc ⊢
      rw [if_pos s4] at hc
      rw [if_pos (by simp; omega), pre_snoc hin.2.1, hasInvalidChars_false_iff]
      exact hostCharsOK_prepend hs hx hf hx1 hx2 ((hasInvalidChars_false_iff _).1 hc)
  · intro he
    rw [hlead, hsp, lab_snoc hle]
    exact h.none_case he
  · intro e he
    obtain ⟨s1, s2, s3, s4, s5, s6, s7, s8, s9⟩ := h.some_case e he
    rw [hlead, hsp, lab_snoc s4, lab_snoc (by omega)]
    exact ⟨s1, s2, s3, by simp; omega, s5, s6, s7, s8, s9⟩

theorem sub_le {h : Bytes} {rt : List SepLabel} {k : Nat} (hk : k ≤ rt.length) : sub h rt false k = pre h rt k := by
  simp [sub, hk]

theorem sub_gt {h : Bytes} {rt : List SepLabel} {k : Nat} {ig : Bool} (hk : rt.length < k) : sub h rt ig k = [] := by
  unfold sub; rw [if_neg (by omega)]

/-- The parts after a label is put before an accepted name. -/
theorem parts_prepend {trie : Trie} {n x : Bytes} {o : Out} {s : Nat} {r r' : ExtractResult} {ig ig' : Bool}
    (h : NameOK trie n o) (hs : s ∈ separators) (hf : FreeOf separators x)
    (hr : NameParts ig n o r) (hr' : NameParts ig' (x ++ encode s ++ n) o r') :
    r'.domain = r.domain ∧ r'.suffix = r.suffix ∧ r'.registeredDomain = r.registeredDomain ∧
    (ig = false → ig' = false → (∀ a ∈ separators, ¬ encode a <+: n) →
      r'.subDomain = if r.subDomain = [] then x else x ++ encode s ++ r.subDomain) := by
  have hsp := hostSplit_prepend (n := n) hs hf
  have hle := leadEmpty_le (hostSplit n).2
  have hlead : leadEmpty (hostSplit (x ++ encode s ++ n)).2 = leadEmpty (hostSplit n).2 := by
    rw [hsp]; exact leadEmpty_snoc h.lead_ne
  have hsub : ∀ k, k ≤ (hostSplit n).2.length → (∀ a ∈ separators, ¬ encode a <+: n) →
      sub x ((hostSplit n).2 ++ [(s, (hostSplit n).1)]) false (k + 1) =
        if sub (hostSplit n).1 (hostSplit n).2 false (k + 1) = [] then x
        else x ++ encode s ++ sub (hostSplit n).1 (hostSplit n).2 false (k + 1) := by
    intro k hk hn
    rw [sub_le (by simp; omega)]
    by_cases h1 : k + 1 ≤ (hostSplit n).2.length
    · rw [sub_le h1, pre_snoc h1, if_neg]
      intro hc
      -- the first label would be empty
      obtain ⟨s', hs', -, h2⟩ := pre_split (h := (hostSplit n).1) (rt := (hostSplit n).2) (a := k) (b := k + 1) (by omega) h1
      rw [hc] at h2
      have hp := pre_prefix (h := (hostSplit n).1) (rt := (hostSplit n).2) (a := 0) (b := k) (by omega) hk
      rw [pre_zero, hostSplit_join, h2] at hp
      obtain ⟨z, hp⟩ := hp
      exact hn s' (mem_seps (hostSplit_good n) hs')
        ⟨seg (hostSplit n).1 (hostSplit n).2 k (k + 1) ++ z, by simpa using hp.symm⟩
    · rw [sub_gt (by omega), if_pos rfl, pre_eq_head (by simp; omega)]
  unfold NameParts at hr hr'
  rw [hlead, hsp] at hr'
  cases he : o.endK with
  | none =>
    rw [he] at hr hr'
    obtain ⟨-, q1, q2, q3, q4⟩ := hr
    obtain ⟨-, q1', q2', q3', q4'⟩ := hr'
    rw [lab_snoc hle] at q3'
    refine ⟨by rw [q3, q3'], by rw [q1, q1'], by rw [q2, q2'], ?_⟩
    rintro rfl rfl hn
    rw [q4', q4, hsub _ hle hn]
  | some e =>
    rw [he] at hr hr'
    obtain ⟨s1, s2, s3, s4, s5, s6, s7, s8, s9⟩ := h.some_case e he
    obtain ⟨-, q1, q2, q3, q4⟩ := hr
    obtain ⟨-, q1', q2', q3', q4'⟩ := hr'
    rw [lab_snoc s4] at q3'
    rw [seg_snoc s3 (by omega)] at q1'
    rw [seg_snoc (by omega) (by omega)] at q2'
    refine ⟨by rw [q3, q3'], by rw [q1, q1'], by rw [q2, q2'], ?_⟩
    rintro rfl rfl hn
    rw [q4', q4, hsub _ s4 hn]

/-! ## The registered domain alone -/

/-- A character at the start of a text is at the start of its first label. -/
theorem prefix_first {f z : Bytes} {a : Nat} (ha : IsScalar a) (ha' : a ≠ 0xFFFD) (hf : f ≠ [])
    (hz : z = [] ∨ ∃ s ∈ separators, ∃ w, z = encode s ++ w) (h : encode a <+: f ++ z) : encode a <+: f := by
  rcases hz with rfl | ⟨s, hs, w, rfl⟩
  · simpa using h
  · rw [← List.append_assoc] at h
    rw [prefix_encode_iff ha ha'] at h ⊢
    rw [toks_append_encode f (goodSet_separators s hs).1] at h
    have hne : toks f ≠ [] := by
      intro hc
      have := flat_toks f
      rw [hc] at this; exact hf this.symm
    obtain ⟨B, t, h1, h2⟩ := h
    cases ht : toks f with
    | nil => exact absurd ht hne
    | cons t' B' =>
      rw [ht] at h1
      simp only [List.cons_append, List.cons.injEq] at h1
      exact ⟨B', t', rfl, h1.1 ▸ h2⟩

theorem labels_take {h : Bytes} {rt : List SepLabel} {e b : Nat} (he : e ≤ b) (hb : b ≤ rt.length) :
    labels (lab h rt b) ((rt.drop e).take (b - e)) 0 = (labels h rt e).take (b - e + 1) := by
  rw [List.take_add_one, labels_get (by omega), show e + (b - e) = b by omega]
  unfold labels
  rw [List.take_append_of_le_length (by simp; omega)]
  simp

/-- The registered domain of an accepted name is an accepted name. -/
theorem name_registered {trie : Trie} {n : Bytes} {o : Out} {e : Nat} (h : NameOK trie n o)
    (hk : e = leadEmpty (hostSplit n).2) (he : o.endK = some e)
    (h4 : ¬ IsIPv4 (seg (hostSplit n).1 (hostSplit n).2 e (o.sep + 1)))
    (hd : ¬ encode 45 <+: lab (hostSplit n).1 (hostSplit n).2 o.sep) :
    NameOK trie (seg (hostSplit n).1 (hostSplit n).2 e (o.sep + 1)) ⟨some 0, o.prev - e, o.start - e, o.sep - e⟩ ∧
    hostSplit (seg (hostSplit n).1 (hostSplit n).2 e (o.sep + 1)) =
      (lab (hostSplit n).1 (hostSplit n).2 o.sep, ((hostSplit n).2.drop e).take (o.sep - e)) := by
  have g := hostSplit_good n
  obtain ⟨s1, s2, s3, s4, s5, s6, s7, s8, s9⟩ := h.some_case e he
  have hpe := h.prev_ne he
  have hw := h.walk
  have hc := h.chars
  generalize hh : (hostSplit n).1 = f0 at *
  generalize hrt : (hostSplit n).2 = rt at *
  have hsp : hostSplit (seg f0 rt e (o.sep + 1)) = (lab f0 rt o.sep, (rt.drop e).take (o.sep - e)) := by
    rw [← hostSplit_joinR (h := lab f0 rt o.sep) (rt := (rt.drop e).take (o.sep - e))]
    · rfl
    · exact ⟨lab_free g _, fun p hp => g.2 p (List.mem_of_mem_drop (List.mem_of_mem_take hp))⟩
  have hlen : ((rt.drop e).take (o.sep - e)).length = o.sep - e := by simp; omega
  have hlab : ∀ i, i ≤ o.sep - e → lab (lab f0 rt o.sep) ((rt.drop e).take (o.sep - e)) i = lab f0 rt (e + i) := by
    intro i hi
    have h1 := labels_get (h := lab f0 rt o.sep) (rt := (rt.drop e).take (o.sep - e)) (k := 0) (i := i) (by omega)
    rw [labels_take (by omega) s4, List.getElem?_take_of_lt (by omega), labels_get (by omega)] at h1
    simpa using h1.symm
  have hlead : leadEmpty ((rt.drop e).take (o.sep - e)) = 0 := by
    have h0 := hlab 0 (by omega)
    cases hR : (rt.drop e).take (o.sep - e) with
    | nil => rfl
    | cons p R =>
      obtain ⟨s, l⟩ := p
      rw [hR] at h0
      simp only [lab, List.drop_zero, Nat.add_zero] at h0
      have : l ≠ [] := by
        rw [h0]; exact s6
      simp [leadEmpty, this]
  refine ⟨⟨?_, h4, ?_, by simp, ?_⟩, hsp⟩
  · rw [hsp]
    simp only
    rw [hlead, labels_take (by omega) s4]
    have h1 : walkL trie ((labels f0 rt e).take (o.sep - e + 1)) e none = some o := by
      apply walkL_take
      · rw [hk]; exact hw
      · rw [labels_length]; omega
    have h2 := walkL_add trie ((labels f0 rt e).take (o.sep - e + 1)) 0 e none
    simp only [Nat.zero_add, Option.map_none] at h2
    rw [h1] at h2
    cases ho : walkL trie ((labels f0 rt e).take (o.sep - e + 1)) 0 none with
    | none => rw [ho] at h2; simp at h2
    | some o0 =>
      rw [ho] at h2
      simp only [Option.map_some, Option.some.injEq] at h2
      rw [h2] at he ⊢
      unfold Out.shift at he ⊢
      obtain ⟨a, b, c, d⟩ := o0
      cases a with
      | none => simp at he
      | some a => simp at he ⊢; omega
  · rw [hsp]
    unfold checkedText at hc ⊢
    rw [he] at hc
    simp only at hc ⊢
    rw [if_pos s4] at hc
    rw [if_pos (by omega), hasInvalidChars_false_iff]
    have hz : pre (lab f0 rt o.sep) ((rt.drop e).take (o.sep - e)) (o.start - e) =
        joinR (lab f0 rt o.sep) ((rt.drop o.start).take (o.sep - o.start)) := by
      unfold pre
      rw [List.drop_take, List.drop_drop, show e + (o.start - e) = o.start by omega,
        show o.sep - e - (o.start - e) = o.sep - o.start by omega]
    rw [hz]
    have hsuf : joinR (lab f0 rt o.sep) ((rt.drop o.start).take (o.sep - o.start)) <:+ pre f0 rt o.start := by
      obtain ⟨front, hfr, -⟩ := pre_front g s4
      refine ⟨front, ?_⟩
      rw [← joinR_prepend, ← hfr]
      unfold pre
      rw [← joinR_append]
      congr 1
      rw [show rt.drop o.sep = (rt.drop o.start).drop (o.sep - o.start) by
        rw [List.drop_drop]; congr 1; omega]
      rw [List.take_append_drop]
    obtain ⟨z, hz1, hz2⟩ := joinR_head (lab f0 rt o.sep) ((rt.drop o.start).take (o.sep - o.start))
    have hz2' : z = [] ∨ ∃ s ∈ separators, ∃ w, z = encode s ++ w := by
      rcases hz2 with hz2 | ⟨s, hs, w, hw⟩
      · exact .inl hz2
      · obtain ⟨p, hp, rfl⟩ := List.mem_map.1 hs
        exact .inr ⟨p.1, (g.2 p (List.mem_of_mem_drop (List.mem_of_mem_take hp))).1, w, hw⟩
    apply hostCharsOK_suffix ((hasInvalidChars_false_iff _).1 hc) hsuf
    · intro hp
      rw [hz1] at hp
      exact hd (prefix_first (by decide) (by decide) s5 hz2' hp)
    · intro a ha hp
      rw [hz1] at hp
      have ga := goodSet_strict a ha
      have := prefix_first ga.1 ga.2 s5 hz2' hp
      exact lab_free g o.sep a (strict_sub ha) this.isInfix
  · intro e' he'
    simp only [Option.some.injEq] at he'
    subst he'
    rw [hsp]
    simp only
    rw [hlead, hlen, hlab _ (by omega), hlab _ (by omega), show e + (o.sep - e) = o.sep by omega, Nat.add_zero]
    exact ⟨by omega, by omega, by omega, by omega, s5, s6, by omega, by omega, by omega⟩

/-- The parts of the registered domain. -/
theorem parts_registered {trie : Trie} {n : Bytes} {o : Out} {e : Nat} (h : NameOK trie n o) (he : o.endK = some e)
    (hsp : hostSplit (seg (hostSplit n).1 (hostSplit n).2 e (o.sep + 1)) =
      (lab (hostSplit n).1 (hostSplit n).2 o.sep, ((hostSplit n).2.drop e).take (o.sep - e)))
    {ig ig' : Bool} {r r' : ExtractResult} (hr : NameParts ig n o r)
    (hr' : NameParts ig' (seg (hostSplit n).1 (hostSplit n).2 e (o.sep + 1)) ⟨some 0, o.prev - e, o.start - e, o.sep - e⟩ r') :
    r'.domain = r.domain ∧ r'.suffix = r.suffix ∧ r'.registeredDomain = r.registeredDomain ∧ r'.subDomain = [] := by
  obtain ⟨s1, s2, s3, s4, s5, s6, s7, s8, s9⟩ := h.some_case e he
  unfold NameParts at hr hr'
  rw [hsp] at hr'
  rw [he] at hr
  obtain ⟨-, q1, q2, q3, q4⟩ := hr
  obtain ⟨-, q1', q2', q3', q4'⟩ := hr'
  simp only at q1' q2' q3' q4'
  generalize (hostSplit n).1 = f0 at *
  generalize (hostSplit n).2 = rt at *
  have hlen : ((rt.drop e).take (o.sep - e)).length = o.sep - e := by simp; omega
  have hlab : ∀ i, i ≤ o.sep - e → lab (lab f0 rt o.sep) ((rt.drop e).take (o.sep - e)) i = lab f0 rt (e + i) := by
    intro i hi
    have h1 := labels_get (h := lab f0 rt o.sep) (rt := (rt.drop e).take (o.sep - e)) (k := 0) (i := i) (by omega)
    rw [labels_take (by omega) s4, List.getElem?_take_of_lt (by omega), labels_get (by omega)] at h1
    simpa using h1.symm
  rw [sub_gt (by omega)] at q4'
  rw [hlab _ (by omega), show e + (o.sep - e) = o.sep by omega] at q3'
  refine ⟨by rw [q3, q3'], ?_, ?_, q4'⟩
  · rw [q1, q1']
    unfold seg
    rw [hlab _ (by omega), show e + (o.sep - e - 1) = o.sep - 1 by omega]
    simp only [List.drop_zero, Nat.sub_zero, List.take_take]
    congr 2; omega
  · rw [q2, q2']
    unfold seg
    rw [show o.sep - e + 1 - 1 = o.sep - e by omega, hlab _ (by omega), show e + (o.sep - e) = o.sep by omega]
    simp only [List.drop_zero, Nat.sub_zero, List.take_take, Nat.add_sub_cancel]
    congr 2; omega

/-! ## Other separators -/

/-- Two lists of labels that differ at most in their separators. -/
def SameLabs (rt rt' : List SepLabel) : Prop := rt.map Prod.snd = rt'.map Prod.snd

theorem SameLabs.drop {rt rt' : List SepLabel} (h : SameLabs rt rt') (k : Nat) : SameLabs (rt.drop k) (rt'.drop k) := by
  unfold SameLabs at *; rw [List.map_drop, List.map_drop, h]

theorem SameLabs.take {rt rt' : List SepLabel} (h : SameLabs rt rt') (k : Nat) : SameLabs (rt.take k) (rt'.take k) := by
  unfold SameLabs at *; rw [List.map_take, List.map_take, h]

theorem SameLabs.length {rt rt' : List SepLabel} (h : SameLabs rt rt') : rt.length = rt'.length := by
  simpa using congrArg List.length h

theorem SameLabs.lab {h : Bytes} {rt rt' : List SepLabel} (hs : SameLabs rt rt') (k : Nat) : lab h rt k = lab h rt' k := by
  have := hs.drop k
  unfold Fasttld.lab
  cases h1 : rt.drop k with
  | nil => cases h2 : rt'.drop k with
    | nil => rfl
    | cons q r' => rw [h1, h2] at this; simp [SameLabs] at this
  | cons p r => cases h2 : rt'.drop k with
    | nil => rw [h1, h2] at this; simp [SameLabs] at this
    | cons q r' => rw [h1, h2] at this; simp [SameLabs] at this; exact this.1

theorem SameLabs.labels {h : Bytes} {rt rt' : List SepLabel} (hs : SameLabs rt rt') (k : Nat) :
    labels h rt k = labels h rt' k := by
  unfold Fasttld.labels
  rw [hs.drop k]

theorem SameLabs.leadEmpty {rt rt' : List SepLabel} (hs : SameLabs rt rt') : leadEmpty rt = leadEmpty rt' := by
  induction rt generalizing rt' with
  | nil => cases rt' with
    | nil => rfl
    | cons => simp [SameLabs] at hs
  | cons p r ih => cases rt' with
    | nil => simp [SameLabs] at hs
    | cons q r' =>
      obtain ⟨a, l⟩ := p
      obtain ⟨a', l'⟩ := q
      simp [SameLabs] at hs
      obtain ⟨rfl, hs⟩ := hs
      simp only [Fasttld.leadEmpty, ih hs]

/-- Characters that differ at most where both are separators. -/
def SepRel : List Nat → List Nat → Prop
  | [], [] => True
  | a :: as, b :: bs => (a = b ∨ (a ∈ separators ∧ b ∈ separators)) ∧ SepRel as bs
  | _, _ => False

theorem SepRel.refl (cs : List Nat) : SepRel cs cs := by
  induction cs with
  | nil => trivial
  | cons c cs ih => exact ⟨.inl rfl, ih⟩

theorem SepRel.append {a b c d : List Nat} (h : SepRel a b) (h' : SepRel c d) : SepRel (a ++ c) (b ++ d) := by
  induction a generalizing b with
  | nil => cases b with
    | nil => exact h'
    | cons => exact h.elim
  | cons x a ih => cases b with
    | nil => exact h.elim
    | cons y b => exact ⟨h.1, ih h.2⟩

/-- No separator at the start, no two of them next to each other. -/
def SepOnce (cs : List Nat) : Prop :=
  (∀ a ∈ separators, cs.head? ≠ some a) ∧ ∀ a ∈ separators, ∀ b ∈ separators, ¬ [a, b] <:+: cs

theorem SepRel.pair {cs cs' : List Nat} (h : SepRel cs cs') {a b : Nat} (hi : [a, b] <:+: cs') (ha : a ∈ separators)
    (hb : b ∈ separators) : ∃ a' ∈ separators, ∃ b' ∈ separators, [a', b'] <:+: cs := by
  induction cs generalizing cs' with
  | nil => cases cs' with
    | nil => simp at hi
    | cons => exact h.elim
  | cons x cs ih => cases cs' with
    | nil => simp at hi
    | cons y cs' =>
      rw [List.infix_cons_iff] at hi
      rcases hi with hi | hi
      · cases cs' with
        | nil => simp at hi
        | cons y' cs' => cases cs with
          | nil => exact h.2.elim
          | cons x' cs =>
            simp at hi
            obtain ⟨rfl, rfl⟩ := hi
            obtain ⟨h1, h2, -⟩ := h
            refine ⟨x, ?_, x', ?_, ⟨[], cs, rfl⟩⟩
            · rcases h1 with rfl | h1
              · exact ha
              · exact h1.1
            · rcases h2 with rfl | h2
              · exact hb
              · exact h2.1
      · obtain ⟨a', h1, b', h2, h3⟩ := ih h.2 hi
        exact ⟨a', h1, b', h2, h3.trans (List.suffix_cons x cs).isInfix⟩

theorem SepRel.head {cs cs' : List Nat} (h : SepRel cs cs') {c : Nat} (hc : cs'.head? = some c) :
    cs.head? = some c ∨ c ∈ separators ∧ ∃ a ∈ separators, cs.head? = some a := by
  cases cs with
  | nil => cases cs' with
    | nil => simp at hc
    | cons => exact h.elim
  | cons x cs => cases cs' with
    | nil => simp at hc
    | cons y cs' =>
      simp at hc; subst hc
      rcases h.1 with rfl | ⟨h1, h2⟩
      · exact .inl rfl
      · exact .inr ⟨h2, x, h1, rfl⟩

theorem SepRel.getLast {cs cs' : List Nat} (h : SepRel cs cs') {c : Nat} (hc : cs'.getLast? = some c) :
    cs.getLast? = some c ∨ c ∈ separators := by
  induction cs generalizing cs' with
  | nil => cases cs' with
    | nil => simp at hc
    | cons => exact h.elim
  | cons x cs ih => cases cs' with
    | nil => simp at hc
    | cons y cs' =>
      cases cs with
      | nil => cases cs' with
        | nil =>
          simp at hc; subst hc
          rcases h.1 with rfl | ⟨h1, h2⟩
          · exact .inl rfl
          · exact .inr h2
        | cons => exact h.2.elim
      | cons x' cs => cases cs' with
        | nil => exact h.2.elim
        | cons y' cs' =>
          rw [List.getLast?_cons_cons] at hc ⊢
          exact ih h.2 hc

theorem SepRel.mem {cs cs' : List Nat} (h : SepRel cs cs') {c : Nat} (hc : c ∈ cs') : c ∈ cs ∨ c ∈ separators := by
  induction cs generalizing cs' with
  | nil => cases cs' with
    | nil => simp at hc
    | cons => exact h.elim
  | cons x cs ih => cases cs' with
    | nil => simp at hc
    | cons y cs' =>
      simp only [List.mem_cons] at hc
      rcases hc with rfl | hc
      · rcases h.1 with rfl | h1
        · exact .inl (by simp)
        · exact .inr h1.2
      · rcases ih h.2 hc with h1 | h1
        · exact .inl (by simp [h1])
        · exact .inr h1

theorem SepRel.ok {cs cs' : List Nat} (h : SepRel cs cs') (ho : SepOnce cs) (hc : RunesOK cs) : RunesOK cs' := by
  obtain ⟨h1, h2, h3, h4, h5⟩ := hc
  refine ⟨?_, ?_, ?_, ?_, ?_⟩
  · intro hx
    rcases h.head hx with hx | ⟨hx, -⟩
    · exact h1 hx
    · exact sep_ne_dash hx rfl
  · intro a ha hx
    rcases h.head hx with hx | ⟨-, b, hb, hx⟩
    · exact h2 a ha hx
    · exact ho.1 b hb hx
  · intro hx
    rcases h.getLast hx with hx | hx
    · exact h3 hx
    · exact sep_ne_dash hx rfl
  · intro a ha b hb hx
    obtain ⟨a', ha', b', hb', hx⟩ := h.pair hx (strict_sub ha) (strict_sub hb)
    exact ho.2 a' ha' b' hb' hx
  · rintro c hx ⟨hi, hm⟩
    rcases h.mem hx with hx | hx
    · exact h5 c hx ⟨hi, hm⟩
    · exact sep_not_invalid hx hi

theorem sepRel_joinR {h : Bytes} {rt rt' : List SepLabel} (hs : SameLabs rt rt') (g : ∀ p ∈ rt, p.1 ∈ separators)
    (g' : ∀ p ∈ rt', p.1 ∈ separators) : SepRel (runes (joinR h rt)) (runes (joinR h rt')) := by
  induction rt generalizing rt' with
  | nil => cases rt' with
    | nil => exact SepRel.refl _
    | cons => simp [SameLabs] at hs
  | cons p r ih => cases rt' with
    | nil => simp [SameLabs] at hs
    | cons q r' =>
      obtain ⟨a, l⟩ := p
      obtain ⟨a', l'⟩ := q
      simp [SameLabs] at hs
      obtain ⟨rfl, hs⟩ := hs
      have ha : a ∈ separators := g (a, l) (by simp)
      have ha' : a' ∈ separators := g' (a', l) (by simp)
      simp only [joinR]
      rw [runes_append_sep _ _ ha, runes_append_sep _ _ ha']
      exact (ih hs (fun p hp => g p (by simp [hp])) (fun p hp => g' p (by simp [hp]))).append
        ⟨.inr ⟨ha, ha'⟩, SepRel.refl _⟩

/-- Separators between labels that are not empty. -/
theorem sepOnce_joinR {h : Bytes} {rt : List SepLabel} (g : GoodR h rt) (hh : h ≠ []) (hne : ∀ p ∈ rt, p.2 ≠ []) :
    SepOnce (runes (joinR h rt)) := by
  suffices H : runes (joinR h rt) ≠ [] ∧ SepOnce (runes (joinR h rt)) ∧
      ∀ a ∈ separators, (runes (joinR h rt)).getLast? ≠ some a from H.2.1
  induction rt with
  | nil =>
    have hf := runes_free g.1
    refine ⟨runes_ne_nil hh, ⟨fun a ha hc => hf a (List.mem_of_head? hc) ha, fun a ha b hb hc => hf a (hc.subset (by simp)) ha⟩,
      fun a ha hc => hf a (List.mem_of_getLast? hc) ha⟩
  | cons p rt ih =>
    obtain ⟨s, l⟩ := p
    obtain ⟨i1, i2, i3⟩ := ih g.cons (fun p hp => hne p (by simp [hp]))
    have hs : s ∈ separators := (g.2 (s, l) (by simp)).1
    have hl : l ≠ [] := hne (s, l) (by simp)
    have hf := runes_free (g.2 (s, l) (by simp)).2
    have hlr := runes_ne_nil hl
    simp only [joinR]
    rw [runes_append_sep _ _ hs]
    refine ⟨by simp, ⟨?_, ?_⟩, ?_⟩
    · intro a ha hc
      apply i2.1 a ha
      cases hr : runes (joinR h rt) with
      | nil => exact absurd hr i1
      | cons x X => rw [hr] at hc; exact hc
    · intro a ha b hb hc
      rw [pair_infix_append, List.infix_cons_iff] at hc
      rcases hc with hc | (hc | hc) | hc
      · exact i2.2 a ha b hb hc
      · cases hr : runes l with
        | nil => exact absurd hr hlr
        | cons x X =>
          rw [hr] at hc; simp at hc
          exact hf x (by rw [hr]; simp) (hc.2 ▸ hb)
      · exact hf a (hc.subset (by simp)) ha
      · exact i3 a ha hc.1
    · intro a ha hc
      rw [List.getLast?_append, List.getLast?_cons] at hc
      simp at hc
      cases hr : (runes l).getLast? with
      | none => rw [List.getLast?_eq_none_iff] at hr; exact hlr hr
      | some z =>
        rw [hr] at hc; simp at hc
        exact hf z (List.mem_of_getLast? hr) (hc ▸ ha)

/-- Strict separators in a text that passes the check. -/
theorem sepOnce_strict {h : Bytes} {rt : List SepLabel} (g : GoodR h rt) (hs : ∀ p ∈ rt, p.1 ∈ strictSeparators)
    (hc : HostCharsOK (joinR h rt)) : SepOnce (runes (joinR h rt)) := by
  rw [hostCharsOK_iff] at hc
  have hall : ∀ c ∈ runes (joinR h rt), c ∈ separators → c ∈ strictSeparators := by
    clear hc
    induction rt with
    | nil => exact fun c hc hs => absurd hs (runes_free g.1 c hc)
    | cons p rt ih =>
      obtain ⟨s, l⟩ := p
      simp only [joinR]
      rw [runes_append_sep _ _ (g.2 (s, l) (by simp)).1]
      intro c hc hsc
      simp only [List.mem_append, List.mem_cons] at hc
      rcases hc with hc | rfl | hc
      · exact ih g.cons (fun p hp => hs p (by simp [hp])) c hc hsc
      · exact hs (c, l) (by simp)
      · exact absurd hsc (runes_free (g.2 (s, l) (by simp)).2 c hc)
  obtain ⟨h1, h2, h3, h4, h5⟩ := hc
  exact ⟨fun a ha hc => h2 a (hall a (List.mem_of_head? hc) ha) hc,
    fun a ha b hb hc => h4 a (hall a (hc.subset (by simp)) ha) b (hall b (hc.subset (by simp)) hb) hc⟩

theorem ipv4_resep {n n' : Bytes} (h1 : (hostSplit n').1 = (hostSplit n).1)
    (h2 : SameLabs (hostSplit n).2 (hostSplit n').2) (h : IsIPv4 n) : IsIPv4 n' := by
  obtain ⟨a, b, c, d, r1, r2, r3, cs, ha, hb, hc, hd, e1, e2, e3, hcs, -, hsp⟩ := ipv4_split h
  rw [hsp] at h1 h2
  simp only [SameLabs, List.map_append, List.map_map, List.map_cons, List.map_nil] at h1 h2
  have g := hostSplit_good n'
  have hj := hostSplit_join n'
  obtain ⟨ts, rest, hts, ht1, ht2⟩ := List.map_eq_append_iff.1 h2.symm
  match rest, ht2 with
  | [p, q, r], ht2 =>
    simp only [List.map_cons, List.map_nil, List.cons.injEq, and_true] at ht2
    obtain ⟨hp, hq, hr⟩ := ht2
    rw [hts] at hj g
    have hsep : ∀ x ∈ ts ++ [p, q, r], x.1 ∈ separators := fun x hx => (g.2 x hx).1
    have htl : ∀ p ∈ ts, p.2 = [] := by
      intro p hp
      have : p.2 ∈ ts.map Prod.snd := List.mem_map_of_mem hp
      rw [ht1] at this
      simp at this; exact this.2
    refine ⟨_, (ts.map Prod.fst).reverse.flatMap encode,
      ⟨a, b, c, d, r.1, q.1, p.1, ha, hb, hc, hd, hsep r (by simp), hsep q (by simp), hsep p (by simp), rfl⟩,
      ⟨_, ?_, rfl⟩, ?_⟩
    · intro c hc
      simp only [List.mem_reverse, List.mem_map] at hc
      obtain ⟨p, hp, rfl⟩ := hc
      exact hsep p (by simp [hp])
    · rw [← hj, joinR_append, h1]
      have : ts = ((ts.map Prod.fst).reverse.reverse).map (fun c => (c, ([] : Bytes))) := by
        rw [List.reverse_reverse, List.map_map]
        conv => lhs; rw [← List.map_id ts]
        apply List.map_congr_left
        intro p hp
        exact Prod.ext rfl (htl p hp)
      have hjs : ∀ x, joinR x ts = x ++ (ts.map Prod.fst).reverse.flatMap encode := by
        intro x
        conv => lhs; rw [this]
        exact joinR_seps _ _
      rw [hjs]
      obtain ⟨p1, p2⟩ := p
      obtain ⟨q1, q2⟩ := q
      obtain ⟨r1, r2⟩ := r
      simp only at hp hq hr
      subst hp hq hr
      simp [joinR]
  | [], ht2 => simp at ht2
  | [_], ht2 => simp at ht2
  | [_, _], ht2 => simp at ht2
  | _ :: _ :: _ :: _ :: _, ht2 => simp at ht2

/-- An accepted name with other separators. -/
theorem name_resep {trie : Trie} {n n' : Bytes} {o : Out} (h : NameOK trie n o) (h1 : (hostSplit n').1 = (hostSplit n).1)
    (h2 : SameLabs (hostSplit n).2 (hostSplit n').2)
    (ht : (∀ p ∈ (hostSplit n).2, p.1 ∈ strictSeparators) ∨
      ((hostSplit n).1 ≠ [] ∧ ∀ p ∈ (hostSplit n).2.drop (leadEmpty (hostSplit n).2), p.2 ≠ [])) :
    NameOK trie n' o := by
  have g := hostSplit_good n
  have g' := hostSplit_good n'
  have hlen := h2.length
  have hb := walkL_prev h.walk
  have hb2 := walkL_sep h.walk (labels_ne_nil _ _ _)
  refine ⟨?_, fun h4 => h.notIP (ipv4_resep h1.symm h2.symm h4), ?_, ?_, ?_⟩
  · rw [h1, ← h2.leadEmpty, ← h2.labels]; exact h.walk
  · have key : ∀ k, leadEmpty (hostSplit n).2 ≤ k → hasInvalidChars (pre (hostSplit n).1 (hostSplit n).2 k) = false →
        hasInvalidChars (pre (hostSplit n').1 (hostSplit n').2 k) = false := by
      intro k hk hc
      rw [hasInvalidChars_false_iff] at hc ⊢
      have ho : SepOnce (runes (pre (hostSplit n).1 (hostSplit n).2 k)) := by
        rcases ht with ht | ⟨ht1, ht2⟩
        · exact sepOnce_strict (g.drop k) (fun p hp => ht p (List.mem_of_mem_drop hp)) hc
        · refine sepOnce_joinR (g.drop k) ht1 (fun p hp => ht2 p ?_)
          rw [show k = leadEmpty (hostSplit n).2 + (k - leadEmpty (hostSplit n).2) by omega, ← List.drop_drop] at hp
          exact List.mem_of_mem_drop hp
      rw [hostCharsOK_iff] at hc ⊢
      rw [h1]
      exact (sepRel_joinR (h2.drop k) (fun p hp => (g.2 p (List.mem_of_mem_drop hp)).1)
        (fun p hp => (g'.2 p (List.mem_of_mem_drop hp)).1)).ok ho hc
    have hc := h.chars
    unfold checkedText at hc ⊢
    cases he : o.endK with
    | none =>
      rw [he] at hc
      exact key _ hb hc
    | some e =>
      obtain ⟨s1, s2, s3, s4, s5, s6, s7, s8, s9⟩ := h.some_case e he
      rw [he] at hc
      simp only at hc ⊢
      rw [if_pos s4] at hc
      rw [if_pos (by omega)]
      exact key _ (by omega) hc
  · intro he
    rw [h1, ← h2.leadEmpty, ← h2.lab]; exact h.none_case he
  · intro e he
    rw [h1, ← h2.leadEmpty, ← h2.lab, ← h2.lab, ← hlen]; exact h.some_case e he

theorem labelsOf_split {n first : Bytes} {rest : List SepLabel} (h : LabelsOf n first rest) :
    hostSplit n = (first, rest.reverse) := by
  obtain ⟨h1, h2, h3⟩ := h
  rw [h1, joinLabels_eq]
  exact hostSplit_joinR ⟨h2, fun p hp => h3 p (by simpa using hp)⟩

theorem sameLabels_split {n n' : Bytes} (h : SameLabels n n') :
    (hostSplit n').1 = (hostSplit n).1 ∧ SameLabs (hostSplit n).2 (hostSplit n').2 := by
  obtain ⟨f, r, r', h1, h2, h3⟩ := h
  rw [labelsOf_split h1, labelsOf_split h2]
  refine ⟨rfl, ?_⟩
  simp [SameLabs, h3]

theorem sameLabels_joinR {h : Bytes} {rt rt' : List SepLabel} (g : GoodR h rt) (g' : GoodR h rt') (hs : SameLabs rt rt') :
    SameLabels (joinR h rt) (joinR h rt') := by
  refine ⟨h, rt.reverse, rt'.reverse, ⟨?_, g.1, fun p hp => g.2 p (by simpa using hp)⟩,
    ⟨?_, g'.1, fun p hp => g'.2 p (by simpa using hp)⟩, ?_⟩
  · rw [joinLabels_eq, List.reverse_reverse]
  · rw [joinLabels_eq, List.reverse_reverse]
  · rw [List.map_reverse, List.map_reverse, hs]

theorem sameLabels_nil : SameLabels [] [] :=
  ⟨[], [], [], ⟨rfl, freeOf_nil goodSet_separators, by simp⟩, ⟨rfl, freeOf_nil goodSet_separators, by simp⟩, rfl⟩

theorem sep_infix_joinR {h : Bytes} {rt : List SepLabel} {p : SepLabel} (hp : p ∈ rt) : encode p.1 <:+: joinR h rt := by
  induction rt with
  | nil => simp at hp
  | cons q rt ih =>
    obtain ⟨s, l⟩ := q
    simp only [joinR]
    rcases List.mem_cons.1 hp with rfl | hp
    · exact ⟨joinR h rt, l, rfl⟩
    · exact (ih hp).trans ⟨[], encode s ++ l, by simp⟩

theorem tidy_split {n : Bytes} (h : TidyLabels n) :
    (∀ p ∈ (hostSplit n).2, p.1 ∈ strictSeparators) ∨
      ((hostSplit n).1 ≠ [] ∧ ∀ p ∈ (hostSplit n).2.drop (leadEmpty (hostSplit n).2), p.2 ≠ []) := by
  rcases h with h | ⟨f, r, t, hl, h1, h2⟩
  · left
    intro p hp
    have h1 := ((hostSplit_good n).2 p hp).1
    have h2 := sep_infix_joinR (h := (hostSplit n).1) hp
    rw [hostSplit_join] at h2
    simp only [separators, List.mem_cons, List.mem_nil_iff, or_false] at h1
    simp only [strictSeparators, List.mem_cons, List.mem_nil_iff, or_false]
    rcases h1 with h1 | h1 | h1 | h1
    · exact .inl h1
    · exact .inr (.inl h1)
    · exact .inr (.inr h1)
    · exact absurd (h1 ▸ h2) h
  · right
    obtain ⟨ts, hs1, hs2, -⟩ := hl.split
    rw [hs1]
    refine ⟨h1, ?_⟩
    simp only
    rw [hs2]
    simpa using fun a b hp => h2 (a, b) hp

/-- The parts with other separators. -/
theorem parts_resep {n n' : Bytes} {o : Out} (h1 : (hostSplit n').1 = (hostSplit n).1)
    (h2 : SameLabs (hostSplit n).2 (hostSplit n').2) {ig : Bool} {r r' : ExtractResult}
    (hr : NameParts ig n o r) (hr' : NameParts ig n' o r') :
    SameLabels r.subDomain r'.subDomain ∧ r'.domain = r.domain ∧ SameLabels r.suffix r'.suffix ∧
      SameLabels r.registeredDomain r'.registeredDomain := by
  have g := hostSplit_good n
  have g' := hostSplit_good n'
  rw [h1] at g'
  unfold NameParts at hr hr'
  rw [h1, ← h2.leadEmpty] at hr'
  have hlen := h2.length
  have hpre : ∀ k, SameLabels (pre (hostSplit n).1 (hostSplit n).2 k) (pre (hostSplit n).1 (hostSplit n').2 k) :=
    fun k => sameLabels_joinR (g.drop k) (g'.drop k) (h2.drop k)
  have hsub : ∀ k, SameLabels (sub (hostSplit n).1 (hostSplit n).2 ig k) (sub (hostSplit n).1 (hostSplit n').2 ig k) := by
    intro k
    unfold sub
    rw [← hlen]
    split
    · exact hpre k
    · exact sameLabels_nil
  have hseg : ∀ a b, SameLabels (seg (hostSplit n).1 (hostSplit n).2 a b) (seg (hostSplit n).1 (hostSplit n').2 a b) := by
    intro a b
    unfold seg
    rw [← h2.lab]
    exact sameLabels_joinR ⟨lab_free g _, fun p hp => g.2 p (List.mem_of_mem_drop (List.mem_of_mem_take hp))⟩
      ⟨lab_free g _, fun p hp => g'.2 p (List.mem_of_mem_drop (List.mem_of_mem_take hp))⟩ ((h2.drop a).take _)
  cases he : o.endK with
  | none =>
    rw [he] at hr hr'
    obtain ⟨-, q1, q2, q3, q4⟩ := hr
    obtain ⟨-, q1', q2', q3', q4'⟩ := hr'
    rw [q4, q4', q1, q1', q2, q2', q3, q3']
    exact ⟨hsub _, (h2.lab _).symm, sameLabels_nil, sameLabels_nil⟩
  | some e =>
    rw [he] at hr hr'
    obtain ⟨-, q1, q2, q3, q4⟩ := hr
    obtain ⟨-, q1', q2', q3', q4'⟩ := hr'
    rw [q4, q4', q1, q1', q2, q2', q3, q3']
    exact ⟨hsub _, (h2.lab _).symm, hseg _ _, hseg _ _⟩

/-! ## A host on its own -/

theorem seg_infix {h : Bytes} {rt : List SepLabel} (g : GoodR h rt) {e b : Nat} (he : e ≤ b) (hb : b ≤ rt.length) :
    seg h rt e (b + 1) <:+: joinR h rt := by
  have hsuf : seg h rt e (b + 1) <:+ pre h rt e := by
    obtain ⟨front, hfr, -⟩ := pre_front g hb
    refine ⟨front, ?_⟩
    unfold seg
    rw [Nat.add_sub_cancel, ← joinR_prepend, ← hfr]
    unfold pre
    rw [← joinR_append]
    congr 1
    rw [show rt.drop b = (rt.drop e).drop (b - e) by rw [List.drop_drop]; congr 1; omega]
    rw [List.take_append_drop]
  obtain ⟨z, hz⟩ := pre_prefix (h := h) (rt := rt) (a := 0) (b := e) (by omega) (by omega)
  rw [pre_zero] at hz
  exact hsuf.isInfix.trans (hz ▸ (List.prefix_append _ _).isInfix)

/-- There is no `@` in the host. -/
theorem authority_no_at {url sch ui host after : Bytes} (hA : Authority url sch ui (host ++ after)) (hp : IsPlainHost host) :
    64 ∉ host := by
  obtain ⟨t, rest, -, -, -, zone, more, ⟨h1, h2, h3⟩, h4⟩ := hA
  have key : ∀ y, host ++ after = y ++ more → 64 ∉ y → 64 ∉ host := by
    intro y hy hn hc
    rcases List.append_eq_append_iff.1 hy with ⟨a', ha, hb⟩ | ⟨c', ha, hb⟩
    · exact hn (by rw [ha]; simp [hc])
    · rcases h3 with rfl | ⟨c, t', rfl, hs⟩
      · simp at hb; obtain ⟨rfl, -⟩ := hb; simp at ha; exact hn (ha ▸ hc)
      · cases c' with
        | nil => simp at ha; exact hn (ha ▸ hc)
        | cons x c' =>
          simp at hb
          obtain ⟨rfl, -⟩ := hb
          obtain ⟨p1, p2, p3⟩ := hp c (by rw [ha]; simp)
          simp [isUserInfoStop, isHostEnd] at hs p1
          rcases hs with (hs | hs) | hs
          · rw [p1.1] at hs; simp at hs
          · exact p2 hs
          · exact p3 hs
  rcases h4 with ⟨h5, -, h6⟩ | ⟨y, h5, h6, h7⟩
  · exact key zone (by rw [h6, h1]) h5
  · exact key y h7 h6

theorem authority_self {h : Bytes} (hp : IsPlainHost h) (ha : 64 ∉ h) (ht : IsTrim true true whiteSpace h h) :
    Authority h [] [] h := by
  refine ⟨h, h, ht, .inl ⟨rfl, ?_⟩, rfl, h, [], ⟨by simp, ?_, .inl rfl⟩, .inl ⟨ha, rfl, rfl⟩⟩
  · rintro q ⟨name, colon, sl, rfl, -, h2, h3⟩ hpre
    cases sl with
    | nil => simp at h2
    | cons c sl =>
      have h4 := hp c (hpre.subset (by simp))
      have h5 := h3 c (by simp)
      revert h4 h5
      simp [isHostEnd, isPathStart, isSlash]
      grind
  · intro c hc
    obtain ⟨p1, p2, p3⟩ := hp c hc
    simp [isUserInfoStop, isHostEnd] at p1 ⊢
    exact ⟨⟨p1.1, p2⟩, p3⟩

/-! ## Case -/

theorem lowerByte_hex : ∀ c, hexDigit (lowerByte c) = hexDigit c := by
  intro c
  exact forall_byte (P := fun c => hexDigit (lowerByte c) = hexDigit c) (by decide +kernel) c

theorem decodes_case {a b r : Bytes} (h : SameUpToCase a b) (hd : Decodes a r) :
    ∃ r', Decodes b r' ∧ SameUpToCase r r' := by
  unfold SameUpToCase at *
  have hk : ∀ c c' : UInt8, lowerByte c = lowerByte c' → hexDigit c = hexDigit c' := by
    intro c c' h
    rw [← lowerByte_hex c, h, lowerByte_hex]
  have h37 : ∀ c : UInt8, lowerByte c = 37 ↔ c = 37 := by
    intro c
    exact forall_byte (P := fun c => lowerByte c = 37 ↔ c = 37) (by decide +kernel) c
  have h43 : ∀ c : UInt8, lowerByte c = 43 ↔ c = 43 := by
    intro c
    exact forall_byte (P := fun c => lowerByte c = 43 ↔ c = 43) (by decide +kernel) c
  induction hd generalizing b with
  | nil =>
    cases b with
    | nil => exact ⟨[], .nil, rfl⟩
    | cons => simp at h
  | @escape x y n m t r hx hy hd ih =>
    match b, h with
    | c :: x' :: y' :: t', h =>
      simp only [List.map_cons, List.cons.injEq] at h
      obtain ⟨h1, h2, h3, h4⟩ := h
      have hc : c = 37 := (h37 c).1 (h1 ▸ (h37 37).2 rfl)
      subst hc
      obtain ⟨r', hr, hs⟩ := ih h4
      exact ⟨_, .escape (hk _ _ h2 ▸ hx) (hk _ _ h3 ▸ hy) hr, by simp [hs]⟩
    | [], h => simp at h
    | [_], h => simp at h
    | [_, _], h => simp at h
  | @plus t r hd ih =>
    match b, h with
    | c :: t', h =>
      simp only [List.map_cons, List.cons.injEq] at h
      have hc : c = 43 := (h43 c).1 (h.1 ▸ (h43 43).2 rfl)
      subst hc
      obtain ⟨r', hr, hs⟩ := ih h.2
      exact ⟨_, .plus hr, by simp [hs]⟩
    | [], h => simp at h
  | @byte c t r h1 h2 hd ih =>
    match b, h with
    | c' :: t', h =>
      simp only [List.map_cons, List.cons.injEq] at h
      obtain ⟨r', hr, hs⟩ := ih h.2
      refine ⟨_, .byte (c := c') ?_ ?_ hr, by simp [hs, h.1]⟩
      · rintro rfl; exact h1 ((h37 c).1 (h.1 ▸ (h37 37).2 rfl))
      · rintro rfl; exact h2 ((h43 c).1 (h.1 ▸ (h43 43).2 rfl))
    | [], h => simp at h

end Fasttld
