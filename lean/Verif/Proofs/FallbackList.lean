import Verif.Proofs.FallbackAbsent
import Verif.Proofs.FallbackCheckedAll
import Verif.Proofs.FallbackCheckedPublic
import Verif.Proofs.FactsRules
import Verif.Proofs.System

/-!
# The built-in list
-/

namespace Fasttld.Inv
open Fasttld Fasttld.Spec

theorem intercalate_mem (sep : Bytes) {ls : List Bytes} {l : Bytes} (h : l ∈ ls) : l <:+: List.intercalate sep ls := by
  induction ls with
  | nil => simp at h
  | cons x xs ih =>
    cases xs with
    | nil => simp at h; subst h; rw [intercalate_singleton]; exact List.infix_rfl
    | cons y ys =>
      rw [intercalate_cons_cons]
      rcases List.mem_cons.1 h with rfl | h
      · rw [List.append_assoc]; exact (List.prefix_append _ _).isInfix
      · exact (ih h).trans (List.suffix_append _ _).isInfix

theorem allParts_sound {absent : List Nat} : ∀ {parts : List (List Nat)}, AllParts absent parts → ∀ n ∈ parts.flatten, n ∉ absent := by
  intro parts
  induction parts with
  | nil => simp
  | cons p ps ih =>
    rintro ⟨h1, h2⟩ n hn
    rw [List.flatten_cons, List.mem_append] at hn
    rcases hn with hn | hn
    · have := allL_sound h1 n hn
      intro hm
      have he : ∀ {xs : List Nat}, n ∈ xs → elem n xs = true := by
        intro xs
        induction xs with
        | nil => simp
        | cons x xs ih =>
          intro h
          rw [elem, Bool.cond_eq_ite]
          split
          · rfl
          · rename_i hne
            rcases List.mem_cons.1 h with rfl | h
            · exact absurd (Nat.beq_refl n) hne
            · exact ih h
      rw [he hm] at this
      simp at this
    · exact ih h2 n hn

theorem count_eq : ∀ (xs : List Nat) (i : Nat), count i xs = ((xs.map unpack).filter (fun t => decide (IsRuleLine t))).length := by
  intro xs
  induction xs with
  | nil => intro i; rfl
  | cons x xs ih =>
    intro i
    rw [count, show Nat.sub (Nat.add x i) i = x from Nat.add_sub_cancel _ _, ih]
    by_cases h : isRule x = true
    · rw [h, cond_true, List.map_cons, List.filter_cons_of_pos (by simpa using isRule_iff.1 h)]; rfl
    · have h' : ¬ IsRuleLine (unpack x) := fun hh => h (isRule_iff.2 hh)
      rw [Bool.not_eq_true] at h
      rw [h, cond_false, List.map_cons, List.filter_cons_of_neg (by simpa using h')]

theorem counts_sound : ∀ {cs : List Nat} {parts : List (List Nat)}, Counts cs parts → (rulesIn parts).length = cs.sum := by
  intro cs
  induction cs with
  | nil =>
    intro parts h
    cases parts with
    | nil => rfl
    | cons p ps => exact h.elim
  | cons c cs ih =>
    intro parts h
    cases parts with
    | nil => exact h.elim
    | cons p ps =>
      obtain ⟨h1, h2⟩ := h
      have := ih h2
      unfold rulesIn at this ⊢
      rw [List.flatten_cons, List.map_append, List.filter_append, List.length_append, this, ← h1, count_eq, List.sum_cons]

/-- The parts of the list that are used. -/
noncomputable def builtInParts (priv : Bool) : List (List Nat) :=
  if priv then fallbackPublicParts ++ fallbackPrivateParts else fallbackPublicParts

theorem partsOK_all : PartsOK tableAll usedAll (fallbackPublicParts ++ fallbackPrivateParts) := partsAll

theorem partsOK_public : PartsOK tablePublic usedPublic fallbackPublicParts := partsPublic

theorem anc {T : Table} {E parts : List (List Nat)} (hP : PartsOK T E parts) : ∀ r ∈ rulesIn parts, ∀ s, 46 :: s <:+ r →
    ∃ a, unpack a = s ∧ T.find (fun _ _ => true) a = true := by
  obtain ⟨hl, -⟩ := partsOK_sound hP
  intro r hr s hs
  obtain ⟨n, h1, h2, rfl⟩ := mem_rulesIn.1 hr
  rcases ruleOK_sound ((lineOK_sound (hl n h1)).2 h2) with ⟨h3, -, -⟩ | ⟨l, p, hl', e, h3, h4⟩
  · exact absurd (hs.subset (by simp)) h3
  · rw [e] at hs
    rcases suffix_dot hl' hs with rfl | h5
    · exact ⟨p, rfl, find_mono (fun _ _ _ => rfl) h3⟩
    · obtain ⟨a, e1, e2⟩ := chain_sound h4 s h5
      exact ⟨a, e1, find_mono (fun _ _ _ => rfl) e2⟩

theorem facts_builtIn (priv : Bool) : Facts (rulesIn (builtInParts priv)) (gaps priv) (shadows priv) := by
  cases priv with
  | false => exact facts entriesPublic partsOK_public
  | true => exact facts entriesAll partsOK_all

/-- All lines of the list. -/
noncomputable def allLines : List Bytes := fallbackLines.map unpack

/-- The lines before the private section. -/
noncomputable def publicLines : List Bytes := fallbackPublicParts.flatten.map unpack

theorem fallbackLines_eq : fallbackLines = (fallbackPublicParts ++ fallbackPrivateParts).flatten := by
  rw [List.flatten_append]; rfl

theorem mem_elem {n : Nat} {p : List Nat} (h : elem n p = true) (hp : p ∈ fallbackPublicParts ++ fallbackPrivateParts) :
    n ∈ fallbackLines := by
  rw [fallbackLines_eq]
  exact List.mem_flatten.2 ⟨p, hp, elem_sound h⟩

theorem lines_ne_nil : fallbackLines ≠ [] := by
  intro h
  have := mem_elem hasCoZa (by simp [fallbackPublicParts])
  rw [h] at this
  simp at this

theorem strippedLines : StrippedLines hardcodedPSL allLines := by
  have key : ∀ n ∈ fallbackLines, 10 ∉ unpack n ∧ Stripped (unpack n) (unpack n) := by
    intro n hn
    rw [fallbackLines_eq] at hn
    exact stripped_sound (lineOK_sound ((partsOK_sound partsOK_all).1 n hn)).1
  refine ⟨allLines, ⟨?_, ?_, rfl⟩, rfl, ?_⟩
  · unfold allLines; simpa using lines_ne_nil
  · unfold allLines
    intro l hl
    obtain ⟨n, h1, rfl⟩ := List.mem_map.1 hl
    exact (key n h1).1
  · intro i l t h1 h2
    rw [h1] at h2
    cases h2
    obtain ⟨n, hn, rfl⟩ := List.mem_map.1 (List.mem_of_getElem? h1)
    exact (key n hn).2

theorem private_begins : ∃ rest, fallbackPrivateParts.flatten = pack privateMarker :: rest := by
  have h0 : ∃ r, fallbackPrivate00 = pack privateMarker :: r := by
    unfold fallbackPrivate00
    exact ⟨_, congrArg (fun x => List.cons x _) (show _ = pack privateMarker by decide +kernel)⟩
  obtain ⟨r, h0⟩ := h0
  unfold fallbackPrivateParts
  rw [List.flatten_cons, h0]
  exact ⟨_, rfl⟩

theorem sections : ∃ after, Sections allLines publicLines after := by
  refine ⟨fallbackPrivateParts.flatten.map unpack, ?_, ?_, .inr ?_⟩
  · unfold allLines publicLines fallbackLines; rw [List.map_append]
  · intro h
    obtain ⟨n, h1, h2⟩ := List.mem_map.1 h
    rw [← unpack_pack privateMarker (by decide)] at h2
    obtain rfl := unpack_inj _ _ h2
    refine allParts_sound (parts := fallbackPublicParts) absentsPublic _ h1 ?_
    exact elem_sound (by decide +kernel)
  · obtain ⟨rest, h⟩ := private_begins
    rw [h, List.map_cons, unpack_pack _ (by decide)]
    exact ⟨_, rfl⟩

theorem has_line {s : Bytes} {n : Nat} {p : List Nat} (h : elem n p = true) (hn : unpack n = s)
    (hp : p ∈ fallbackPublicParts ++ fallbackPrivateParts) : s <:+: hardcodedPSL :=
  intercalate_mem _ (List.mem_map.2 ⟨_, mem_elem h hp, hn⟩)

theorem delimiters : validPSLDelimiters hardcodedPSL = true := by
  unfold validPSLDelimiters
  simp only [Bool.and_eq_true, bytesContains_iff]
  refine ⟨⟨⟨?_, ?_⟩, ?_⟩, ?_⟩
  · exact has_line hasBeginIcann (by decide +kernel) (by simp [fallbackPublicParts])
  · exact has_line hasEndIcann (by decide +kernel) (by simp [fallbackPublicParts])
  · obtain ⟨rest, h⟩ := private_begins
    refine intercalate_mem _ (List.mem_map.2 ⟨pack privateMarker, ?_, unpack_pack privateMarker (by decide)⟩)
    unfold fallbackLines
    rw [h]; simp
  · exact has_line hasEndPrivate (by decide +kernel) (by simp [fallbackPrivateParts])

theorem rules_builtIn (priv : Bool) :
    rulesIn (builtInParts priv) = (if priv then allLines else publicLines).filter (fun t => decide (IsRuleLine t)) := by
  cases priv with
  | false => rfl
  | true =>
    unfold rulesIn builtInParts allLines
    rw [if_pos rfl, if_pos rfl, fallbackLines_eq]

theorem counts : (rulesIn (builtInParts false)).length = 6864 ∧ (rulesIn (builtInParts true)).length = 9715 := by
  have h1 := counts_sound (parts := fallbackPublicParts) countsPublic
  have h2 := counts_sound (parts := fallbackPrivateParts) countsPrivate
  refine ⟨by rw [show builtInParts false = fallbackPublicParts from rfl, h1]; decide, ?_⟩
  unfold rulesIn at h1 h2 ⊢
  rw [show builtInParts true = fallbackPublicParts ++ fallbackPrivateParts from rfl, List.flatten_append, List.map_append,
    List.filter_append, List.length_append, h1, h2]
  decide

theorem absent_rule (priv : Bool) {s : Bytes} (h0 : 0 ∉ s) (h : elem (pack s) absentAll = true) : s ∉ rulesIn (builtInParts priv) := by
  have key : ∀ n ∈ (builtInParts priv).flatten, n ∉ absentAll := by
    have h1 : ∀ n ∈ fallbackPublicParts.flatten, n ∉ absentAll := by
      intro n hn hm
      refine allParts_sound (parts := fallbackPublicParts) absentsPublic _ hn ?_
      exact List.mem_cons_of_mem _ hm
    have h2 := allParts_sound (parts := fallbackPrivateParts) absentsPrivate
    intro n hn
    cases priv with
    | false => exact h1 n hn
    | true =>
      rw [show builtInParts true = fallbackPublicParts ++ fallbackPrivateParts from rfl, List.flatten_append, List.mem_append] at hn
      rcases hn with hn | hn
      · exact h1 n hn
      · exact h2 n hn
  intro h'
  obtain ⟨n, h1, -, h2⟩ := mem_rulesIn.1 h'
  rw [← unpack_pack s h0] at h2
  obtain rfl := unpack_inj _ _ h2
  exact key _ h1 (elem_sound h)

theorem public_rule (priv : Bool) {s : Bytes} {n : Nat} {p : List Nat} (hn : pack s = n) (h0 : 0 ∉ s) (hr : IsRuleLine s)
    (h : elem n p = true) (hp : p ∈ fallbackPublicParts) : s ∈ rulesIn (builtInParts priv) := by
  subst hn
  refine mem_rulesIn.2 ⟨pack s, ?_, isRule_iff.2 (by rwa [unpack_pack s h0]), unpack_pack _ h0⟩
  have h : pack s ∈ fallbackPublicParts.flatten := List.mem_flatten.2 ⟨p, hp, elem_sound h⟩
  cases priv with
  | false => exact h
  | true =>
    rw [show builtInParts true = fallbackPublicParts ++ fallbackPrivateParts from rfl, List.flatten_append, List.mem_append]
    exact .inl h

theorem closed_rule (priv : Bool) {s : Bytes} (h0 : 0 ∉ s) (h1 : tablePublic.find (fun _ _ => true) (pack s) = false)
    (h2 : tableAll.find (fun _ _ => true) (pack s) = false) : ∀ r ∈ rulesIn (builtInParts priv), ¬ 46 :: s <:+ r := by
  intro r hr h
  have u : ∀ a, unpack a = s → a = pack s := by
    intro a ha
    rw [← unpack_pack s h0] at ha
    exact unpack_inj _ _ ha
  cases priv with
  | false =>
    obtain ⟨a, e, ha⟩ := anc partsOK_public r hr _ h
    rw [u a e, h1] at ha
    simp at ha
  | true =>
    obtain ⟨a, e, ha⟩ := anc partsOK_all r hr _ h
    rw [u a e, h2] at ha
    simp at ha

variable {toASCII : Bytes → Option Bytes} {f : Bytes → Bytes} {L : List Bytes}

theorem rule_here (hf : ByLabel toASCII f L) {s : Bytes} (h : s ∈ L) : RuleAt (L.flatMap (contributes toASCII)) (revLabels s) :=
  (rule_iff hf).2 ⟨s, h, .inl rfl⟩

theorem not_rule (hf : ByLabel toASCII f L) {p : List Bytes} (hp : ∀ l ∈ p, ¬ b! "xn--" <+: l)
    (h : List.intercalate [46] p.reverse ∉ L) : ¬ RuleAt (L.flatMap (contributes toASCII)) p := by
  intro h'
  obtain ⟨r, hr, e⟩ := (rule_iff hf).1 h'
  have e' : revLabels r = p := by
    rcases e with e | e
    · exact e.symm
    · exact map_back' hf hp e.symm
  rw [← e', join_revLabels] at h
  exact h hr

theorem not_open (hf : ByLabel toASCII f L) {p : List Bytes} (hne : p ≠ []) (hp : ∀ l ∈ p, ¬ b! "xn--" <+: l)
    (h : ∀ r ∈ L, ¬ 46 :: List.intercalate [46] p.reverse <:+ r) (x : Bytes) :
    ¬ PrefixAt (L.flatMap (contributes toASCII)) (p ++ [x]) := by
  intro h'
  obtain ⟨r, hr, e⟩ := (prefix_iff hf).1 h'
  have key : ∃ u, u ≠ [] ∧ revLabels r = p ++ u := by
    rcases e with ⟨u, e⟩ | e
    · exact ⟨x :: u, by simp, by rw [← e]; simp⟩
    · obtain ⟨p0, ⟨u, e1⟩, e2⟩ := prefix_map e
      obtain ⟨a, b, rfl, e3, e4⟩ := List.map_eq_append_iff.1 e2.symm
      refine ⟨b ++ u, ?_, ?_⟩
      · rintro e5
        obtain ⟨rfl, -⟩ := List.append_eq_nil_iff.1 e5
        simp at e4
      · rw [← e1, map_back' hf hp e3]; simp
  obtain ⟨u, hu, e⟩ := key
  obtain ⟨s, t, e1, e2, -⟩ := revLabels_prefix e hne hu
  have hs := join_revLabels s
  rw [e2] at hs
  exact h r hr ⟨t, by rw [hs]; exact e1.symm⟩

theorem not_prefix (hf : ByLabel toASCII f L) {p : List Bytes} (hne : p ≠ []) (hp : ∀ l ∈ p, ¬ b! "xn--" <+: l)
    (h1 : List.intercalate [46] p.reverse ∉ L) (h2 : ∀ r ∈ L, ¬ 46 :: List.intercalate [46] p.reverse <:+ r) :
    ¬ PrefixAt (L.flatMap (contributes toASCII)) p := by
  rintro ⟨q, ⟨u, rfl⟩, hr⟩
  cases u with
  | nil => rw [List.append_nil] at hr; exact not_rule hf hp h1 hr
  | cons x u => exact not_open hf hne hp h2 x ⟨_, ⟨u, by simp⟩, hr⟩

theorem not_star {G S : List Bytes} (hF : Facts L G S) (hf : ByLabel toASCII f L) {p : List Bytes}
    (h : 42 :: 46 :: List.intercalate [46] p.reverse ∉ L) : ¬ PrefixAt (L.flatMap (contributes toASCII)) (p ++ [star]) := by
  intro h'
  obtain ⟨s, hs, e⟩ := star_rules hF hf h'
  rw [← e, join_revLabels] at h
  exact h hs

end Fasttld.Inv
