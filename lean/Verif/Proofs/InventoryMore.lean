import Verif.Proofs.FactsRules
import Verif.Proofs.Exact

/-!
# More checks for long lists: the labels of rules, and names that are not rules
-/

set_option linter.unusedSimpArgs false

namespace Fasttld.Inv
open Fasttld Fasttld.Spec

/-! ## Labels that can occur in host names -/

/-- Two byte encodings of characters that the check rejects. -/
def badPairs : List Nat := [34242, 34498, 41154, 47309, 32979, 40411]

/-- Three byte encodings of characters that the check rejects, and of separators. -/
def badTriples : List Nat := [8428257, 9142498, 9208034, 9273570, 12565487, 9347297, 10846434, 11436258, 11239906, 8619746,
  11839970, 11583458, 9484271, 8764655, 9420015, 10140911, 12238831, 8552675, 9354479, 10599919]

/-- A letter of `a`..`z` or a digit. -/
def plainByte (b : Nat) : Bool := bif Nat.ble 97 b then Nat.ble b 122 else bif Nat.ble 48 b then Nat.ble b 57 else false

/-- The labels of a line without `*` and `!` can occur in host names; `prev` is the byte before. -/
def labelsOK : (fuel prev : Nat) → Nat → Bool
  | 0, _, _ => false
  | fuel + 1, prev, n =>
    bif Nat.beq n 0 then (bif Nat.beq prev 46 then false else bif Nat.beq prev 45 then false else true)
    else bif plainByte (Nat.mod n 256) then labelsOK fuel (Nat.mod n 256) (Nat.div n 256)
    else bif Nat.beq (Nat.mod n 256) 46 then
      (bif Nat.beq prev 46 then false else bif Nat.beq prev 45 then false else labelsOK fuel 46 (Nat.div n 256))
    else bif Nat.beq (Nat.mod n 256) 45 then (bif Nat.beq prev 46 then false else labelsOK fuel 45 (Nat.div n 256))
    else bif Nat.ble 128 (Nat.mod n 256) then
      (bif elem (Nat.mod n 65536) badPairs then false else bif elem (Nat.mod n 16777216) badTriples then false
        else labelsOK fuel (Nat.mod n 256) (Nat.div n 256))
    else false

/-- The cases of `labelsOK`. -/
theorem labelsOK_cases {fuel prev n : Nat} (h : labelsOK (fuel + 1) prev n = true) :
    (n = 0 ∧ prev ≠ 46 ∧ prev ≠ 45) ∨
    n ≠ 0 ∧ (plainByte (n % 256) = true ∧ labelsOK fuel (n % 256) (n / 256) = true ∨
      n % 256 = 46 ∧ prev ≠ 46 ∧ prev ≠ 45 ∧ labelsOK fuel 46 (n / 256) = true ∨
      n % 256 = 45 ∧ prev ≠ 46 ∧ labelsOK fuel 45 (n / 256) = true ∨
      128 ≤ n % 256 ∧ elem (n % 65536) badPairs = false ∧ elem (n % 16777216) badTriples = false ∧
        labelsOK fuel (n % 256) (n / 256) = true) := by
  rw [labelsOK] at h
  simp only [mod_def, div_def, Bool.cond_eq_ite] at h
  by_cases hn : n = 0
  · subst hn
    left
    rw [if_pos (show Nat.beq 0 0 = true from rfl)] at h
    refine ⟨rfl, ?_, ?_⟩
    · rintro rfl; simp at h
    · rintro rfl; simp at h
  · right
    refine ⟨hn, ?_⟩
    rw [if_neg (by rw [beq_false hn]; simp)] at h
    split at h
    · rename_i h1; exact .inl ⟨h1, h⟩
    · split at h
      · rename_i h2
        have h2 := Nat.eq_of_beq_eq_true h2
        split at h
        · simp at h
        · rename_i h3
          split at h
          · simp at h
          · rename_i h4
            exact .inr (.inl ⟨h2, fun e => h3 (by rw [e]; rfl), fun e => h4 (by rw [e]; rfl), h⟩)
      · split at h
        · rename_i h2
          have h2 := Nat.eq_of_beq_eq_true h2
          split at h
          · simp at h
          · rename_i h3
            exact .inr (.inr (.inl ⟨h2, fun e => h3 (by rw [e]; rfl), h⟩))
        · split at h
          · rename_i h2
            have h2 := Nat.le_of_ble_eq_true h2
            split at h
            · simp at h
            · rename_i h3
              split at h
              · simp at h
              · rename_i h4
                exact .inr (.inr (.inr ⟨h2, by simpa using h3, by simpa using h4, h⟩))
          · simp at h

theorem elem_mem {n : Nat} : ∀ {xs : List Nat}, n ∈ xs → elem n xs = true := by
  intro xs
  induction xs with
  | nil => simp
  | cons x xs ih =>
    intro h
    rw [elem, Bool.cond_eq_ite]
    split
    · rfl
    · rename_i hne
      rcases List.mem_cons.1 h with rfl | h
      · exact absurd (Nat.beq_refl n) hne
      · exact ih h

/-- Why a line that passes `labelsOK` does not have these bytes. -/
def rejected (e : Bytes) : Bool :=
  match e with
  | [a] => !plainByte a.toNat && a != 46 && a != 45 && decide (a.toNat < 128)
  | [a, b] => decide (128 ≤ a.toNat) && decide (0 < b.toNat) && badPairs.contains (a.toNat + 256 * b.toNat)
  | [a, b, c] => decide (128 ≤ a.toNat) && decide (0 < b.toNat) && decide (0 < c.toNat) &&
      badTriples.contains (a.toNat + 256 * (b.toNat + 256 * c.toNat))
  | _ => false

theorem plainByte_lt {b : Nat} (h : plainByte b = true) : b < 128 ∧ b ≠ 46 ∧ b ≠ 45 := by
  unfold plainByte at h
  simp only [Bool.cond_eq_ite] at h
  split at h
  · rename_i h1
    have := Nat.le_of_ble_eq_true h1
    have := Nat.le_of_ble_eq_true h
    omega
  · split at h
    · rename_i h1
      have := Nat.le_of_ble_eq_true h1
      have := Nat.le_of_ble_eq_true h
      omega
    · simp at h

theorem ofNat_eq {a : UInt8} {n : Nat} (h : a = UInt8.ofNat (n % 256)) : a.toNat = n % 256 := by
  rw [h]; simp

theorem labelsOK_rejected {e : Bytes} (he : rejected e = true) : ∀ {fuel prev n : Nat}, labelsOK fuel prev n = true →
    ¬ e <:+: unpack n := by
  intro fuel
  induction fuel with
  | zero => intro prev n h; simp [labelsOK] at h
  | succ fuel ih =>
    intro prev n h hi
    rcases labelsOK_cases h with ⟨rfl, -, -⟩ | ⟨hn, hc⟩
    · rw [unpack_zero] at hi
      have : e = [] := by simpa using hi
      subst this
      simp [rejected] at he
    · rw [unpack_pos hn, List.infix_cons_iff] at hi
      rcases hi with hp | hi
      · match e, he with
        | [a], he =>
          simp only [rejected, Bool.and_eq_true, decide_eq_true_eq, Bool.not_eq_true', bne_iff_ne] at he
          obtain ⟨⟨⟨e1, e2⟩, e3⟩, e4⟩ := he
          rw [List.cons_prefix_cons] at hp
          have ha := ofNat_eq hp.1
          rw [ha] at e1 e4
          rcases hc with ⟨h1, -⟩ | ⟨h1, -⟩ | ⟨h1, -⟩ | ⟨h1, -⟩
          · rw [e1] at h1; simp at h1
          · exact e2 (UInt8.toNat_inj.1 (by rw [ha, h1]; rfl))
          · exact e3 (UInt8.toNat_inj.1 (by rw [ha, h1]; rfl))
          · omega
        | [a, b], he =>
          simp only [rejected, Bool.and_eq_true, decide_eq_true_eq, List.contains_iff_mem] at he
          obtain ⟨⟨e1, e2⟩, e3⟩ := he
          rw [List.cons_prefix_cons] at hp
          obtain ⟨ha, hp⟩ := hp
          have ha := ofNat_eq ha
          have n1 : n / 256 ≠ 0 := by rintro e; rw [e, unpack_zero] at hp; simp at hp
          rw [unpack_pos n1, List.cons_prefix_cons] at hp
          have hb := ofNat_eq hp.1
          rcases hc with ⟨h1, -⟩ | ⟨h1, -⟩ | ⟨h1, -⟩ | ⟨-, h2, -⟩
          · have := plainByte_lt h1; omega
          · omega
          · omega
          · rw [elem_mem (xs := badPairs) (n := n % 65536)] at h2
            · simp at h2
            · rw [show n % 65536 = a.toNat + 256 * b.toNat by omega]; exact e3
        | [a, b, c], he =>
          simp only [rejected, Bool.and_eq_true, decide_eq_true_eq, List.contains_iff_mem] at he
          obtain ⟨⟨⟨e1, e2⟩, e2'⟩, e3⟩ := he
          rw [List.cons_prefix_cons] at hp
          obtain ⟨ha, hp⟩ := hp
          have ha := ofNat_eq ha
          have n1 : n / 256 ≠ 0 := by rintro e; rw [e, unpack_zero] at hp; simp at hp
          rw [unpack_pos n1, List.cons_prefix_cons] at hp
          obtain ⟨hb, hp⟩ := hp
          have hb := ofNat_eq hb
          have n2 : n / 256 / 256 ≠ 0 := by rintro e; rw [e, unpack_zero] at hp; simp at hp
          rw [unpack_pos n2, List.cons_prefix_cons] at hp
          have hc' := ofNat_eq hp.1
          rcases hc with ⟨h1, -⟩ | ⟨h1, -⟩ | ⟨h1, -⟩ | ⟨-, -, h2, -⟩
          · have := plainByte_lt h1; omega
          · omega
          · omega
          · rw [elem_mem (xs := badTriples) (n := n % 16777216)] at h2
            · simp at h2
            · rw [show n % 16777216 = a.toNat + 256 * (b.toNat + 256 * c.toNat) by omega]; exact e3
      · rcases hc with ⟨-, h⟩ | ⟨-, -, -, h⟩ | ⟨-, -, h⟩ | ⟨-, -, -, h⟩ <;> exact ih h hi

/-- A label that is not empty and has no `-` at its ends. -/
def Trimmed (l : Bytes) : Prop := l ≠ [] ∧ l.head? ≠ some 45 ∧ l.getLast? ≠ some 45

theorem labelsOK_trimmed : ∀ {fuel prev n : Nat}, labelsOK fuel prev n = true → ∃ w ws, splitByte 46 (unpack n) = w :: ws ∧
    (∀ l ∈ ws, Trimmed l) ∧ (w = [] → prev ≠ 46 ∧ prev ≠ 45) ∧ (prev = 46 → w.head? ≠ some 45) ∧ w.getLast? ≠ some 45 := by
  intro fuel
  induction fuel with
  | zero => intro prev n h; simp [labelsOK] at h
  | succ fuel ih =>
    intro prev n h
    rcases labelsOK_cases h with ⟨rfl, h1, h2⟩ | ⟨hn, hc⟩
    · exact ⟨[], [], by rw [unpack_zero]; rfl, by simp, fun _ => ⟨h1, h2⟩, by simp, by simp⟩
    · rw [unpack_pos hn]
      have hlt : n % 256 < 256 := Nat.mod_lt _ (by decide)
      -- a byte of the label
      have go : n % 256 ≠ 46 → labelsOK fuel (n % 256) (n / 256) = true → (n % 256 = 45 → prev ≠ 46) →
          ∃ w ws, splitByte 46 (UInt8.ofNat (n % 256) :: unpack (n / 256)) = w :: ws ∧
            (∀ l ∈ ws, Trimmed l) ∧ (w = [] → prev ≠ 46 ∧ prev ≠ 45) ∧ (prev = 46 → w.head? ≠ some 45) ∧ w.getLast? ≠ some 45 := by
        intro h46 hl hd
        obtain ⟨w, ws, e1, e2, e3, -, e5⟩ := ih hl
        have hne : UInt8.ofNat (n % 256) ≠ 46 := by
          intro e
          have := congrArg UInt8.toNat e
          simp at this
          omega
        refine ⟨UInt8.ofNat (n % 256) :: w, ws, ?_, e2, by simp, ?_, ?_⟩
        · rw [splitByte, if_neg hne, e1]
        · intro hp he
          simp only [List.head?_cons, Option.some.injEq] at he
          have := congrArg UInt8.toNat he
          simp at this
          exact hd (by omega) hp
        · cases hw : w with
          | nil =>
            intro he
            simp only [List.getLast?_singleton, Option.some.injEq] at he
            have := congrArg UInt8.toNat he
            simp at this
            exact (e3 hw).2 (by omega)
          | cons x w' =>
            rw [List.getLast?_cons_cons, ← hw]; exact e5
      rcases hc with ⟨h1, h2⟩ | ⟨h1, h2, h3, h4⟩ | ⟨h1, h2, h3⟩ | ⟨h1, -, -, h3⟩
      · exact go (plainByte_lt h1).2.1 h2 (fun e => absurd e (plainByte_lt h1).2.2)
      · obtain ⟨w, ws, e1, e2, e3, e4, e5⟩ := ih h4
        refine ⟨[], w :: ws, ?_, ?_, fun _ => ⟨h2, h3⟩, by simp, by simp⟩
        · rw [splitByte, h1, if_pos (by decide), e1]
        · intro l hl
          rcases List.mem_cons.1 hl with rfl | hl
          · exact ⟨fun e => (e3 e).1 rfl, e4 rfl, e5⟩
          · exact e2 l hl
      · exact go (by omega) (by rw [h1]; exact h3) (fun _ => h2)
      · exact go (by omega) h3 (by omega)

theorem rejected_all : ∀ c ∈ 37 :: (invalidChars ++ separators), c ∉ missedChars → c ≠ 46 → rejected (encode c) = true := by
  decide +kernel

/-- What `labelsOK` means. -/
theorem labelsOK_good {fuel n : Nat} (h : labelsOK fuel 46 n = true) : ∀ l ∈ revLabels (unpack n), GoodLabel l := by
  obtain ⟨w, ws, e1, e2, e3, e4, e5⟩ := labelsOK_trimmed h
  intro l hl
  have ht : Trimmed l := by
    unfold revLabels at hl
    rw [e1, List.mem_reverse] at hl
    rcases List.mem_cons.1 hl with rfl | hl
    · exact ⟨fun e => (e3 e).1 rfl, e4 rfl, e5⟩
    · exact e2 l hl
  have hdot : 46 ∉ l := revLabels_free _ l hl
  have hrej : ∀ c ∈ 37 :: (invalidChars ++ separators), c ∉ missedChars → ¬ encode c <:+: l := by
    intro c hc hm hi
    by_cases h46 : c = 46
    · subst h46
      exact hdot (hi.subset (by decide))
    · exact labelsOK_rejected (rejected_all c hc hm h46) h (hi.trans (label_infix hl))
  have hsep : FreeOf separators l := fun c hc => hrej c (by simp [hc]) (by revert c; decide)
  have hstrict : ∀ a ∈ strictSeparators, ¬ encode a <:+: l := by
    intro a ha
    exact hsep a (by revert a; decide)
  refine ⟨ht.1, hsep, ⟨?_, ?_, ?_, ?_, ?_⟩, ?_⟩
  · rw [show encode 45 = [45] from by decide]
    rintro ⟨t, e⟩
    exact ht.2.1 (by rw [← e]; rfl)
  · rw [show encode 45 = [45] from by decide]
    rintro ⟨t, e⟩
    exact ht.2.2 (by rw [← e]; simp)
  · exact fun a ha hp => hstrict a ha hp.isInfix
  · exact fun a ha b _ hi => hstrict a ha ((List.prefix_append _ _).isInfix.trans hi)
  · exact fun c hc hm => hrej c (by simp [hc]) hm
  · intro h37
    refine hrej 37 (by simp) (by decide) ?_
    rw [show encode 37 = [37] from by decide]
    obtain ⟨a, b, e⟩ := List.append_of_mem h37
    exact ⟨a, b, by rw [e]; simp⟩

/-- The labels of a rule, without `*` and `!` at its start. -/
def ruleLabels (n : Nat) : Bool :=
  bif Nat.beq (Nat.mod n 65536) 11818 then labelsOK 200 46 (Nat.div n 65536)
  else bif Nat.beq (Nat.mod n 256) 33 then labelsOK 200 46 (Nat.div n 256) else labelsOK 200 46 n

theorem ruleLabels_sound {n : Nat} (h : ruleLabels n = true) :
    (∃ s, unpack n = 42 :: 46 :: s ∧ ∀ l ∈ revLabels s, GoodLabel l) ∨
    (∃ s, unpack n = 33 :: s ∧ ∀ l ∈ revLabels s, GoodLabel l) ∨ ∀ l ∈ revLabels (unpack n), GoodLabel l := by
  unfold ruleLabels at h
  simp only [mod_def, div_def, Bool.cond_eq_ite] at h
  split at h
  · rename_i h1
    have h1 := Nat.eq_of_beq_eq_true h1
    refine .inl ⟨unpack (n / 65536), ?_, labelsOK_good h⟩
    rw [unpack_pos (by omega), unpack_pos (n := n / 256) (by omega), show n % 256 = 42 by omega, show n / 256 % 256 = 46 by omega,
      show n / 256 / 256 = n / 65536 by omega]
    rfl
  · split at h
    · rename_i h1
      have h1 := Nat.eq_of_beq_eq_true h1
      refine .inr (.inl ⟨unpack (n / 256), ?_, labelsOK_good h⟩)
      rw [unpack_pos (by omega), h1]
      rfl
    · exact .inr (.inr (labelsOK_good h))

/-- Checks of a line that do not depend on the others. -/
def lineLabels (n : Nat) : Bool := bif isRule n then bif ruleLabels n then noAce 200 n else false else true

/-! ## Names that are not rules -/

/-- The table says that `n` is a gap. -/
def Table.gapAt (T : Table) (n : Nat) : Bool := T.find (fun p s => bif Nat.beq p 0 then Nat.beq s 0 else false) n

/-- A line is not a gap. -/
def notGap (T : Table) (n : Nat) : Bool := bif T.gapAt n then false else true

/-- `n` is not a top-level label, and `g` follows one of its dots. -/
def above (g : Nat) : (fuel : Nat) → Nat → Bool
  | 0, _ => false
  | fuel + 1, n =>
    bif Nat.beq n 0 then false
    else bif Nat.beq (Nat.mod n 256) 46 then (bif Nat.beq (Nat.div n 256) g then true else above g fuel (Nat.div n 256))
    else above g fuel (Nat.div n 256)

theorem above_sound {g : Nat} : ∀ {fuel n : Nat}, above g fuel n = true → 46 :: unpack g <:+ unpack n := by
  intro fuel
  induction fuel with
  | zero => intro n h; simp [above] at h
  | succ fuel ih =>
    intro n h
    rw [above] at h
    simp only [mod_def, div_def, Bool.cond_eq_ite] at h
    by_cases hn : n = 0
    · subst hn; simp at h
    · rw [if_neg (by rw [beq_false hn]; simp)] at h
      rw [unpack_pos hn]
      split at h
      · rename_i h1
        have h1 := Nat.eq_of_beq_eq_true h1
        split at h
        · rename_i h2
          rw [h1, Nat.eq_of_beq_eq_true h2]
          exact List.suffix_refl _
        · exact (ih h).trans (List.suffix_cons _ _)
      · exact (ih h).trans (List.suffix_cons _ _)

/-- Rules below gaps. -/
def pairsOK : List (Nat × Nat) → Bool
  | [] => true
  | (w, g) :: ws => bif isRule w then bif above g 200 w then pairsOK ws else false else false

theorem pairsOK_sound : ∀ {ws : List (Nat × Nat)}, pairsOK ws = true → ∀ p ∈ ws, isRule p.1 = true ∧ 46 :: unpack p.2 <:+ unpack p.1 := by
  intro ws
  induction ws with
  | nil => simp
  | cons q ws ih =>
    obtain ⟨w, g⟩ := q
    intro h p hp
    rw [pairsOK] at h
    simp only [Bool.cond_eq_ite] at h
    split at h
    · rename_i h1
      split at h
      · rename_i h2
        rcases List.mem_cons.1 hp with rfl | hp
        · exact ⟨h1, above_sound h2⟩
        · exact ih h p hp
      · simp at h
    · simp at h

/-- The rules `ws` are in the part and below the gaps `gs`; `below` has them in the order of the part. -/
def belowOK (below ws gs part : List Nat) : Bool :=
  bif sub below part then bif allL (fun w => elem w below) 0 ws then pairsOK (ws.zip gs) else false else false

theorem belowOK_sound {below ws gs part : List Nat} (h : belowOK below ws gs part = true) :
    ∀ p ∈ ws.zip gs, p.1 ∈ part ∧ isRule p.1 = true ∧ 46 :: unpack p.2 <:+ unpack p.1 := by
  unfold belowOK at h
  simp only [Bool.cond_eq_ite] at h
  split at h
  · rename_i h1
    split at h
    · rename_i h2
      intro p hp
      exact ⟨sub_sound h1 _ (elem_sound (allL_sound h2 _ (List.of_mem_zip hp).1)), pairsOK_sound h p hp⟩
    · simp at h
  · simp at h

/-- Every part has been checked. -/
def AllOK (f : Nat → Bool) : (parts : List (List Nat)) → Prop
  | [] => True
  | p :: ps => allL f 0 p = true ∧ AllOK f ps

theorem allOK_sound {f : Nat → Bool} : ∀ {parts : List (List Nat)}, AllOK f parts → ∀ n ∈ parts.flatten, f n = true := by
  intro parts
  induction parts with
  | nil => simp
  | cons p ps ih =>
    rintro ⟨h1, h2⟩ n hn
    rw [List.flatten_cons, List.mem_append] at hn
    rcases hn with hn | hn
    · exact allL_sound h1 n hn
    · exact ih h2 n hn

theorem allOK_append {f : Nat → Bool} {a b : List (List Nat)} (ha : AllOK f a) (hb : AllOK f b) : AllOK f (a ++ b) := by
  induction a with
  | nil => exact hb
  | cons p ps ih => exact ⟨ha.1, ih ha.2⟩

/-- In every part there are the rules below gaps that are listed for it. -/
def BelowOK : (bs : List (List Nat × List Nat × List Nat)) → (parts : List (List Nat)) → Prop
  | [], [] => True
  | (b, w, g) :: bs, p :: ps => belowOK b w g p = true ∧ BelowOK bs ps
  | _, _ => False

theorem zip_right {ws gs : List Nat} (hl : gs.length ≤ ws.length) {g : Nat} (h : g ∈ gs) : ∃ w, (w, g) ∈ ws.zip gs := by
  obtain ⟨i, hi, rfl⟩ := List.getElem_of_mem h
  have hi' : i < (ws.zip gs).length := by rw [List.length_zip]; omega
  exact ⟨ws[i], by
    have := List.getElem_mem hi'
    rwa [List.getElem_zip] at this⟩

/-- Gaps are listed with as many rules. -/
def SameLengths : List (List Nat × List Nat × List Nat) → Bool
  | [] => true
  | (_, w, g) :: bs => Nat.beq w.length g.length && SameLengths bs

theorem below_sound : ∀ {bs : List (List Nat × List Nat × List Nat)} {parts : List (List Nat)}, BelowOK bs parts →
    SameLengths bs = true → ∀ g ∈ bs.flatMap (fun b => b.2.2), ∃ w ∈ parts.flatten, isRule w = true ∧ 46 :: unpack g <:+ unpack w := by
  intro bs
  induction bs with
  | nil => simp
  | cons b bs ih =>
    obtain ⟨b, ws, gs⟩ := b
    intro parts h hl g hg
    cases parts with
    | nil => exact h.elim
    | cons p ps =>
      obtain ⟨h1, h2⟩ := h
      rw [SameLengths, Bool.and_eq_true] at hl
      rw [List.flatMap_cons, List.mem_append] at hg
      rw [List.flatten_cons]
      rcases hg with hg | hg
      · obtain ⟨w, hw⟩ := zip_right (ws := ws) (Nat.le_of_eq (Nat.eq_of_beq_eq_true hl.1).symm) hg
        obtain ⟨k1, k2, k3⟩ := belowOK_sound h1 _ hw
        exact ⟨w, List.mem_append_left _ k1, k2, k3⟩
      · obtain ⟨w, k1, k2⟩ := ih h2 hl.2 g hg
        exact ⟨w, List.mem_append_right _ k1, k2⟩

end Fasttld.Inv
