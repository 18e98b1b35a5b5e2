import Lean.Elab.Term
import Verif.Model.Lines
import Verif.Spec.Rules
import Verif.Proofs.Psl
import Verif.Proofs.Trie

/-!
# Checking facts about long lists by evaluation

The functions here work on lines as numbers (Model/Lines.lean), are evaluated by the kernel on the built-in list and are
proved to mean what the specification says about the lines as byte strings.
-/

namespace Fasttld.Inv
open Fasttld Fasttld.Spec

theorem unpackF_eq : ∀ (f g n : Nat), n ≤ f → n ≤ g → unpackF f n = unpackF g n := by
  intro f
  induction f with
  | zero =>
    intro g n h _
    obtain rfl : n = 0 := by omega
    cases g <;> simp [unpackF]
  | succ f ih =>
    intro g n h1 h2
    cases g with
    | zero =>
      obtain rfl : n = 0 := by omega
      simp [unpackF]
    | succ g =>
      rw [unpackF, unpackF]
      by_cases h : n = 0
      · rw [if_pos h, if_pos h]
      · rw [if_neg h, if_neg h, ih g (n / 256) (by omega) (by omega)]

theorem unpack_zero : unpack 0 = [] := rfl

theorem unpack_pos {n : Nat} (h : n ≠ 0) : unpack n = UInt8.ofNat (n % 256) :: unpack (n / 256) := by
  unfold unpack
  obtain ⟨m, rfl⟩ := Nat.exists_eq_succ_of_ne_zero h
  rw [Nat.succ_eq_add_one, unpackF, if_neg (by omega), unpackF_eq m ((m + 1) / 256) _ (by omega) (by omega)]

theorem unpack_ne_nil {n : Nat} (h : n ≠ 0) : unpack n ≠ [] := by rw [unpack_pos h]; simp

/-- The number of a line without zero bytes. -/
def pack (s : Bytes) : Nat := s.foldr (fun b n => b.toNat + 256 * n) 0

theorem unpack_pack : ∀ s : Bytes, 0 ∉ s → unpack (pack s) = s := by
  intro s
  induction s with
  | nil => intro _; rfl
  | cons b s ih =>
    intro h
    have hb : b.toNat ≠ 0 := by
      intro e
      apply h
      have : b = 0 := UInt8.toNat_inj.1 (by simpa using e)
      simp [this]
    have hlt := b.toNat_lt
    have e : pack (b :: s) = b.toNat + 256 * pack s := rfl
    rw [e, unpack_pos (by omega)]
    have e1 : (b.toNat + 256 * pack s) % 256 = b.toNat := by omega
    have e2 : (b.toNat + 256 * pack s) / 256 = pack s := by omega
    rw [e1, e2, ih (fun h' => h (List.mem_cons_of_mem _ h'))]
    simp

theorem unpack_inj : ∀ (n m : Nat), unpack n = unpack m → n = m := by
  intro n
  induction n using Nat.strongRecOn with
  | _ n ih =>
    intro m h
    by_cases hn : n = 0
    · subst hn
      by_cases hm : m = 0
      · exact hm.symm
      · rw [unpack_zero] at h; exact absurd h.symm (unpack_ne_nil hm)
    · by_cases hm : m = 0
      · subst hm; rw [unpack_zero] at h; exact absurd h (unpack_ne_nil hn)
      · rw [unpack_pos hn, unpack_pos hm] at h
        obtain ⟨h1, h2⟩ := List.cons.inj h
        have := ih (n / 256) (by omega) (m / 256) h2
        have h3 := congrArg UInt8.toNat h1
        simp only [UInt8.toNat_ofNat', Nat.reducePow] at h3
        omega

theorem mod_def (n m : Nat) : Nat.mod n m = n % m := rfl
theorem div_def (n m : Nat) : Nat.div n m = n / m := rfl
theorem beq_false {n m : Nat} (h : n ≠ m) : Nat.beq n m = false := by
  cases e : Nat.beq n m with
  | false => rfl
  | true => exact absurd (Nat.eq_of_beq_eq_true e) h

/-! ## Digits -/

/-- `p` holds of all bytes; `false` if `fuel` is too small. -/
def allBytes (p : Nat → Bool) : (fuel : Nat) → Nat → Bool
  | 0, _ => false
  | fuel + 1, n => bif Nat.beq n 0 then true else bif p (Nat.mod n 256) then allBytes p fuel (Nat.div n 256) else false

theorem allBytes_sound {p : Nat → Bool} : ∀ {fuel n : Nat}, allBytes p fuel n = true → ∀ b ∈ unpack n, p b.toNat = true := by
  intro fuel
  induction fuel with
  | zero => intro n h; simp [allBytes] at h
  | succ fuel ih =>
    intro n h b hb
    rw [allBytes] at h
    simp only [mod_def, div_def] at h
    by_cases hn : n = 0
    · subst hn; rw [unpack_zero] at hb; simp at hb
    · have e : Nat.beq n 0 = false := beq_false hn
      rw [e, cond_false, Bool.cond_eq_ite] at h
      by_cases hp : p (n % 256) = true
      · rw [if_pos hp] at h
        rw [unpack_pos hn, List.mem_cons] at hb
        rcases hb with rfl | hb
        · have : n % 256 < 256 := Nat.mod_lt _ (by decide)
          simpa [Nat.mod_eq_of_lt this] using hp
        · exact ih h b hb
      · rw [if_neg hp] at h; simp at h

/-- The last byte satisfies `p` and no byte is a line feed or zero; `last` is the byte before. -/
def scan (p : Nat → Bool) : (fuel last : Nat) → Nat → Bool
  | 0, _, _ => false
  | fuel + 1, last, n =>
    bif Nat.beq n 0 then p last
    else bif Nat.beq (Nat.mod n 256) 10 then false
    else bif Nat.beq (Nat.mod n 256) 0 then false
    else scan p fuel (Nat.mod n 256) (Nat.div n 256)

theorem scan_sound {p : Nat → Bool} : ∀ {fuel last n : Nat}, scan p fuel last n = true →
    10 ∉ unpack n ∧ 0 ∉ unpack n ∧ (n = 0 ∧ p last = true ∨ ∃ s b, unpack n = s ++ [b] ∧ p b.toNat = true) := by
  intro fuel
  induction fuel with
  | zero => intro last n h; simp [scan] at h
  | succ fuel ih =>
    intro last n h
    rw [scan] at h
    simp only [mod_def, div_def] at h
    by_cases hn : n = 0
    · subst hn
      rw [show Nat.beq 0 0 = true from rfl, cond_true] at h
      rw [unpack_zero]; simp [h]
    · have e : Nat.beq n 0 = false := beq_false hn
      rw [e, cond_false, Bool.cond_eq_ite] at h
      by_cases h10 : Nat.beq (n % 256) 10 = true
      · rw [if_pos h10] at h; simp at h
      rw [if_neg h10, Bool.cond_eq_ite] at h
      by_cases h0 : Nat.beq (n % 256) 0 = true
      · rw [if_pos h0] at h; simp at h
      rw [if_neg h0] at h
      have hlt : n % 256 < 256 := Nat.mod_lt _ (by decide)
      have h10' : n % 256 ≠ 10 := fun e => h10 (by rw [e]; rfl)
      have h0' : n % 256 ≠ 0 := fun e => h0 (by rw [e]; rfl)
      obtain ⟨i1, i2, i3⟩ := ih h
      rw [unpack_pos hn]
      refine ⟨?_, ?_, .inr ?_⟩
      · rw [List.mem_cons]
        rintro (h | h)
        · have := congrArg UInt8.toNat h
          simp at this
          omega
        · exact i1 h
      · rw [List.mem_cons]
        rintro (h | h)
        · have := congrArg UInt8.toNat h
          simp at this
          omega
        · exact i2 h
      · rcases i3 with ⟨h1, h2⟩ | ⟨s, b, h1, h2⟩
        · refine ⟨[], UInt8.ofNat (n % 256), ?_, ?_⟩
          · have : n / 256 = 0 := h1
            rw [this, unpack_zero]; rfl
          · simpa [Nat.mod_eq_of_lt hlt] using h2
        · exact ⟨_ :: s, b, by rw [h1]; rfl, h2⟩

/-! ## Labels -/

/-- `f` of what follows the first dot; `a` if there is no dot. -/
def withParent (a : Bool) (f : Nat → Bool) : (fuel : Nat) → Nat → Bool
  | 0, _ => false
  | fuel + 1, n =>
    bif Nat.beq n 0 then a
    else bif Nat.beq (Nat.mod n 256) 46 then f (Nat.div n 256)
    else withParent a f fuel (Nat.div n 256)

theorem withParent_sound {a : Bool} {f : Nat → Bool} : ∀ {fuel n : Nat}, withParent a f fuel n = true →
    (46 ∉ unpack n ∧ a = true) ∨ ∃ l p, 46 ∉ l ∧ unpack n = l ++ 46 :: unpack p ∧ f p = true := by
  intro fuel
  induction fuel with
  | zero => intro n h; simp [withParent] at h
  | succ fuel ih =>
    intro n h
    rw [withParent] at h
    simp only [mod_def, div_def] at h
    by_cases hn : n = 0
    · subst hn
      rw [show Nat.beq 0 0 = true from rfl, cond_true] at h
      exact .inl ⟨by rw [unpack_zero]; simp, h⟩
    · have e : Nat.beq n 0 = false := beq_false hn
      rw [e, cond_false, Bool.cond_eq_ite] at h
      have hlt : n % 256 < 256 := Nat.mod_lt _ (by decide)
      by_cases hd : Nat.beq (n % 256) 46 = true
      · rw [if_pos hd] at h
        have hd' : n % 256 = 46 := Nat.eq_of_beq_eq_true hd
        exact .inr ⟨[], n / 256, by simp, by rw [unpack_pos hn, hd']; rfl, h⟩
      · rw [if_neg hd] at h
        have hd' : n % 256 ≠ 46 := fun e => hd (by rw [e]; rfl)
        have hne : (46 : UInt8) ≠ UInt8.ofNat (n % 256) := by
          intro h
          have := congrArg UInt8.toNat h
          simp at this
          omega
        rw [unpack_pos hn]
        rcases ih h with ⟨h1, h2⟩ | ⟨l, p, h1, h2, h3⟩
        · exact .inl ⟨by simp only [List.mem_cons, not_or]; exact ⟨hne, h1⟩, h2⟩
        · exact .inr ⟨_ :: l, p, by simp only [List.mem_cons, not_or]; exact ⟨hne, h1⟩,
            by rw [h2]; rfl, h3⟩

/-- The line with `*.` before it. -/
def starOf (n : Nat) : Nat := 42 + 256 * (46 + 256 * n)

theorem unpack_starOf (n : Nat) : unpack (starOf n) = 42 :: 46 :: unpack n := by
  unfold starOf
  rw [unpack_pos (by omega)]
  have e1 : (42 + 256 * (46 + 256 * n)) % 256 = 42 := by omega
  have e2 : (42 + 256 * (46 + 256 * n)) / 256 = 46 + 256 * n := by omega
  rw [e1, e2, unpack_pos (by omega)]
  have e1 : (46 + 256 * n) % 256 = 46 := by omega
  have e2 : (46 + 256 * n) / 256 = n := by omega
  rw [e1, e2]; rfl

/-! ## A table of the parents of rules -/

/-- Keys in a search tree.  `part`: 0, or one more than the number of the part of the list with the rule that is the key
or the wildcard below it; `flag`: 0 no wildcard below the key, 1 a wildcard, 2 a wildcard and longer rules. -/
inductive Table
  | leaf
  | node (l : Table) (key part flag : Nat) (r : Table)

namespace Table

/-- `f` of the entry of `n`, `false` if there is none. -/
def find (f : Nat → Nat → Bool) (n : Nat) : Table → Bool
  | leaf => false
  | node l k p s r => bif Nat.beq n k then f p s else bif Nat.blt n k then find f n l else find f n r

/-- All entries.  The key is handed over as a sum and difference with the place `i` of the entry in the tree: the kernel
keeps the values of terms it has evaluated in a hash table and tells large numbers apart by their lowest digits only. -/
def all (f : Nat → Nat → Nat → Bool) : Nat → Table → Bool
  | _, leaf => true
  | i, node l k p s r =>
    bif all f (Nat.mul 2 i) l then
      bif f (Nat.sub (Nat.add k i) i) p s then all f (Nat.add (Nat.mul 2 i) 1) r else false
    else false

theorem find_all {f : Nat → Nat → Bool} {g : Nat → Nat → Nat → Bool} {n : Nat} : ∀ {t : Table} {i : Nat}, t.find f n = true →
    t.all g i = true → ∃ p s, f p s = true ∧ g n p s = true := by
  intro t
  induction t with
  | leaf => intro i h; simp [find] at h
  | node l k p s r ih1 ih2 =>
    intro i h1 h2
    rw [find] at h1
    rw [all] at h2
    simp only [Bool.cond_eq_ite] at h1 h2
    split at h2
    · rename_i hl
      split at h2
      · rename_i hk
        split at h1
        · rename_i e
          obtain rfl := Nat.eq_of_beq_eq_true e
          rw [show Nat.sub (Nat.add n i) i = n from Nat.add_sub_cancel _ _] at hk
          exact ⟨p, s, h1, hk⟩
        · split at h1
          · exact ih1 h1 hl
          · exact ih2 h1 h2
      · simp at h2
    · simp at h2

theorem find_and {f g : Nat → Nat → Bool} {n : Nat} : ∀ {t : Table}, t.find f n = true → t.find g n = true →
    t.find (fun p s => f p s && g p s) n = true := by
  intro t
  induction t with
  | leaf => intro h; simp [find] at h
  | node l k p s r ih1 ih2 =>
    intro h1 h2
    rw [find] at h1 h2 ⊢
    simp only [Bool.cond_eq_ite] at h1 h2 ⊢
    split
    · rename_i e
      rw [if_pos e] at h1 h2
      simp [h1, h2]
    · rename_i e
      rw [if_neg e] at h1 h2
      split
      · rename_i e
        rw [if_pos e] at h1 h2
        exact ih1 h1 h2
      · rename_i e
        rw [if_neg e] at h1 h2
        exact ih2 h1 h2

end Table

open Lean Elab Term in
/-- `table! "a 1 0\nb 2 1"` is a table with the keys `a` and `b`; the lines must be in the order of the keys. -/
elab "table! " s:str : term => do
  let nat (n : Nat) := mkRawNatLit n
  let es := ((s.getString.splitOn "\n").map fun l => match l.splitOn " " with
    | [k, p, f] => (k.toUTF8.toList.foldr (fun (b : UInt8) n => b.toNat + 256 * n) 0, p.toNat!, f.toNat!)
    | _ => (0, 0, 9)).toArray
  let rec go (fuel lo hi : Nat) : Expr :=
    match fuel with
    | 0 => Lean.mkConst ``Table.leaf
    | fuel + 1 =>
      if lo < hi then
        let m := (lo + hi) / 2
        let e := es[m]!
        mkApp5 (Lean.mkConst ``Table.node) (go fuel lo m) (nat e.1) (nat e.2.1) (nat e.2.2) (go fuel (m + 1) hi)
      else Lean.mkConst ``Table.leaf
  return go 64 0 es.size

/-! ## Checks -/

/-- Membership. -/
def elem (n : Nat) : List Nat → Bool
  | [] => false
  | x :: xs => bif Nat.beq n x then true else elem n xs

theorem elem_sound {n : Nat} : ∀ {xs : List Nat}, elem n xs = true → n ∈ xs := by
  intro xs
  induction xs with
  | nil => intro h; simp [elem] at h
  | cons x xs ih =>
    intro h
    rw [elem, Bool.cond_eq_ite] at h
    split at h
    · rename_i e; simp [Nat.eq_of_beq_eq_true e]
    · exact List.mem_cons_of_mem _ (ih h)

/-- All elements; for `i` see `Table.all`. -/
def allL (f : Nat → Bool) : Nat → List Nat → Bool
  | _, [] => true
  | i, x :: xs => bif f (Nat.sub (Nat.add x i) i) then allL f (Nat.add i 1) xs else false

theorem allL_sound {f : Nat → Bool} : ∀ {xs : List Nat} {i : Nat}, allL f i xs = true → ∀ x ∈ xs, f x = true := by
  intro xs
  induction xs with
  | nil => simp
  | cons x xs ih =>
    intro i h y hy
    rw [allL, Bool.cond_eq_ite, show Nat.sub (Nat.add x i) i = x from Nat.add_sub_cancel _ _] at h
    split at h
    · rename_i e
      rcases List.mem_cons.1 hy with rfl | hy
      · exact e
      · exact ih h y hy
    · simp at h

/-- `xs` with some elements left out. -/
def sub : (es xs : List Nat) → Bool
  | [], _ => true
  | _ :: _, [] => false
  | e :: es, x :: xs => bif Nat.beq e x then sub es xs else sub (e :: es) xs

theorem sub_sound : ∀ {xs es : List Nat}, sub es xs = true → ∀ e ∈ es, e ∈ xs := by
  intro xs
  induction xs with
  | nil => intro es h e he; cases es <;> simp [sub] at h he
  | cons x xs ih =>
    intro es h e he
    cases es with
    | nil => simp at he
    | cons e' es =>
      rw [sub, Bool.cond_eq_ite] at h
      split at h
      · rename_i h1
        obtain rfl := Nat.eq_of_beq_eq_true h1
        rcases List.mem_cons.1 he with rfl | he
        · simp
        · exact List.mem_cons_of_mem _ (ih h e he)
      · exact List.mem_cons_of_mem _ (ih h e he)

/-- The line is not empty and does not begin with two slashes. -/
def isRule (n : Nat) : Bool := bif Nat.beq n 0 then false else bif Nat.beq (Nat.mod n 65536) 12079 then false else true

theorem isRule_iff {n : Nat} : isRule n = true ↔ IsRuleLine (unpack n) := by
  unfold isRule IsRuleLine IsComment
  by_cases h : n = 0
  · subst h; simp [unpack_zero]
  · rw [beq_false h, cond_false, mod_def]
    rw [unpack_pos h]
    by_cases h2 : n / 256 = 0
    · have e : n % 65536 ≠ 12079 := by omega
      rw [beq_false e, cond_false, h2, unpack_zero]
      simp [List.cons_prefix_cons]
    · rw [unpack_pos h2]
      have hl1 : n % 256 < 256 := Nat.mod_lt _ (by decide)
      have hl2 : n / 256 % 256 < 256 := Nat.mod_lt _ (by decide)
      by_cases e : n % 65536 = 12079
      · have e1 : n % 256 = 47 := by omega
        have e2 : n / 256 % 256 = 47 := by omega
        rw [e, e1, e2]
        simp [List.cons_prefix_cons]
      · rw [beq_false e, cond_false]
        simp only [true_iff, List.cons_prefix_cons, ne_eq, reduceCtorEq, not_false_eq_true, true_and, not_and]
        intro h3 h4
        have h3 := congrArg UInt8.toNat h3
        have h4 := congrArg UInt8.toNat h4
        simp at h3 h4
        omega

/-- The number of rule lines. -/
def count : Nat → List Nat → Nat
  | _, [] => 0
  | i, x :: xs => bif isRule (Nat.sub (Nat.add x i) i) then Nat.succ (count (Nat.add i 1) xs) else count (Nat.add i 1) xs

/-- Every part has the number of rule lines given. -/
def Counts : List Nat → List (List Nat) → Prop
  | [], [] => True
  | c :: cs, p :: ps => count 0 p = c ∧ Counts cs ps
  | _, _ => False

/-- No part has one of these lines. -/
def AllParts (absent : List Nat) : List (List Nat) → Prop
  | [] => True
  | p :: ps => allL (fun n => bif elem n absent then false else true) 0 p = true ∧ AllParts absent ps

/-- A byte of ASCII that is visible. -/
def visible (b : Nat) : Bool := bif Nat.ble 33 b then Nat.ble b 126 else false

/-- No line feed or zero, and no white space around the line. -/
def stripped (n : Nat) : Bool :=
  bif Nat.beq n 0 then true
  else bif visible (Nat.mod n 256) then (bif scan visible 200 0 n then true
    else bif scan (fun _ => true) 200 0 n then trimSpace (unpack n) == unpack n else false)
  else bif scan (fun _ => true) 200 0 n then trimSpace (unpack n) == unpack n else false

/-- All ancestors from the second one on are in the table, without a wildcard or with a listed one. -/
def chain (T : Table) : (fuel : Nat) → Nat → Bool
  | 0, _ => false
  | fuel + 1, p => withParent true (fun a => bif T.find (fun _ s => bif Nat.beq s 1 then false else true) a then chain T fuel a else false) 200 p

/-- Checks for a rule. -/
def ruleOK (T : Table) (r : Nat) : Bool :=
  withParent (bif Nat.beq (Nat.mod r 256) 33 then false else bif Nat.beq r 42 then false else true)
    (fun p =>
      bif T.find (fun _ s => bif Nat.beq (Nat.mod r 65536) 11818 then Nat.ble 1 s
        else bif Nat.beq (Nat.mod r 256) 33 then (bif Nat.beq (Nat.mod (Nat.div r 256) 256) 42 then false else Nat.ble 1 s) else true) p
      then chain T 10 p else false) 200 r

/-- Checks for a line. -/
def lineOK (T : Table) (n : Nat) : Bool :=
  bif stripped n then bif isRule n then ruleOK T n else true else false

/-- Checks for a part of the list; `es` are the rules in it that the table refers to. -/
def partOK (T : Table) (es part : List Nat) : Bool :=
  bif allL (lineOK T) 0 part then bif sub es part then allL isRule 0 es else false else false

/-- `xn--` occurs nowhere. -/
def noAce : (fuel : Nat) → Nat → Bool
  | 0, _ => false
  | fuel + 1, n =>
    bif Nat.beq n 0 then true else bif Nat.beq (Nat.mod n 4294967296) 757952120 then false else noAce fuel (Nat.div n 256)

/-- Checks for an entry of the table; `E` are the rules it refers to, by part. -/
def entryOK (E : List (List Nat)) (G S : List Nat) (k p s : Nat) : Bool :=
  bif allBytes (fun b => bif Nat.beq b 42 then false else true) 200 k then
    bif Nat.beq s 0 then (bif Nat.beq p 0 then elem k G else elem k (E.getD (p - 1) []))
    else bif elem (starOf k) (E.getD (p - 1) []) then
      bif allBytes (fun b => Nat.blt b 128) 200 k then
        bif noAce 200 k then bif Nat.beq s 1 then true else elem k S
        else false
      else false
    else false
  else false

end Fasttld.Inv
