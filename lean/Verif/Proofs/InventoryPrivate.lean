import Verif.Proofs.FactsRules
import Verif.Proofs.InventoryMore

/-!
# Lines of the private section, compared with the public one
-/

set_option linter.unusedSimpArgs false

namespace Fasttld.Inv
open Fasttld Fasttld.Spec

/-- The last label is not `z`. -/
def topNot (z : Nat) : Nat → Nat → Bool
  | 0, _ => false
  | fuel + 1, n => withParent (bif Nat.beq n z then false else true) (topNot z fuel) 200 n

theorem topNot_sound {z : Nat} : ∀ {fuel n : Nat}, topNot z fuel n = true → (revLabels (unpack n)).head? ≠ some (unpack z)
  | 0, _, h => by simp [topNot] at h
  | fuel + 1, n, h => by
    rw [topNot] at h
    rcases withParent_sound h with ⟨h1, h2⟩ | ⟨l, p, h1, e, h2⟩
    · rw [revLabels_single h1]
      intro h3
      rw [unpack_inj _ _ (Option.some.inj h3)] at h2
      simp at h2
    · rw [e, revLabels_dot]
      have := topNot_sound h2
      cases hr : revLabels (unpack p) with
      | nil => exact absurd hr (revLabels_ne_nil _)
      | cons x xs => rw [hr] at this; exact this

/-- A rule has at least two labels, the last of which is not `z`; if it begins with `*.` or `!`, nothing in the table `T` is
below its parent, which has two labels itself. -/
def linePriv (T : Table) (z n : Nat) : Bool :=
  bif isRule n then
    bif topNot z 10 n then
      withParent false (fun p =>
        bif Nat.beq (Nat.mod n 256) 33 then (bif T.find (fun _ _ => true) p then false else withParent false (fun _ => true) 200 p)
        else bif Nat.beq (Nat.mod n 65536) 11818 then (bif T.find (fun _ _ => true) p then false else withParent false (fun _ => true) 200 p)
        else true) 200 n
    else false
  else true

theorem linePriv_sound {T : Table} {z n : Nat} (h : linePriv T z n = true) (hr : isRule n = true) :
    46 ∈ unpack n ∧ (revLabels (unpack n)).head? ≠ some (unpack z) ∧
    ∃ l p, 46 ∉ l ∧ unpack n = l ++ 46 :: unpack p ∧ ((l = [42] ∨ l.head? = some 33) → T.find (fun _ _ => true) p = false ∧ 46 ∈ unpack p) := by
  unfold linePriv at h
  rw [hr, cond_true, Bool.cond_eq_ite] at h
  split at h
  · rename_i ht
    rcases withParent_sound h with ⟨-, h2⟩ | ⟨l, p, h1, e, h2⟩
    · simp at h2
    · refine ⟨by rw [e]; simp, topNot_sound ht, l, p, h1, e, fun hl => ?_⟩
      have key : (bif T.find (fun _ _ => true) p then false else withParent false (fun _ => true) 200 p) = true →
          T.find (fun _ _ => true) p = false ∧ 46 ∈ unpack p := by
        intro hk
        rw [Bool.cond_eq_ite] at hk
        split at hk
        · simp at hk
        · rename_i hf
          refine ⟨by simpa using hf, ?_⟩
          rcases withParent_sound hk with ⟨-, h3⟩ | ⟨l', p', -, e', -⟩
          · simp at h3
          · rw [e']; simp
      have hn : n ≠ 0 := by rintro rfl; rw [unpack_zero] at e; simp at e
      rw [unpack_pos hn] at e
      simp only [mod_def, Bool.cond_eq_ite] at h2
      have byte : ∀ {c : Nat} {b : UInt8}, c < 256 → UInt8.ofNat c = b → c = b.toNat := by
        intro c b hc hb
        rw [← hb]; simp; omega
      rcases hl with rfl | hl
      · simp only [List.cons_append, List.nil_append, List.cons.injEq] at e
        have e1 := byte (Nat.mod_lt _ (by omega)) e.1
        have hn2 : n / 256 ≠ 0 := by intro h0; rw [h0, unpack_zero] at e; simp at e
        rw [unpack_pos hn2] at e
        simp only [List.cons.injEq] at e
        have e2 := byte (Nat.mod_lt _ (by omega)) e.2.1
        have e1 : n % 256 = 42 := e1
        have e2 : n / 256 % 256 = 46 := e2
        rw [if_neg (by rw [e1]; decide), if_pos (by rw [show n % 65536 = 11818 by omega]; rfl)] at h2
        rw [← Bool.cond_eq_ite] at h2
        exact key h2
      · cases l with
        | nil => simp at hl
        | cons c l =>
          obtain rfl : c = 33 := by simpa using hl
          simp only [List.cons_append, List.cons.injEq] at e
          have e1 : n % 256 = 33 := byte (Nat.mod_lt _ (by omega)) e.1
          rw [if_pos (by rw [e1]; rfl)] at h2
          rw [← Bool.cond_eq_ite] at h2
          exact key h2
  · simp at h

end Fasttld.Inv
