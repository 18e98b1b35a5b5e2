import Verif.Spec.Refines
import Verif.Proofs.Lists

/-!
# Longer lists: what following the labels gives
-/

set_option linter.unusedSimpArgs false

namespace Fasttld
open Spec

section
variable {rules more ls ds : List Bytes}

theorem Spec.Refines.prefix (h : Refines rules more) {p : List Bytes} (hp : PrefixAt rules p) : PrefixAt more p := by
  obtain ⟨q, hq, hr⟩ := hp
  exact ⟨q, hq, h.rule _ hr⟩

theorem Spec.Refines.known (h : Refines rules more) {p : List Bytes} (hp : Known rules p) : Known more p :=
  hp.imp id h.prefix

theorem known_snoc {q : List Bytes} {x : Bytes} : Known rules (q ++ [x]) ↔ PrefixAt rules (q ++ [x]) := by
  unfold Known; simp

theorem Spec.Refines.open (h : Refines rules more) {p : List Bytes} (hp : Open rules p) : Open more p :=
  hp.imp id fun ⟨x, hx⟩ => ⟨x, h.known hx⟩

theorem Spec.Refines.marked (h : Refines rules more) {p : List Bytes} (hp : Marked rules p) : Marked more p := by
  rcases hp with hp | ⟨l, e, hp⟩
  · exact .inl (h.rule _ hp)
  · exact .inr ⟨l, e, h.prefix hp⟩

theorem Spec.Refines.follows (h : Refines rules more) (hlen : ds.length = ls.length) {m : Nat} (hf : Follows rules ls ds m) :
    Follows more ls ds m := by
  refine ⟨hf.le, h.known hf.known, fun j hj hs => ?_, hf.nonempty⟩
  rcases h.star _ (known_snoc.1 hs) with h1 | h1
  · exact hf.noStar j hj (known_snoc.2 h1)
  · have hl := hf.le
    have hjd : j < ds.length := by omega
    have : Known rules (ds.take (j + 1)) := by
      refine hf.known.prefix ?_
      rw [show ds.take (j + 1) = (ds.take m).take (j + 1) by rw [List.take_take, Nat.min_eq_left (by omega)]]
      exact List.take_prefix ..
    rw [List.take_add_one, List.getElem?_eq_getElem hjd, Option.toList_some] at this
    exact h1 _ (known_snoc.1 this)

/-- In the longer list one gets at least as far. -/
theorem Spec.Refines.matched (h : Refines rules more) (hlen : ds.length = ls.length) {m m' : Nat} (hf : Follows rules ls ds m)
    (hs : (∃ seen cut, Stops more ls ds m' seen cut) ∨ (ls[m']? = some [] ∧ m' + 1 < ls.length)) : m ≤ m' :=
  follows_le hlen (h.follows hlen hf) hs

theorem stops_cut {m seen cut : Nat} (h : Stops rules ls ds m seen cut) : m ≤ cut ∧ cut ≤ m + 1 := by
  cases h <;> omega

theorem Spec.Refines.cut (h : Refines rules more) (hlen : ds.length = ls.length) {m seen cut m' seen' cut' : Nat}
    (hf : Follows rules ls ds m) (hs : Stops rules ls ds m seen cut) (hf' : Follows more ls ds m') (hs' : Stops more ls ds m' seen' cut') :
    cut ≤ cut' := by
  have hm := h.matched hlen hf (.inl ⟨_, _, hs'⟩)
  have hc' := stops_cut hs'
  cases hs with
  | all => omega
  | unknown => omega
  | exception => omega
  | @wildcard _ l g1 g2 g3 g4 =>
    have hm' : m' = m := by
      refine Nat.le_antisymm (Nat.le_of_not_lt fun hlt => ?_) hm
      exact hf'.noStar m hlt (h.known g3)
    subst hm'
    cases hs' with
    | @all k k1 =>
      exfalso
      rcases k1 with k1 | k1
      · rw [List.getElem?_eq_none (by omega)] at g1
        simp at g1
      · exact k1 (.inr ⟨_, h.known g3⟩)
    | unknown _ _ _ k3 => exact absurd (h.known g3) k3
    | @exception _ l' k1 k2 k3 k4 =>
      rw [g1] at k1
      obtain rfl := Option.some.inj k1
      exact absurd (known_snoc.2 (h.exception _ _ (known_snoc.1 g3) (known_snoc.1 k4))) g4
    | wildcard => exact Nat.le_refl _

/-- Where the last label is a rule, or the parent of a wildcard, if it is in the longer list at all, a suffix goes on to the right end in both. -/
theorem mark_top {m : Nat} {mark : Option Nat} (hlen : ds.length = ls.length) (hf : Follows rules ls ds m) {t : Bytes}
    (ht : ds.head? = some t) (htop : PrefixAt rules [t] → RuleAt rules [t] ∨ PrefixAt rules [t, star]) (hm : FirstMark rules ds m mark) :
    mark = if m = 0 then none else some 0 := by
  cases ds with
  | nil => simp at ht
  | cons d ds =>
    obtain rfl : d = t := by simpa using ht
    by_cases h0 : m = 0
    · subst h0
      cases hm with
      | none => rfl
      | «at» h1 => omega
    · rw [if_neg h0]
      have hk : Marked rules ((d :: ds).take (0 + 1)) := by
        simp only [Nat.zero_add, List.take_succ_cons, List.take_zero]
        have : PrefixAt rules [d] := by
          have := hf.known
          rcases this with h1 | h1
          · obtain ⟨m, rfl⟩ : ∃ k, m = k + 1 := ⟨m - 1, by omega⟩
            simp at h1
          · obtain ⟨m, rfl⟩ : ∃ k, m = k + 1 := ⟨m - 1, by omega⟩
            rw [List.take_succ_cons] at h1
            exact h1.prefix ⟨_, rfl⟩
        rcases htop this with h1 | h1
        · exact .inl h1
        · exact .inr ⟨d, rfl, h1⟩
      exact firstMark_unique hm (.at (by omega) hk (by omega))

end

end Fasttld
