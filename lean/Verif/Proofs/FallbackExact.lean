import Verif.Proofs.FactsExact
import Verif.Proofs.FallbackGapsAll
import Verif.Proofs.FallbackGapsPublic
import Verif.Proofs.FallbackLabels
import Verif.Proofs.FallbackList

/-!
# More about the built-in list
-/

namespace Fasttld.Inv
open Fasttld Fasttld.Spec

theorem find_none {n : Nat} : ∀ {t : Table}, ¬ t.find (fun _ _ => false) n = true := by
  intro t
  induction t with
  | leaf => simp [Table.find]
  | node l k p s r ih1 ih2 =>
    rw [Table.find]
    simp only [Bool.cond_eq_ite]
    split
    · simp
    · split
      · exact ih1
      · exact ih2

theorem moreFacts {T : Table} {E parts : List (List Nat)} {G : List Nat} {bs : List (List Nat × List Nat × List Nat)}
    (hP : PartsOK T E parts) (h1 : AllOK lineLabels parts) (h2 : allL T.gapAt 0 G = true) (h3 : AllOK (notGap T) parts)
    (h4 : BelowOK bs parts) (h5 : SameLengths bs = true) (h6 : allL (fun g => elem g (bs.flatMap (fun b => b.2.2))) 0 G = true) :
    MoreFacts (rulesIn parts) (G.map unpack) := by
  have hline : ∀ r ∈ rulesIn parts, ∃ n, unpack n = r ∧ ruleLabels n = true ∧ noAce 200 n = true := by
    intro r hr
    obtain ⟨n, g1, g2, rfl⟩ := mem_rulesIn.1 hr
    have := allOK_sound h1 n g1
    unfold lineLabels at this
    rw [g2, cond_true, Bool.cond_eq_ite] at this
    split at this
    · exact ⟨n, rfl, by assumption, this⟩
    · simp at this
  refine ⟨fun r hr => ?_, fun r hr => ?_, fun g hg hr => ?_, fun g hg hr => ?_, fun g hg => ?_⟩
  · obtain ⟨n, rfl, g1, -⟩ := hline r hr
    exact ruleLabels_sound g1
  · obtain ⟨n, rfl, -, g1⟩ := hline r hr
    exact noAce_sound g1
  · obtain ⟨k, hk, rfl⟩ := List.mem_map.1 hg
    obtain ⟨n, g1, -, g2⟩ := mem_rulesIn.1 hr
    obtain rfl := unpack_inj _ _ g2
    have a := allOK_sound h3 n g1
    have b := allL_sound h2 n hk
    unfold notGap at a
    rw [b] at a
    simp at a
  · obtain ⟨k, hk, rfl⟩ := List.mem_map.1 hg
    obtain ⟨n, g1, g2, g3⟩ := mem_rulesIn.1 hr
    have hn : n = starOf k := unpack_inj _ _ (by rw [g3, unpack_starOf])
    rcases ruleOK_sound ((lineOK_sound ((partsOK_sound hP).1 n g1)).2 g2) with ⟨g4, -, -⟩ | ⟨l, p, hl, e, g4, -⟩
    · exact g4 (by rw [g3]; simp)
    · rw [g3] at e
      have hlp : l = [42] ∧ p = k := by
        match l, e, hl with
        | [], e, _ => simp at e
        | [c], e, _ =>
          simp at e
          exact ⟨by simp [← e.1], (unpack_inj _ _ e.2).symm⟩
        | c :: d :: l, e, hl =>
          simp at e
          exact absurd (by simp [← e.2.1]) hl
      obtain ⟨-, rfl⟩ := hlp
      have hm : Nat.mod n 65536 = 11818 := by
        rw [hn, mod_def]; unfold starOf; omega
      rw [hm] at g4
      refine find_none (find_mono (fun a b h => ?_) (Table.find_and g4 (allL_sound h2 p hk)))
      have g5 := (Bool.and_eq_true_iff.1 h).1
      have g6 := (Bool.and_eq_true_iff.1 h).2
      rw [show Nat.beq 11818 11818 = true from rfl, cond_true] at g5
      rw [Bool.cond_eq_ite] at g6
      split at g6
      · rw [Nat.eq_of_beq_eq_true g6] at g5
        exact g5
      · simp at g6
  · obtain ⟨k, hk, rfl⟩ := List.mem_map.1 hg
    obtain ⟨w, g1, g2, g3⟩ := below_sound h4 h5 k (elem_sound (allL_sound h6 k hk))
    exact ⟨_, mem_rulesIn.2 ⟨w, g1, g2, rfl⟩, g3⟩

theorem moreFacts_builtIn (priv : Bool) : MoreFacts (rulesIn (builtInParts priv)) (gaps priv) := by
  cases priv with
  | false => exact moreFacts partsOK_public labelsPublic gapsAtPublic notGapsPublic belowInPublic sameLengthsPublic gapsBelowPublic
  | true =>
    exact moreFacts partsOK_all (allOK_append labelsPublic labelsPrivate) gapsAtAll notGapsAll belowInAll sameLengthsAll gapsBelowAll

end Fasttld.Inv
