import Verif.Proofs.FallbackExact
import Verif.Proofs.FallbackText

/-!
# The rules of the built-in list are in Unicode, and its exceptions in ASCII
-/

set_option linter.unusedSimpArgs false

namespace Fasttld.Inv
open Fasttld Fasttld.Spec

theorem texts_builtIn (priv : Bool) : AllOK lineText (builtInParts priv) := by
  cases priv with
  | false => exact textPublic
  | true => exact allOK_append textPublic textPrivate

theorem rev_mem {r l : Bytes} {ls : List Bytes} (h : IsLabels r ls) (hl : l ∈ ls) : l ∈ revLabels r := by
  have := isLabels_rev (r := r) (p := ls.reverse)
  rw [List.reverse_reverse] at this
  rw [← this.1 h]
  simpa using hl

theorem good_head {l : Bytes} (h : GoodLabel (33 :: l)) : False := by
  refine h.chars.2.2.2.2 33 (by decide) (by decide) ?_
  exact ⟨[], l, by simp [show encode 33 = [33] by decide]⟩

theorem unicodeRules_builtIn (priv : Bool) : UnicodeRules (rulesIn (builtInParts priv)) := by
  have hM := moreFacts_builtIn priv
  have hT : ∀ r ∈ rulesIn (builtInParts priv), Punycode.IsText r ∧ (∀ s, r = 33 :: s → ∀ b ∈ r, b < 128) := by
    intro r hr
    obtain ⟨n, h1, h2, rfl⟩ := mem_rulesIn.1 hr
    exact lineText_sound (allOK_sound (texts_builtIn priv) n h1) h2
  refine ⟨fun r hr ls hls l hl => ⟨isText_labels hls (hT r hr).1 l hl, label_noAce hM hr (rev_mem hls hl)⟩, fun r hr ls hls l hl => ?_⟩
  have hin := label_infix (rev_mem hls hl)
  refine ⟨?_, fun h => hM.noAce r hr (h.isInfix.trans (List.IsInfix.trans ⟨[33], [], by simp⟩ hin))⟩
  have hm := rev_mem hls hl
  rcases hM.labels r hr with ⟨s, rfl, hg⟩ | ⟨s, rfl, hg⟩ | hg
  · rw [star_labels, List.mem_append] at hm
    rcases hm with hm | hm
    · exact (good_head (hg _ hm)).elim
    · simp [star] at hm
  · exact fun b hb => (hT _ hr).2 s rfl b (hin.subset (by simp [hb]))
  · exact (good_head (hg _ hm)).elim

/-- Labels that are not in ASCII can occur in host names. -/
theorem other_good (priv : Bool) : ∀ r ∈ rulesIn (builtInParts priv), ∀ ls, IsLabels r ls → ∀ l ∈ ls,
    ¬ (∀ b ∈ l, b < 128) → GoodLabel l := by
  intro r hr ls hls l hl ha
  have hM := moreFacts_builtIn priv
  have hm := rev_mem hls hl
  rcases hM.labels r hr with ⟨s, rfl, hg⟩ | ⟨s, rfl, hg⟩ | hg
  · rw [star_labels, List.mem_append] at hm
    rcases hm with hm | hm
    · exact hg _ hm
    · rw [List.mem_singleton] at hm
      subst hm
      exact absurd (by decide) ha
  · obtain ⟨n, h1, h2, h3⟩ := mem_rulesIn.1 hr
    have := (lineText_sound (allOK_sound (texts_builtIn priv) n h1) h2).2 s h3
    rw [h3] at this
    exact absurd (fun b hb => this b ((label_infix hm).subset hb)) ha
  · exact hg _ hm

end Fasttld.Inv
