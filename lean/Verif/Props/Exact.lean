import Verif.Proofs.ExactText
import Verif.Proofs.ExactDecide
import Verif.Props.Rules
import Verif.Props.Complete

/-!
# C55: for which lists the library follows the algorithm of the Public Suffix List
-/

set_option linter.unusedSimpArgs false

namespace Fasttld.Props
open Spec

/-- On every dotted name of good labels that is accepted as a host name, Extract gives the public suffix, and no suffix if
no rule matches. -/
def FollowsAlgorithm (idna : Idna) (rules : List Bytes) : Prop :=
  ∀ (first : Bytes) (ls : List Bytes) (r : ExtractResult), (∀ l ∈ first :: ls, GoodLabel l) →
    extract idna (buildTrie rules) { url := List.intercalate [46] (first :: ls) } = .ok (r, none) → r.hostType = .hostName →
    (∀ n, PublicSuffix rules (first :: ls).reverse n →
      CutLabels first (ls.map fun l => (46, l)) n r.subDomain r.domain r.suffix) ∧
    (NoRuleMatches rules (first :: ls).reverse →
      CutLabels first (ls.map fun l => (46, l)) 0 r.subDomain r.domain r.suffix)

/-- A gapless list is enough, whatever the IDNA library does. -/
theorem C55_sufficient (idna : Idna) {rules : List Bytes} (hw : WellFormed rules) (hg : Gapless rules) :
    FollowsAlgorithm idna rules := by
  intro first ls r hl h ht
  have hgn := goodName_dotted hl
  obtain ⟨host, after, n, first', rest', tail, hA, hp, haf, hn, hlb, -, hcut⟩ := C17_tame_partial idna rules _ rfl h ht
  simp only at hA hn
  rw [dotted_join] at hA
  obtain ⟨-, -, he⟩ := Authority_unique hA (hostCharsOK_authority hgn.chars)
  have hafter : after = [] := by
    cases after with
    | nil => rfl
    | cons c t =>
      have h1 := (hostCharsOK_plain hgn.chars c (by rw [← he]; simp)).1
      exact absurd (afterHost_head haf c t rfl) (by simp [h1])
  rw [hafter, List.append_nil] at he
  obtain ⟨un, -, ⟨-, -, rfl⟩ | ⟨hc, -⟩⟩ := hn
  · rw [he] at hlb
    have hlb' : HostLabels (joinLabels first (dotted ls)) first (dotted ls) [] := by
      refine ⟨by simp, ⟨hgn.first.free, fun p hp => ⟨(hgn.rest p hp).1, (hgn.rest p hp).2.free⟩⟩, ⟨[], by simp, rfl⟩, ?_⟩
      intro hc
      have := List.mem_of_getLast? hc
      have hm : ([] : Bytes) ∈ first :: ls := by
        simpa [dotted, List.map_map, Function.comp_def] using this
      exact (hl [] hm).ne rfl
    obtain ⟨rfl, rfl, -⟩ := hlb.unique hlb'
    have hrev : ∀ l ∈ (first' :: ls).reverse, GoodLabel l := fun l hl' => hl l (List.mem_reverse.1 hl')
    have hd : DecodesAll (fromRight first' (dotted ls)) (first' :: ls).reverse := by
      rw [dotted_fromRight]
      generalize (first' :: ls).reverse = X at hrev
      induction X with
      | nil => trivial
      | cons x X ih => exact ⟨(hrev x (by simp)).decodes, ih fun y hy => hrev y (by simp [hy])⟩
    exact hcut _ hd (hg.tame hw hrev) (.inl (dotted_fromRight _ _))
  · simp at hc

/-- C55: the condition `Gapless` on the list is exactly what is needed.  For a well-formed list, with an IDNA library that
accepts its labels, Extract follows the algorithm on all names if and only if the list is gapless. -/
theorem C55_exact (idna : Idna) {rules : List Bytes} (hw : WellFormed rules) (hi : AcceptsNames idna rules) :
    FollowsAlgorithm idna rules ↔ Gapless rules := by
  refine ⟨fun h => ?_, C55_sufficient idna hw⟩
  obtain ⟨f, hf, ha⟩ := newLabel_exists rules
  refine necessary hw hf ?_ (fun name h1 h2 => good_read h1 h2) ?_
  · intro name
    rcases C17_algorithm rules name with ⟨h, -⟩ | ⟨-, n, h, -⟩
    · exact .inl h
    · exact .inr ⟨n, h⟩
  intro base hb m seen cut mark h1 h2 h3
  have hname : base ++ [f, f] = (f :: f :: base.reverse).reverse := by simp
  have hgl : ∀ l ∈ f :: f :: base.reverse, GoodLabel l ∧ (LabelOf rules l ∨ OnlyA l) := by
    intro l hl
    simp only [List.mem_cons, List.mem_reverse] at hl
    rcases hl with rfl | rfl | hl
    · exact ⟨hf.good, .inr ha⟩
    · exact ⟨hf.good, .inr ha⟩
    · exact ⟨(hb l hl).1, (hb l hl).2.imp id (fun (e : l = f) => e ▸ ha)⟩
  have hm : m ≤ base.length := by
    refine Classical.byContradiction fun hc => ?_
    have hk := h1.known
    have hmem : f ∈ (base ++ [f, f]).take m := by
      rw [List.take_append, List.mem_append]
      right
      obtain ⟨i, hi⟩ : ∃ i, m - base.length = i + 1 := ⟨m - base.length - 1, by omega⟩
      rw [hi]; simp
    rcases hk with hk | hk
    · rw [hk] at hmem; simp at hmem
    · exact hf.not_prefix (.inl hmem) hk
  have hcut : cut ≤ base.length + 1 := by cases h2 <;> omega
  rw [hname] at h1 h2 h3 ⊢
  have h4 : ¬ IsIPv4 (List.intercalate [46] (f :: f :: base.reverse)) := by
    rw [dotted_join]
    cases hfe : f with
    | nil => exact absurd hfe hf.good.ne
    | cons c t =>
      have hc : c = 97 := ha.2 c (by rw [hfe]; simp)
      subst hc
      exact not_ipv4_letter (by decide)
  obtain ⟨sub, dom, suf, reg, hp, hx⟩ := extracts_dotted idna (fun l hl => (hgl l hl).1) (hi _ hgl) h4 h1 h2 h3 (.inr (by simpa using hcut))
  have hgn := goodName_dotted (first := f) (ls := f :: base.reverse) (fun l hl => (hgl l hl).1)
  obtain ⟨k1, k2⟩ := h f (f :: base.reverse) _ (fun l hl => (hgl l hl).1) ((C52_extract ..).2 hx) rfl
  refine ⟨fun n hn => parts_cut hgn hp (k1 n hn), fun hn => ?_⟩
  rcases parts_cut hgn hp (k2 hn) with h | ⟨h5, h6⟩
  · exact h.1
  · subst h5
    exfalso
    cases h3 with
    | «at» h7 _ _ =>
      have : m ≤ cut := by cases h2 <;> omega
      omega

/-! Lists with and without the condition; all of them are well formed. -/

theorem idId_accepts (rules : List Bytes) : AcceptsNames idId rules := fun _ _ => rfl

-- like the list: wildcards, exceptions
example : WellFormed pslRules ∧ Gapless pslRules ∧ FollowsAlgorithm idId pslRules :=
  have hw : WellFormed pslRules := wellFormedB_sound (by decide +kernel)
  have hg : Gapless pslRules := by decide +kernel
  ⟨hw, hg, (C55_exact idId hw (idId_accepts _)).2 hg⟩
-- a longer rule below an exception is no harm
example : WellFormed [b! "ck", b! "*.ck", b! "!www.ck", b! "a.www.ck"] ∧
    Gapless [b! "ck", b! "*.ck", b! "!www.ck", b! "a.www.ck"] := ⟨wellFormedB_sound (by decide +kernel), by decide +kernel⟩
-- a gap and a shadow behind a wildcard are never met
example : Gapless [b! "ck", b! "*.ck", b! "!b.ck", b! "c.b.ck"] ∧ ¬ RuleAt [b! "ck", b! "*.ck", b! "!b.ck", b! "c.b.ck"] [b! "ck", b! "b"] :=
  ⟨by decide +kernel, by decide +kernel⟩

/-- A list that is not gapless has a name for which Extract does not follow the algorithm. -/
theorem C55_witness {rules : List Bytes} (hw : WellFormed rules) (hg : ¬ Gapless rules) : ¬ FollowsAlgorithm idId rules :=
  fun h => hg ((C55_exact idId hw (idId_accepts _)).1 h)

-- a gap; a top-level label that is no rule; a rule longer than a wildcard next to it; an exception longer than an exception
-- next to a wildcard; the bare wildcard
example : ¬ FollowsAlgorithm idId [b! "net", b! "a.b.net"] := C55_witness (wellFormedB_sound (by decide +kernel)) (by decide +kernel)
example : ¬ FollowsAlgorithm idId [b! "co.za"] := C55_witness (wellFormedB_sound (by decide +kernel)) (by decide +kernel)
example : ¬ FollowsAlgorithm idId [b! "jp", b! "*.jp", b! "c.b.jp"] :=
  C55_witness (wellFormedB_sound (by decide +kernel)) (by decide +kernel)
example : ¬ FollowsAlgorithm idId [b! "jp", b! "*.jp", b! "!b.jp", b! "*.b.jp", b! "!c.b.jp"] :=
  C55_witness (wellFormedB_sound (by decide +kernel)) (by decide +kernel)
example : ¬ FollowsAlgorithm idId [b! "*"] := C55_witness (wellFormedB_sound (by decide +kernel)) (by decide +kernel)

end Fasttld.Props
