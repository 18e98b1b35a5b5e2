import Verif.Proofs.Mishandled
import Verif.Proofs.MishandledDecide
import Verif.Props.Exact

/-!
# C56: for which names the library does not follow the algorithm of the Public Suffix List
-/

set_option linter.unusedSimpArgs false

namespace Fasttld.Props
open Spec

/-- The parts of the result are those that the algorithm gives: cut at the public suffix, no suffix if no rule matches. -/
def AsAlgorithm (rules : List Bytes) (first : Bytes) (rest : List (Nat × Bytes)) (r : ExtractResult) : Prop :=
  (∀ n, PublicSuffix rules (fromRight first rest) n → CutLabels first rest n r.subDomain r.domain r.suffix) ∧
  (NoRuleMatches rules (fromRight first rest) → CutLabels first rest 0 r.subDomain r.domain r.suffix)

/-- C56: for a well-formed list without the rule `*`, and every accepted URL whose host is a name with labels as they can
occur in host names, the result is the one that the algorithm gives if and only if the name is not `Mishandled`. -/
theorem C56_exact (idna : Idna) {rules : List Bytes} (hw : WellFormed rules) (hb : ¬ RuleAt rules [star]) (e : URLParams)
    {r : ExtractResult} (hig : e.ignoreSubDomains = false) (h : extract idna (buildTrie rules) e = .ok (r, none))
    (ht : r.hostType = .hostName) :
    ∃ host after n first rest tail, Authority e.url r.scheme r.userInfo (host ++ after) ∧ IsPlainHost host ∧
      AfterHost after r.port r.path ∧ HostTextOf idna e.convertURLToPunyCode host n ∧ HostShape n first rest tail ∧
      ((∀ l ∈ fromRight first rest, GoodLabel l) →
        (AsAlgorithm rules first rest r ↔ ¬ Mishandled rules (fromRight first rest))) := by
  obtain ⟨sch, ui, a, part, hA, hat, hfin⟩ := (C52_extract ..).1 h
  cases hfin with
  | ipv6 => simp at ht
  | @host host after port path n r' _ haf htx hres =>
    obtain ⟨first, rest, tail, ds, w, hsh, hlv, hrd, hj⟩ := hres
    rw [hig] at hj
    obtain ⟨hpl, rfl⟩ : IsPlainHost host ∧ a = host ++ after := by
      cases hat with
      | name h1 _ => exact ⟨h1, rfl⟩
    refine ⟨host, after, n, first, rest, tail, hA, hpl, haf, htx, hsh, fun hg => ?_⟩
    have hgn : GoodName first rest := by
      refine ⟨hg _ (by simp [fromRight]), fun p hp => ⟨(hsh.free.2 p hp).1, hg _ ?_⟩⟩
      simp only [fromRight, List.mem_reverse, List.mem_cons, List.mem_map]
      exact .inr ⟨p, hp, rfl⟩
    have hds : ds = fromRight first rest := by rw [← good_values hg]; exact (labelValues_iff.1 hlv)
    subst hds
    have hne : fromRight first rest ≠ [] := by simp [fromRight]
    have hlen : (fromRight first rest).length = rest.length + 1 := by simp [fromRight]
    have alg : NoRuleMatches rules (fromRight first rest) ∨ ∃ n, PublicSuffix rules (fromRight first rest) n := by
      rcases C17_algorithm rules (fromRight first rest) with ⟨h, -⟩ | ⟨-, n, h, -⟩
      · exact .inl h
      · exact .inr ⟨n, h⟩
    cases hj with
    | ipv4 _ => simp at ht
    | @name w t sub dom suf reg h4 hch hok hp hdom =>
      cases hrd with
      | @ends m seen cut mark h1 h2 h3 =>
        have hmc : m ≤ cut := by cases h2 <;> omega
        change Parts first rest mark cut sub dom suf reg at hp
        clear hlv hch hok
        have hacc : mark = none ∨ cut < (fromRight first rest).length := by
          rw [hlen]
          cases hp with
          | noSuffix _ => exact .inl rfl
          | suffix e1 e2 e3 _ => rw [e1]; simp; omega
          | suffixOnly _ _ _ => exact absurd rfl hdom
        rw [← agrees_iff hw hb hg hne alg h1 h2 h3 hacc]
        -- cut at `k` labels, for the result
        have hcut : ∀ k, CutLabels first rest k sub dom suf ↔ (mark = none ∧ k = 0) ∨ (mark = some 0 ∧ k = cut) := by
          intro k
          refine ⟨parts_cut hgn hp, ?_⟩
          rintro (⟨rfl, rfl⟩ | ⟨rfl, rfl⟩)
          · cases hp with
            | noSuffix hs => exact ⟨rest, [], by simp, rfl, rfl, hs⟩
          · cases hp with
            | @suffix front s l more back _ _ _ _ e1 e2 e3 hs =>
              obtain rfl := List.eq_nil_of_length_eq_zero e2
              exact ⟨front, (s, l) :: more, by simpa using e1, by simp; omega, rfl, hs⟩
            | suffixOnly _ _ _ => exact absurd rfl hdom
        unfold AsAlgorithm
        simp only [Bool.false_eq_true, if_false, hcut]
        refine and_congr_right fun _ => imp_congr_right fun _ => ⟨?_, fun h => .inl ⟨h, trivial⟩⟩
        rintro (h | ⟨h5, h6⟩)
        · exact h.1
        · subst h5
          exfalso
          cases h3 with
          | «at» h7 _ _ => omega

/-- C56 for a name as it is written: labels with dots between them. -/
theorem C56_dotted (idna : Idna) {rules : List Bytes} (hw : WellFormed rules) (hb : ¬ RuleAt rules [star]) {first : Bytes}
    {ls : List Bytes} {r : ExtractResult} (hl : ∀ l ∈ first :: ls, GoodLabel l)
    (h : extract idna (buildTrie rules) { url := List.intercalate [46] (first :: ls) } = .ok (r, none))
    (ht : r.hostType = .hostName) :
    AsAlgorithm rules first (ls.map fun l => (46, l)) r ↔ ¬ Mishandled rules (first :: ls).reverse := by
  have hgn := goodName_dotted hl
  obtain ⟨host, after, n, first', rest', tail, hA, hp, haf, hn, hsh, hx⟩ := C56_exact idna hw hb _ rfl h ht
  simp only at hA hn
  rw [dotted_join] at hA
  obtain ⟨-, -, he⟩ := Authority_unique hA (hostCharsOK_authority hgn.chars)
  have hafter : after = [] := by
    cases after with
    | nil => rfl
    | cons c t =>
      have h1 := (hostCharsOK_plain hgn.chars c (by rw [← he]; simp)).1
      exact absurd (afterHost_head haf c t rfl) (by simp [h1])
  rw [hafter, List.append_nil] at he
  obtain ⟨un, hdec, ⟨-, -, rfl⟩ | ⟨hc, -⟩⟩ := hn
  · rw [he] at hsh
    have hsh' : HostShape (joinLabels first (dotted ls)) first (dotted ls) [] := by
      refine ⟨by simp, ⟨hgn.first.free, fun p hp => ⟨(hgn.rest p hp).1, (hgn.rest p hp).2.free⟩⟩, ⟨[], by simp, rfl⟩, ?_⟩
      intro f s e
      exact (hgn.rest (s, []) (by rw [e]; simp)).2.ne rfl
    obtain ⟨rfl, rfl, -⟩ := hsh.unique hsh'
    rw [dotted_fromRight] at hx
    exact hx fun l hl' => hl l (List.mem_reverse.1 hl')
  · simp at hc

/-! Names of all four kinds, and the wrong results; names next to them that are handled well. -/

/-- Rules with all kinds of places where names are mishandled. -/
def oddRules : List Bytes := [b! "net", b! "a.b.net", b! "co.za", b! "jp", b! "*.jp", b! "!e.jp", b! "d.c.jp", b! "*.e.jp", b! "!f.e.jp"]

theorem oddRules_wellFormed : WellFormed oddRules := wellFormedB_sound (by decide +kernel)

theorem oddRules_noBare : ¬ RuleAt oddRules [star] := by decide +kernel

-- `co.za` is a rule, `za` is not: the last label is lost
example : Mishandled oddRules [b! "za", b! "co", b! "x"] ∧ extract idId (buildTrie oddRules) { url := b! "x.co.za" } =
    .ok ({ domain := b! "x", suffix := b! "co", registeredDomain := b! "x.co", hostType := .hostName }, none) :=
  ⟨by decide +kernel, by decide +kernel⟩
-- but without a rule that matches it is as the algorithm says
example : ¬ Mishandled oddRules [b! "za", b! "x"] := by decide +kernel
-- `b.net` has rules below it
example : Mishandled oddRules [b! "net", b! "b", b! "x"] ∧ PublicSuffix oddRules [b! "net", b! "b", b! "x"] 1 ∧
    extract idId (buildTrie oddRules) { url := b! "x.b.net" } =
      .ok ({ domain := b! "x", suffix := b! "b.net", registeredDomain := b! "x.b.net", hostType := .hostName }, none) :=
  ⟨by decide +kernel, by decide +kernel, by decide +kernel⟩
example : ¬ Mishandled oddRules [b! "net", b! "b", b! "a", b! "x"] ∧ ¬ Mishandled oddRules [b! "net", b! "b"] ∧
    ¬ Mishandled oddRules [b! "net", b! "x"] := ⟨by decide +kernel, by decide +kernel, by decide +kernel⟩
-- `d.c.jp` is longer than `*.jp`
example : Mishandled oddRules [b! "jp", b! "c", b! "d", b! "x"] ∧ ¬ Mishandled oddRules [b! "jp", b! "c", b! "x"] :=
  ⟨by decide +kernel, by decide +kernel⟩
-- `!f.e.jp` is longer than `!e.jp`
example : Mishandled oddRules [b! "jp", b! "e", b! "f", b! "x"] ∧ ¬ Mishandled oddRules [b! "jp", b! "e", b! "g", b! "x"] :=
  ⟨by decide +kernel, by decide +kernel⟩
-- so the theorem says that the result is wrong, or right
example {r : ExtractResult} (h : extract idId (buildTrie oddRules) { url := b! "x.b.net" } = .ok (r, none)) (ht : r.hostType = .hostName) :
    ¬ AsAlgorithm oddRules (b! "x") [(46, b! "b"), (46, b! "net")] r := by
  have := C56_dotted idId oddRules_wellFormed oddRules_noBare (first := b! "x") (ls := [b! "b", b! "net"]) (by decide +kernel)
    (by rw [show List.intercalate [46] [b! "x", b! "b", b! "net"] = b! "x.b.net" from by decide]; exact h) ht
  exact fun hc => this.1 hc (by decide +kernel)
example {r : ExtractResult} (h : extract idId (buildTrie oddRules) { url := b! "x.a.b.net" } = .ok (r, none)) (ht : r.hostType = .hostName) :
    AsAlgorithm oddRules (b! "x") [(46, b! "a"), (46, b! "b"), (46, b! "net")] r := by
  have := C56_dotted idId oddRules_wellFormed oddRules_noBare (first := b! "x") (ls := [b! "a", b! "b", b! "net"]) (by decide +kernel)
    (by rw [show List.intercalate [46] [b! "x", b! "a", b! "b", b! "net"] = b! "x.a.b.net" from by decide]; exact h) ht
  exact this.2 (by decide +kernel)

end Fasttld.Props
