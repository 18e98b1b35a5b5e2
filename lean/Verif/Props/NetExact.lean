import Verif.Spec.Rfc
import Verif.Props.Net
import Verif.Props.Url
import Verif.Props.Lists

/-!
# C11, C13, C21: exactly when they hold
-/

set_option linter.unusedSimpArgs false

namespace Fasttld.Props
open Fasttld Fasttld.Spec

/-! ## C11 -/

/-- C11: when Extract succeeds with a port, it is a decimal numeral with value 0..65535 if and only if it does not begin
with a sign. -/
theorem C11_exact (idna : Idna) (trie : Trie) (e : URLParams) {r : ExtractResult}
    (h : extract idna trie e = .ok (r, none)) (hp : r.port ≠ []) :
    IsPortNumber r.port ↔ ¬ [43] <+: r.port ∧ ¬ [45] <+: r.port := by
  constructor
  · rintro ⟨-, h, -⟩
    refine ⟨fun ⟨t, ht⟩ => ?_, fun ⟨t, ht⟩ => ?_⟩
    · exact absurd (h 43 (by rw [← ht]; simp)) (by decide)
    · exact absurd (h 45 (by rw [← ht]; simp)) (by decide)
  · rintro ⟨h1, h2⟩
    rcases C11_port_range_partial idna trie e h with h | h | ⟨q, h, -⟩ | ⟨q, h, -⟩
    · exact absurd h hp
    · exact h
    · exact absurd ⟨q, h.symm⟩ h1
    · exact absurd ⟨q, h.symm⟩ h2

/-! ## C13 -/

theorem infix_split {α : Type} {g x y : List α} {c : α} (h : g <:+: x ++ c :: y) (hc : c ∉ g) : g <:+: x ∨ g <:+: y := by
  obtain ⟨a, b, h⟩ := h
  rw [List.append_assoc] at h
  rcases List.append_eq_append_iff.1 h with ⟨t, h1, h2⟩ | ⟨t, h1, h2⟩
  · -- `g` begins in `x`
    rcases List.append_eq_append_iff.1 h2 with ⟨u, h3, h4⟩ | ⟨u, h3, h4⟩
    · exact .inl ⟨a, u, by rw [h1, h3]; simp⟩
    · cases u with
      | nil => exact .inl ⟨a, [], by rw [h1, h3]; simp⟩
      | cons d u =>
        simp at h4
        exact absurd (by rw [h3, h4.1]; simp) hc
  · cases t with
    | nil =>
      cases g with
      | nil => exact .inl (List.nil_infix)
      | cons d g => simp at h2; exact absurd (by rw [h2.1]; simp) hc
    | cons d t => simp at h2; exact .inr ⟨t, b, by rw [h2.2]; simp⟩

theorem hex_byte {c : UInt8} (h : (hexDigit c).isSome = true) : c.toNat < 128 ∧ c ≠ 58 ∧ c ≠ 46 := by
  unfold hexDigit isDigit at h
  have h2 : c.toNat < 128 ∧ c.toNat ≠ 58 ∧ c.toNat ≠ 46 := by
    simp only [Bool.and_eq_true, decide_eq_true_eq] at h
    split at h
    · omega
    · split at h
      · omega
      · split at h
        · omega
        · cases h
  refine ⟨h2.1, ?_, ?_⟩
  · rintro rfl; exact h2.2.1 rfl
  · rintro rfl; exact h2.2.2 rfl

theorem digit_hex {c : UInt8} (h : isDigit c = true) : (hexDigit c).isSome = true := by
  unfold hexDigit; rw [if_pos h]; rfl

theorem octet_short {a : Bytes} (h : IsOctet a) : a ≠ [] ∧ a.length ≤ 3 ∧ ∀ c ∈ a, (hexDigit c).isSome = true := by
  obtain ⟨n, hn, rfl⟩ := h
  obtain ⟨h1, h2, -⟩ := decimal_spec n
  refine ⟨h1, ?_, fun c hc => digit_hex (h2 c hc)⟩
  by_cases h10 : n < 10
  · rw [decimal_lt h10]; simp
  · rw [decimal_ge h10]
    by_cases h100 : n / 10 < 10
    · rw [decimal_lt h100]; simp
    · rw [decimal_ge h100, decimal_lt (by omega)]; simp

theorem hexDigit_le (c : UInt8) : (hexDigit c).getD 0 ≤ 15 := by
  unfold hexDigit
  split
  · rename_i h; simp [isDigit] at h; simp; omega
  · split
    · simp; omega
    · split
      · simp; omega
      · simp

theorem group4_group {g : Bytes} (h : IsGroup4 g) : IsGroup g := by
  obtain ⟨h1, h2, h3⟩ := h
  refine ⟨h1, h3, ?_⟩
  match g, h2 with
  | [], _ => decide
  | [a], _ => have := hexDigit_le a; simp [hexValue]; omega
  | [a, b], _ => have := hexDigit_le a; have := hexDigit_le b; simp [hexValue]; omega
  | [a, b, c], _ => have := hexDigit_le a; have := hexDigit_le b; have := hexDigit_le c; simp [hexValue]; omega
  | [a, b, c, d], _ =>
    have := hexDigit_le a; have := hexDigit_le b; have := hexDigit_le c; have := hexDigit_le d
    simp [hexValue]; omega
  | _ :: _ :: _ :: _ :: _ :: _, h => simp at h

theorem dotted_ipv4 {q : Bytes} (h : IsDotted q) : IsIPv4 q := by
  obtain ⟨a, b, c, d, h1, h2, h3, h4, rfl⟩ := h
  exact ⟨_, [], ⟨a, b, c, d, 46, 46, 46, h1, h2, h3, h4, by decide, by decide, by decide, rfl⟩, ⟨[], by simp⟩,
    by simp [show encode 46 = [46] from rfl]⟩

theorem groups4_groups {dotted : Bool} {n : Nat} {s : Bytes} (h : Groups4 dotted n s) :
    Groups (fun q => dotted = true ∧ IsIPv4 q) n s := by
  induction h with
  | one h => exact .one (group4_group h)
  | quad hd h => exact .dotted ⟨hd, dotted_ipv4 h⟩
  | cons h _ ih => exact .cons (group4_group h) ih

theorem groups_mono {P Q : Bytes → Prop} (hPQ : ∀ q, P q → Q q) {n : Nat} {s : Bytes} (h : Groups P n s) : Groups Q n s := by
  induction h with
  | one h => exact .one h
  | dotted h => exact .dotted (hPQ _ h)
  | cons h _ ih => exact .cons h ih

/-- Short runs of hexadecimal digits, and only ASCII. -/
def Short (s : Bytes) : Prop :=
  (∀ g, g <:+: s → (∀ c ∈ g, (hexDigit c).isSome) → g.length ≤ 4) ∧ ∀ c ∈ s, c.toNat < 128

theorem short_hex {g : Bytes} (h1 : g.length ≤ 4) (h2 : ∀ c ∈ g, (hexDigit c).isSome = true) : Short g :=
  ⟨fun _ h _ => Nat.le_trans h.length_le h1, fun c hc => (hex_byte (h2 c hc)).1⟩

theorem short_append {x y : Bytes} {c : UInt8} (hc : c = 58 ∨ c = 46) (hx : Short x) (hy : Short y) : Short (x ++ c :: y) := by
  refine ⟨fun g hg hh => ?_, fun d hd => ?_⟩
  · have hn : c ∉ g := fun hm => by
      have := hex_byte (hh c hm)
      rcases hc with rfl | rfl
      · exact this.2.1 rfl
      · exact this.2.2 rfl
    rcases infix_split hg hn with h | h
    · exact hx.1 g h hh
    · exact hy.1 g h hh
  · simp only [List.mem_append, List.mem_cons] at hd
    rcases hd with hd | rfl | hd
    · exact hx.2 d hd
    · rcases hc with rfl | rfl <;> decide
    · exact hy.2 d hd

theorem last_append {x y : Bytes} {c : UInt8} (h : ∃ t d, y = t ++ [d] ∧ (hexDigit d).isSome = true) :
    ∃ t d, x ++ c :: y = t ++ [d] ∧ (hexDigit d).isSome = true := by
  obtain ⟨t, d, rfl, hd⟩ := h
  exact ⟨x ++ c :: t, d, by simp, hd⟩

theorem last_hex {g : Bytes} (h1 : g ≠ []) (h2 : ∀ c ∈ g, (hexDigit c).isSome = true) :
    ∃ t d, g = t ++ [d] ∧ (hexDigit d).isSome = true :=
  ⟨g.dropLast, g.getLast h1, (List.dropLast_concat_getLast h1).symm, h2 _ (List.getLast_mem h1)⟩

theorem groups4_short {dotted : Bool} {n : Nat} {s : Bytes} (h : Groups4 dotted n s) :
    Short s ∧ ∃ t d, s = t ++ [d] ∧ (hexDigit d).isSome = true := by
  induction h with
  | one h => exact ⟨short_hex h.2.1 h.2.2, last_hex h.1 h.2.2⟩
  | quad _ h =>
    obtain ⟨a, b, c, d, h1, h2, h3, h4, rfl⟩ := h
    have hs : ∀ {x}, IsOctet x → Short x := fun hx => by
      obtain ⟨-, k2, k3⟩ := octet_short hx
      exact short_hex (by omega) k3
    obtain ⟨k1, -, k3⟩ := octet_short h4
    exact ⟨short_append (.inr rfl) (hs h1) (short_append (.inr rfl) (hs h2) (short_append (.inr rfl) (hs h3) (hs h4))),
      last_append (last_append (last_append (last_hex k1 k3)))⟩
  | cons h _ ih => exact ⟨short_append (.inl rfl) (short_hex h.2.1 h.2.2) ih.1, last_append ih.2⟩

theorem not_beyond {s : Bytes} (h : Short s) (hl : ¬ [46] <:+ s) : ¬ Beyond4291 s := by
  rintro (⟨g, h1, h2, h3⟩ | ⟨r, h1, h2, h3⟩ | h1)
  · have := h.1 g h1 h2; omega
  · have : ∀ r ∈ separators, r ≠ 46 → ∃ c ∈ encode r, 128 ≤ c.toNat := by decide
    obtain ⟨c, hc, hc'⟩ := this r h1 h2
    have := h.2 c (h3.subset hc)
    omega
  · exact hl h1

theorem not_last {s : Bytes} {c : UInt8} (hc : c ≠ 46) (h : ∃ t, s = t ++ [c]) : ¬ [46] <:+ s := by
  obtain ⟨t, rfl⟩ := h
  rintro ⟨u, hu⟩
  have := congrArg List.getLast? hu
  simp at this
  exact hc this.symm

theorem groups_groups4 {n : Nat} {s : Bytes} (h : Groups IsIPv4 n s) (hb : ¬ Beyond4291 s) : Groups4 true n s := by
  have hg : ∀ {g t : Bytes}, g <:+: t → ¬ Beyond4291 t → IsGroup g → IsGroup4 g := by
    intro g t hi hb h
    refine ⟨h.1, ?_, h.2.1⟩
    rcases Nat.lt_or_ge 4 g.length with hl | hl
    · exact absurd (.inl ⟨g, hi, h.2.1, hl⟩) hb
    · exact hl
  induction h with
  | one h => exact .one (hg (List.infix_refl _) hb h)
  | dotted h =>
    obtain ⟨q, t, ⟨a, b, c, d, r1, r2, r3, h1, h2, h3, h4, h5, h6, h7, rfl⟩, ⟨cs, h8, rfl⟩, rfl⟩ := h
    have hr : ∀ r ∈ separators, encode r <:+: (a ++ encode r1 ++ b ++ encode r2 ++ c ++ encode r3 ++ d ++ cs.flatMap encode) → r = 46 :=
      fun r hr hi => Classical.byContradiction fun hn => hb (.inr (.inl ⟨r, hr, hn, hi⟩))
    obtain rfl := hr r1 h5 ⟨a, b ++ encode r2 ++ c ++ encode r3 ++ d ++ cs.flatMap encode, by simp⟩
    obtain rfl := hr r2 h6 ⟨a ++ encode 46 ++ b, c ++ encode r3 ++ d ++ cs.flatMap encode, by simp⟩
    obtain rfl := hr r3 h7 ⟨a ++ encode 46 ++ b ++ encode 46 ++ c, d ++ cs.flatMap encode, by simp⟩
    have hcs : cs = [] := by
      rcases List.eq_nil_or_concat cs with rfl | ⟨cs', x, rfl⟩
      · rfl
      · rw [List.concat_eq_append] at h8 hr hb
        obtain rfl := hr x (h8 x (by simp)) ⟨a ++ encode 46 ++ b ++ encode 46 ++ c ++ encode 46 ++ d ++ cs'.flatMap encode, [], by simp⟩
        exact absurd (.inr (.inr ⟨a ++ encode 46 ++ b ++ encode 46 ++ c ++ encode 46 ++ d ++ cs'.flatMap encode,
          by simp [show encode 46 = [46] from rfl]⟩)) hb
    subst hcs
    exact .quad rfl ⟨a, b, c, d, h1, h2, h3, h4, by simp [show encode 46 = [46] from rfl]⟩
  | @cons g s n h _ ih =>
    refine .cons (hg ⟨[], 58 :: s, rfl⟩ hb h) (ih fun hbs => hb ?_)
    have hsuf : s <:+ g ++ 58 :: s := ⟨g ++ [58], by simp⟩
    rcases hbs with ⟨x, h1, h2⟩ | ⟨x, h1, h2, h3⟩ | h1
    · exact .inl ⟨x, h1.trans hsuf.isInfix, h2⟩
    · exact .inr (.inl ⟨x, h1, h2, h3.trans hsuf.isInfix⟩)
    · exact .inr (.inr (h1.trans hsuf))

theorem groups_groups4_false {n : Nat} {s : Bytes} (h : Groups (fun _ => False) n s)
    (hb : ∀ g, g <:+: s → (∀ c ∈ g, (hexDigit c).isSome) → g.length ≤ 4) : Groups4 false n s := by
  induction h with
  | one h => exact .one ⟨h.1, hb _ (List.infix_refl _) h.2.1, h.2.1⟩
  | dotted h => exact h.elim
  | @cons g s n h _ ih =>
    refine .cons ⟨h.1, hb _ ⟨[], 58 :: s, rfl⟩ h.2.1, h.2.1⟩ (ih fun x hx => hb x (hx.trans ⟨g ++ [58], [], by simp⟩))

/-- C13: the addresses of RFC 4291 are accepted, and of what is accepted exactly those are not addresses of RFC 4291
that have more than four hexadecimal digits in a row, a label separator other than a dot, or a dot at the end. -/
theorem C13_exact (s : Bytes) : Rfc4291 s ↔ isIPv6 s = .ok true ∧ ¬ Beyond4291 s := by
  have hx : isIPv6 s = .ok true ↔ IsIPv6 IsIPv4 s := by
    obtain ⟨b, h1, h2⟩ := C13_isIPv6_exact_partial s
    rw [h1, ← h2]
    simp
  rw [hx]
  constructor
  · rintro (h | ⟨l, r, n, m, hl, hr, hnm, rfl⟩)
    · obtain ⟨h1, t, d, rfl, hd⟩ := groups4_short h
      exact ⟨.inl (groups_mono (fun _ h => h.2) (groups4_groups h)), not_beyond h1 (not_last (hex_byte hd).2.2 ⟨t, rfl⟩)⟩
    · refine ⟨.inr ⟨l, r, n, m, ?_, ?_, hnm, rfl⟩, not_beyond (short_append (.inl rfl) ?_ (short_append (x := []) (.inl rfl) (short_hex (by simp) (by simp)) ?_)) ?_⟩
      · exact hl.imp id fun h => groups_mono (fun _ h => by cases h.1) (groups4_groups h)
      · exact hr.imp id fun h => groups_mono (fun _ h => h.2) (groups4_groups h)
      · rcases hl with ⟨-, rfl⟩ | h
        · exact short_hex (by simp) (by simp)
        · exact (groups4_short h).1
      · rcases hr with ⟨-, rfl⟩ | h
        · exact short_hex (by simp) (by simp)
        · exact (groups4_short h).1
      · rcases hr with ⟨-, rfl⟩ | h
        · exact not_last (c := 58) (by decide) ⟨l ++ [58], by simp⟩
        · obtain ⟨-, t, d, rfl, hd⟩ := groups4_short h
          exact not_last (hex_byte hd).2.2 ⟨l ++ 58 :: 58 :: t, by simp⟩
  · rintro ⟨h | ⟨l, r, n, m, hl, hr, hnm, rfl⟩, hb⟩
    · exact .inl (groups_groups4 h hb)
    · refine .inr ⟨l, r, n, m, hl.imp id fun h => groups_groups4_false h fun g hg hh => ?_, hr.imp id fun h => groups_groups4 h fun hbs => hb ?_, hnm, rfl⟩
      · rcases Nat.lt_or_ge 4 g.length with hlt | hge
        · exact absurd (.inl ⟨g, hg.trans ⟨[], 58 :: 58 :: r, rfl⟩, hh, hlt⟩) hb
        · exact hge
      · have hsuf : r <:+ l ++ 58 :: 58 :: r := ⟨l ++ [58, 58], by simp⟩
        rcases hbs with ⟨x, h1, h2⟩ | ⟨x, h1, h2, h3⟩ | h1
        · exact .inl ⟨x, h1.trans hsuf.isInfix, h2⟩
        · exact .inr (.inl ⟨x, h1, h2, h3.trans hsuf.isInfix⟩)
        · exact .inr (.inr (h1.trans hsuf))

-- each of the three is needed
example : ¬ Rfc4291 (b! "00001::") ∧ ¬ Rfc4291 (b! "::1.2.3.4.") ∧ ¬ Rfc4291 (b! "::1。2.3.4") := by
  refine ⟨fun h => ((C13_exact _).1 h).2 (.inl ⟨b! "00001", ⟨[], b! "::", rfl⟩, by decide, by decide⟩),
    fun h => ((C13_exact _).1 h).2 (.inr (.inr ⟨b! "::1.2.3.4", rfl⟩)),
    fun h => ((C13_exact _).1 h).2 (.inr (.inl ⟨0x3002, by decide, by decide, ⟨b! "::1", b! "2.3.4", rfl⟩⟩))⟩
example : Rfc4291 (b! "1::2.3.4.5") :=
  .inr ⟨b! "1", b! "2.3.4.5", 1, 2, .inr (.one ⟨by decide, by decide, by decide⟩),
    .inr (.quad rfl ⟨b! "2", b! "3", b! "4", b! "5", ⟨2, by decide, by unfold decimal; rfl⟩, ⟨3, by decide, by unfold decimal; rfl⟩,
      ⟨4, by decide, by unfold decimal; rfl⟩, ⟨5, by decide, by unfold decimal; rfl⟩, rfl⟩), by decide, rfl⟩

/-! ## C21 -/

/-- C21: for a well-formed list, a host name that is accepted has none of the invalid characters in SubDomain and Domain if
and only if it has none of the three that the code misses. -/
theorem C21_exact (idna : Idna) {rules : List Bytes} (hw : WellFormed rules) (e : URLParams) {r : ExtractResult}
    (h : extract idna (buildTrie rules) e = .ok (r, none)) (ht : r.hostType = .hostName) :
    (∀ c ∈ invalidChars, ¬ encode c <:+: r.subDomain ∧ ¬ encode c <:+: r.domain) ↔
      ∀ c ∈ missedChars, ¬ encode c <:+: r.subDomain ∧ ¬ encode c <:+: r.domain := by
  constructor
  · intro hc c hm
    exact hc c ((by decide +kernel : ∀ c ∈ missedChars, c ∈ invalidChars) c hm)
  · intro hm c hc
    by_cases hcm : c ∈ missedChars
    · exact hm c hcm
    · exact C21_wellFormed idna hw e h ht c hc hcm

end Fasttld.Props
