import Verif.Spec.Path
import Verif.Props.Complete
import Verif.Props.Total

/-!
# C67: only what the list says along the name counts
-/

set_option linter.unusedSimpArgs false

namespace Fasttld.Props
open Fasttld Fasttld.Spec Trie

section
variable {rules rules' ls ds : List Bytes}

theorem known_up {p q : List Bytes} (h : Known rules (p ++ q)) : Known rules p := by
  rcases h with h | ⟨s, hs, hr⟩
  · exact .inl (List.append_eq_nil_iff.1 h).1
  · exact .inr ⟨s, (List.prefix_append _ _).trans hs, hr⟩

theorem take_succ {m : Nat} (h : m < ds.length) : ds.take (m + 1) = ds.take m ++ [ds[m]] := by
  rw [List.take_add_one, List.getElem?_eq_getElem h]; rfl

theorem follows_down (hlen : ds.length = ls.length) {m : Nat} (h : Follows rules ls ds (m + 1)) :
    Follows rules ls ds m ∧ Open rules (ds.take m) := by
  have hm : m < ds.length := by have := h.le; omega
  have hk := h.known
  rw [take_succ hm] at hk
  exact ⟨⟨by have := h.le; omega, known_up hk, fun j hj => h.noStar j (by omega), fun j hj => h.nonempty j (by omega)⟩,
    .inr ⟨_, hk⟩⟩

theorem sameAlong_at (hlen : ds.length = ls.length) (h : SameAlong rules rules' ls ds) {m : Nat}
    (hf : Follows rules ls ds (m + 1)) : SameAt rules rules' ls ds m ∧ ¬ Known rules (ds.take m ++ [star]) ∧
      Known rules (ds.take (m + 1)) := by
  obtain ⟨h1, h2⟩ := follows_down hlen hf
  exact ⟨h m (by have := hf.le; omega) h1 h2, hf.noStar m (by omega), hf.known⟩

theorem sameAlong_follows (hlen : ds.length = ls.length) (h : SameAlong rules rules' ls ds) :
    ∀ {m : Nat}, Follows rules ls ds m → Follows rules' ls ds m := by
  intro m
  induction m with
  | zero =>
    intro _
    exact ⟨by omega, .inl (by simp), fun j hj => by omega, fun j hj => by omega⟩
  | succ m ih =>
    intro hf
    obtain ⟨h1, -⟩ := follows_down hlen hf
    obtain ⟨hs, hn, hk⟩ := sameAlong_at hlen h hf
    have h3 := ih h1
    refine ⟨hf.le, (hs.known hn).1 hk, fun j hj => ?_, hf.nonempty⟩
    by_cases e : j = m
    · subst e; exact fun hh => hn (hs.star.2 hh)
    · exact h3.noStar j (by omega)

theorem sameAlong_open (hlen : ds.length = ls.length) (h : SameAlong rules rules' ls ds) {m : Nat}
    (hf : Follows rules ls ds m) : Open rules (ds.take m) ↔ Open rules' (ds.take m) := by
  cases m with
  | zero => simp [Open]
  | succ m =>
    obtain ⟨hs, hn, hk⟩ := sameAlong_at hlen h hf
    exact hs.longer hn hk

theorem sameAlong_mark (hlen : ds.length = ls.length) (h : SameAlong rules rules' ls ds) {m : Nat}
    (hf : Follows rules ls ds m) {j : Nat} (hj : j < m) : Marked rules (ds.take (j + 1)) ↔ Marked rules' (ds.take (j + 1)) := by
  induction m with
  | zero => omega
  | succ m ih =>
    by_cases e : j = m
    · subst e
      obtain ⟨hs, hn, hk⟩ := sameAlong_at hlen h hf
      exact hs.mark hn hk
    · exact ih (follows_down hlen hf).1 (by omega)

theorem sameAlong_reading (hlen : ds.length = ls.length) (h : SameAlong rules rules' ls ds) {w : Option Walked}
    (hr : Reading rules ls ds w) : Reading rules' ls ds w := by
  cases hr with
  | stuck hf ho he hm => exact .stuck (sameAlong_follows hlen h hf) ((sameAlong_open hlen h hf).1 ho) he hm
  | @ends m seen cut mark hf hs hk =>
    refine .ends (sameAlong_follows hlen h hf) ?_ ?_
    · have lt : ∀ {m : Nat} {l : Bytes}, ls[m]? = some l → m < ls.length := fun e => by
        rw [List.getElem?_eq_some_iff] at e; exact e.1
      cases hs with
      | all h1 =>
        refine .all (h1.imp id fun h1 => ?_)
        rwa [sameAlong_open hlen h hf] at h1
      | unknown h1 h2 h3 h4 h5 =>
        have hs := h _ (lt h2) hf h1
        exact .unknown ((sameAlong_open hlen h hf).1 h1) h2 h3 (fun hh => h4 (hs.star.2 hh)) (fun hh => h5 ((hs.known h4).2 hh))
      | exception h1 h2 h3 h4 =>
        have hs := h _ (lt h1) hf (.inr ⟨_, h3⟩)
        exact .exception h1 h2 (hs.star.1 h3) ((hs.exc h3 _ h1).1 h4)
      | wildcard h1 h2 h3 h4 =>
        have hs := h _ (lt h1) hf (.inr ⟨_, h3⟩)
        exact .wildcard h1 h2 (hs.star.1 h3) (fun hh => h4 ((hs.exc h3 _ h1).2 hh))
    · cases hk with
      | none h1 => exact .none fun j hj hh => h1 j hj ((sameAlong_mark hlen h hf hj).2 hh)
      | «at» h1 h2 h3 =>
        exact .at h1 ((sameAlong_mark hlen h hf h1).1 h2)
          fun j hj hh => h3 j hj ((sameAlong_mark hlen h hf (by omega)).2 hh)

end

/-- C67: two lists that say the same about each label that is looked at give the same result and error. -/
theorem C67_path (idna : Idna) {rules rules' : List Bytes} (e : URLParams)
    (h : ∀ sch ui a host after n first rest tail ds, Authority e.url sch ui a → HostAt a (.name host after) →
      HostTextOf idna e.convertURLToPunyCode host n → HostShape n first rest tail → LabelValues (fromRight first rest) ds →
      SameAlong rules rules' (fromRight first rest) ds) :
    extract idna (buildTrie rules) e = extract idna (buildTrie rules') e := by
  obtain ⟨r, err, hr⟩ := C01_extract_returns idna (buildTrie rules) e
  rw [hr]
  symm
  rw [extracts_iff] at hr ⊢
  obtain ⟨sch, ui, a, part, hA, hp, hf⟩ := hr
  refine ⟨sch, ui, a, part, hA, hp, ?_⟩
  cases hf with
  | brackets => exact .brackets
  | notIPv6 h1 => exact .notIPv6 h1
  | trailing h1 h2 => exact .trailing h1 h2
  | ipv6Port h1 h2 h3 => exact .ipv6Port h1 h2 h3
  | ipv6 h1 h2 => exact .ipv6 h1 h2
  | namePort h1 => exact .namePort h1
  | escape h1 h2 => exact .escape h1 h2
  | idna h1 h2 h3 h4 => exact .idna h1 h2 h3 h4
  | host h1 h2 h3 =>
    obtain ⟨first, rest, tail, ds, w, g1, g2, g3, g4⟩ := h3
    refine .host h1 h2 ⟨first, rest, tail, ds, w, g1, g2, sameAlong_reading ?_ (h _ _ _ _ _ _ _ _ _ _ hA hp h2 g1 g2) g3, g4⟩
    rw [labelValues_iff.1 g2, List.length_map]

section
variable {rules rules' ls ds : List Bytes}

/-- Labels of the name, and one more, on the way of a rule that turns away. -/
theorem turnsAway_prefix {q p : List Bytes} {m : Nat} {y : Bytes} (h : TurnsAway rules ls ds q) (hm : m ≤ ds.length)
    (hp : p = ds.take m ++ [y]) (hq : p <+: q) :
    Known rules p ∨ (Known rules (ds.take m) ∧ Open rules (ds.take m) ∧ ds[m]? ≠ some y ∧ y ≠ star ∧
      (Known rules (ds.take m ++ [star]) → ∀ l, ls[m]? = some l → y ≠ 33 :: l)) := by
  obtain ⟨k, x, t, hk, rfl, h1, h2, h3, h4, h5⟩ := h
  subst hp
  by_cases hmk : m = k
  · subst hmk
    obtain ⟨u, e⟩ := hq
    rw [List.append_assoc] at e
    have := List.append_cancel_left e
    simp only [List.singleton_append, List.cons.injEq] at this
    obtain ⟨rfl, -⟩ := this
    exact .inr ⟨h1, h2, h3, h4, h5⟩
  · by_cases hlt : m < k
    · left
      have hl : (ds.take m ++ [y]).length ≤ (ds.take k).length := by simp; omega
      have h6 : ds.take m ++ [y] <+: ds.take k := List.prefix_of_prefix_length_le hq (List.prefix_append _ _) hl
      obtain ⟨u, e⟩ := h6
      rw [← e] at h1
      exact known_up h1
    · exfalso
      have hl : (ds.take k ++ [x]).length ≤ (ds.take m ++ [y]).length := by simp; omega
      have h6 : ds.take k ++ [x] <+: ds.take m ++ [y] :=
        List.prefix_of_prefix_length_le ⟨t, by simp⟩ hq hl
      have h7 : ds.take k ++ [x] <+: ds.take m := by
        refine List.prefix_of_prefix_length_le h6 (List.prefix_append _ _) ?_
        simp; omega
      have h8 := h7.trans (List.take_prefix m ds)
      obtain ⟨u, e⟩ := h8
      apply h3
      rw [← e, List.append_assoc, List.getElem?_append_right (by simp; omega)]
      simp [Nat.min_eq_left hk]

theorem sameAlong_add (hlen : ds.length = ls.length) (hmore : ∀ q, RuleAt rules q → RuleAt rules' q)
    (hadd : ∀ q, RuleAt rules' q → RuleAt rules q ∨ TurnsAway rules ls ds q) : SameAlong rules rules' ls ds := by
  have up : ∀ {p}, Known rules p → Known rules' p := by
    rintro p (h | ⟨q, h1, h2⟩)
    · exact .inl h
    · exact .inr ⟨q, h1, hmore q h2⟩
  have down : ∀ {m y}, m ≤ ds.length → Known rules' (ds.take m ++ [y]) → Known rules (ds.take m ++ [y]) ∨
      (Known rules (ds.take m) ∧ Open rules (ds.take m) ∧ ds[m]? ≠ some y ∧ y ≠ star ∧
      (Known rules (ds.take m ++ [star]) → ∀ l, ls[m]? = some l → y ≠ 33 :: l)) := by
    rintro m y hm (h | ⟨q, h1, h2⟩)
    · simp at h
    · rcases hadd q h2 with h3 | h3
      · exact .inl (.inr ⟨q, h1, h3⟩)
      · exact turnsAway_prefix h3 hm rfl h1
  have star_iff : ∀ {m}, m ≤ ds.length → (Known rules (ds.take m ++ [star]) ↔ Known rules' (ds.take m ++ [star])) := by
    intro m hm
    refine ⟨up, fun h => (down hm h).elim id fun h => absurd rfl h.2.2.2.1⟩
  intro m hm _ _
  have hm' : m < ds.length := by omega
  have ts := take_succ hm'
  refine ⟨star_iff (by omega), ?_, ?_, ?_, ?_⟩
  · intro hs l hl
    exact ⟨up, fun h => (down (by omega) h).elim id fun h => absurd rfl (h.2.2.2.2 hs l hl)⟩
  · intro _
    refine ⟨up, fun h => ?_⟩
    rw [ts] at h ⊢
    refine (down (by omega) h).elim id fun h => absurd (List.getElem?_eq_getElem hm') h.2.2.1
  · intro hn hk
    constructor
    · rintro (h | ⟨l, e, h⟩)
      · exact .inl (hmore _ h)
      · exact .inr ⟨l, e, by simpa [Known] using up (.inr h)⟩
    · rintro (h | ⟨l, e, h⟩)
      · rcases hadd _ h with h | h
        · exact .inl h
        · exfalso
          obtain ⟨k, x, t, hk', e, h1, h2, h3, h4, h5⟩ := h
          apply h3
          have hkm : k ≤ m := by
            have := congrArg List.length e
            simp at this
            omega
          have : (ds.take (m + 1))[k]? = some x := by
            rw [e, List.getElem?_append_right (by simp; omega)]
            simp [Nat.min_eq_left hk']
          rwa [List.getElem?_take_of_lt (by omega)] at this
      · right
        refine ⟨l, e, ?_⟩
        have hs := (star_iff (m := m + 1) (by omega)).2 (by rw [e]; exact .inr h)
        rw [e] at hs
        exact hs.resolve_left (by simp)
  · intro hn hk
    constructor
    · rintro (h | ⟨x, h⟩)
      · exact .inl h
      · exact .inr ⟨x, up h⟩
    · rintro (h | ⟨x, h⟩)
      · exact .inl h
      · exact (down (by omega) h).elim (fun h => .inr ⟨x, h⟩) fun h => h.2.1

end

/-- C67: rules that are added, and leave the name at a place where there are other rules too, change neither the result nor
the error. -/
theorem C67_add (idna : Idna) {rules rules' : List Bytes} (e : URLParams) (hmore : ∀ q, RuleAt rules q → RuleAt rules' q)
    (hadd : ∀ sch ui a host after n first rest tail ds, Authority e.url sch ui a → HostAt a (.name host after) →
      HostTextOf idna e.convertURLToPunyCode host n → HostShape n first rest tail → LabelValues (fromRight first rest) ds →
      ∀ q, RuleAt rules' q → RuleAt rules q ∨ TurnsAway rules (fromRight first rest) ds q) :
    extract idna (buildTrie rules) e = extract idna (buildTrie rules') e := by
  refine C67_path idna e fun sch ui a host after n first rest tail ds h1 h2 h3 h4 h5 => ?_
  refine sameAlong_add ?_ hmore (hadd sch ui a host after n first rest tail ds h1 h2 h3 h4 h5)
  rw [labelValues_iff.1 h5, List.length_map]

/-- C67: the place must have other rules: a first rule below `com` changes the error for `a..com`. -/
theorem C67_counterexample_open :
    extract idId (buildTrie [b! "com"]) { url := b! "a..com" } =
      .ok ({ subDomain := b! "a", suffix := b! "com", registeredDomain := b! ".com" }, some .emptyDomain) ∧
    extract idId (buildTrie [b! "com", b! "x.com"]) { url := b! "a..com" } = .ok ({}, some .consecutiveSeparators) := by
  decide +kernel

/-- C67: and it must not bring a wildcard, or the exception for the label. -/
theorem C67_counterexample_star :
    (extract idId (buildTrie [b! "com", b! "x.com"]) { url := b! "a.b.com" } =
      .ok ({ subDomain := b! "a", domain := b! "b", suffix := b! "com", registeredDomain := b! "b.com", hostType := .hostName }, none) ∧
    extract idId (buildTrie [b! "com", b! "x.com", b! "*.com"]) { url := b! "a.b.com" } =
      .ok ({ domain := b! "a", suffix := b! "b.com", registeredDomain := b! "a.b.com", hostType := .hostName }, none)) ∧
    extract idId (buildTrie [b! "com", b! "*.com", b! "!b.com"]) { url := b! "a.b.com" } =
      .ok ({ subDomain := b! "a", domain := b! "b", suffix := b! "com", registeredDomain := b! "b.com", hostType := .hostName }, none) := by
  decide +kernel

-- rules that turn away from `a.b.com`: `y.com`, `z.y.com`, `org`, `co.uk`
example : TurnsAway [b! "com", b! "x.com"] [b! "com", b! "b", b! "a"] [b! "com", b! "b", b! "a"] [b! "com", b! "y", b! "z"] ∧
    TurnsAway [b! "com", b! "x.com"] [b! "com", b! "b", b! "a"] [b! "com", b! "b", b! "a"] [b! "uk", b! "co"] :=
  ⟨⟨1, b! "y", [b! "z"], by decide, rfl, .inr (by decide +kernel), .inr ⟨b! "x", .inr (by decide +kernel)⟩, by decide, by decide,
      fun h => absurd h (by unfold Known; decide +kernel)⟩,
    ⟨0, b! "uk", [b! "co"], by decide, rfl, .inl rfl, .inl rfl, by decide, by decide, fun h => absurd h (by unfold Known; decide +kernel)⟩⟩
example : extract idId (buildTrie [b! "com", b! "x.com", b! "y.com", b! "z.y.com", b! "org", b! "co.uk"]) { url := b! "a.b.com" } =
    extract idId (buildTrie [b! "com", b! "x.com"]) { url := b! "a.b.com" } := by decide +kernel

end Fasttld.Props
