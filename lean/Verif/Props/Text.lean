import Verif.Spec.Text
import Verif.Props.Browser

/-!
# C77: the parts of a text are texts

Extract cuts URLs at byte offsets; it never cuts a character in two.
-/

set_option linter.unusedSimpArgs false

namespace Fasttld.Props
open Fasttld Fasttld.Spec

theorem validUtf8_nil : ValidUtf8 [] := ⟨[], by simp, rfl⟩

theorem validUtf8_append {a b : Bytes} (ha : ValidUtf8 a) (hb : ValidUtf8 b) : ValidUtf8 (a ++ b) := by
  obtain ⟨x, hx, rfl⟩ := ha
  obtain ⟨y, hy, rfl⟩ := hb
  refine ⟨x ++ y, fun c hc => ?_, by simp⟩
  rcases List.mem_append.1 hc with hc | hc
  · exact hx c hc
  · exact hy c hc

theorem validUtf8_encode {c : Nat} (h : IsScalar c) : ValidUtf8 (encode c) := ⟨[c], by simpa using h, by simp⟩

theorem validUtf8_made {set : List Nat} (hs : ∀ c ∈ set, IsScalar c) {s : Bytes} (h : MadeOf set s) : ValidUtf8 s := by
  obtain ⟨cs, h1, h2⟩ := h
  exact ⟨cs, fun c hc => hs c (h1 c hc), h2⟩

theorem validUtf8_ascii {s : Bytes} (h : ∀ c ∈ s, c.toNat < 128) : ValidUtf8 s := by
  refine ⟨s.map UInt8.toNat, fun c hc => ?_, ?_⟩
  · obtain ⟨x, hx, rfl⟩ := List.mem_map.1 hc
    exact .inl (by have := h x hx; omega)
  · induction s with
    | nil => rfl
    | cons c s ih =>
      rw [List.map_cons, List.flatMap_cons, ← ih fun x hx => h x (by simp [hx])]
      have h1 := h c (by simp)
      have : encode c.toNat = [c] := by
        unfold encode
        rw [if_pos h1]
        simp
      rw [this]; rfl

theorem encode_cancel {c d : Nat} (hc : IsScalar c) (hd : IsScalar d) {x y : Bytes} (h : encode c ++ x = encode d ++ y) :
    c = d ∧ x = y := by
  have h1 := decode_encode hc x
  rw [h, decode_encode hd y] at h1
  simp only [Prod.mk.injEq] at h1
  obtain ⟨rfl, -⟩ := h1
  exact ⟨rfl, List.append_cancel_left h⟩

/-- What follows a text in a text is a text. -/
theorem validUtf8_left {a b : Bytes} (h : ValidUtf8 (a ++ b)) (ha : ValidUtf8 a) : ValidUtf8 b := by
  obtain ⟨x, hx, rfl⟩ := ha
  induction x with
  | nil => simpa using h
  | cons c x ih =>
    apply ih (fun d hd => hx d (by simp [hd]))
    obtain ⟨y, hy, h⟩ := h
    rw [List.flatMap_cons, List.append_assoc] at h
    cases y with
    | nil =>
      have := congrArg List.length h
      have h1 := encode_length c
      simp at this
      exact absurd (this.1) (encode_ne_nil c)
    | cons d y =>
      rw [List.flatMap_cons] at h
      obtain ⟨-, h⟩ := encode_cancel (hx c (by simp)) (hy d (by simp)) h
      exact ⟨y, fun d hd => hy d (by simp [hd]), h⟩

/-- A text can be cut before any byte that is not a continuation byte. -/
theorem validUtf8_cut {a b : Bytes} (h : ValidUtf8 (a ++ b)) (hb : ∀ c x, b = c :: x → isCont c = false) :
    ValidUtf8 a ∧ ValidUtf8 b := by
  suffices hs : ValidUtf8 a from ⟨hs, validUtf8_left h hs⟩
  obtain ⟨cs, hcs, h⟩ := h
  induction cs generalizing a with
  | nil =>
    have h' := (List.append_eq_nil_iff.1 (show a ++ b = [] by simpa using h)).1
    rw [h']; exact validUtf8_nil
  | cons c cs ih =>
    rw [List.flatMap_cons] at h
    obtain ⟨c0, t, he, h0, ht⟩ := encode_shape (hcs c (by simp))
    rcases List.append_eq_append_iff.1 h with ⟨z, h1, h2⟩ | ⟨z, h1, h2⟩
    · -- the cut is not behind the first character
      cases z with
      | nil =>
        rw [List.append_nil] at h1
        rw [← h1]; exact validUtf8_encode (hcs c (by simp))
      | cons z0 z1 =>
        cases a with
        | nil => exact validUtf8_nil
        | cons a0 a1 =>
          rw [he, List.cons_append, List.cons.injEq] at h1
          have := ht z0 (by rw [h1.2]; simp)
          rw [hb z0 _ (by rw [h2]; rfl)] at this
          cases this
    · rw [h1]
      exact validUtf8_append (validUtf8_encode (hcs c (by simp))) (ih (fun d hd => hcs d (by simp [hd])) h2.symm)

theorem scalar_separators : ∀ c ∈ separators, IsScalar c := by decide
theorem scalar_whiteSpace : ∀ c ∈ whiteSpace, IsScalar c := by decide +kernel

theorem isCont_ascii {c : UInt8} (h : c.toNat < 128) : isCont c = false := by
  simp [isCont]; omega

theorem isCont_sep {s : Nat} (hs : s ∈ separators) {c : UInt8} {x y : Bytes} (h : encode s ++ x = c :: y) : isCont c = false := by
  obtain ⟨c0, t, he, h0, -⟩ := encode_shape (scalar_separators s hs)
  rw [he, List.cons_append, List.cons.injEq] at h
  rw [← h.1]; exact h0

/-! ## Labels -/

theorem validUtf8_labels {first : Bytes} {rest : List SepLabel} {tail : Bytes} (hs : ∀ p ∈ rest, p.1 ∈ separators)
    (ht : MadeOf separators tail) (h : ValidUtf8 (joinLabels first rest ++ tail)) :
    ValidUtf8 first ∧ ∀ p ∈ rest, ValidUtf8 p.2 := by
  induction rest generalizing first with
  | nil =>
    refine ⟨?_, by simp⟩
    obtain ⟨cs, hc, rfl⟩ := ht
    refine (validUtf8_cut h fun c x hx => ?_).1
    cases cs with
    | nil => simp at hx
    | cons s cs => exact isCont_sep (hc s (by simp)) hx
  | cons p rest ih =>
    obtain ⟨s, l⟩ := p
    rw [joinLabels, List.append_assoc, List.append_assoc] at h
    have hsep := hs (s, l) (by simp)
    obtain ⟨h1, h2⟩ := validUtf8_cut h fun c x hx => isCont_sep hsep hx
    obtain ⟨h3, h4⟩ := ih (fun p hp => hs p (by simp [hp])) (validUtf8_left h2 (validUtf8_encode (scalar_separators s hsep)))
    refine ⟨h1, fun p hp => ?_⟩
    rcases List.mem_cons.1 hp with rfl | hp
    · exact h3
    · exact h4 p hp

theorem validUtf8_join {first : Bytes} {rest : List SepLabel} (hs : ∀ p ∈ rest, p.1 ∈ separators) (h1 : ValidUtf8 first)
    (h2 : ∀ p ∈ rest, ValidUtf8 p.2) : ValidUtf8 (joinLabels first rest) := by
  induction rest generalizing first with
  | nil => exact h1
  | cons p rest ih =>
    obtain ⟨s, l⟩ := p
    exact validUtf8_append (validUtf8_append h1 (validUtf8_encode (scalar_separators s (hs (s, l) (by simp)))))
      (ih (fun p hp => hs p (by simp [hp])) (h2 (s, l) (by simp)) fun p hp => h2 p (by simp [hp]))

/-- The host part of a result: everything but scheme, userinfo, port and path, which are empty. -/
theorem hostResult_text {rules : List Bytes} {ig : Bool} {n : Bytes} {r : ExtractResult} {err : Option Err}
    (hn : ValidUtf8 n) (h : HostResult rules ig n r err) : TextResult r := by
  obtain ⟨first, rest, tail, ds, w, hsh, -, -, hj⟩ := h
  have hs : ∀ p ∈ rest, p.1 ∈ separators := fun p hp => (hsh.free.2 p hp).1
  obtain ⟨hf, hr⟩ := validUtf8_labels hs hsh.tail (hsh.text ▸ hn)
  have hsub : ∀ front back sub dom, rest = front ++ back → SubAndDomain first front sub dom → ValidUtf8 sub ∧ ValidUtf8 dom := by
    rintro front back sub dom rfl (⟨-, rfl, rfl⟩ | ⟨f, s, l, rfl, rfl, rfl⟩)
    · exact ⟨validUtf8_nil, hf⟩
    · exact ⟨validUtf8_join (fun p hp => hs p (by simp [hp])) hf fun p hp => hr p (by simp [hp]), hr (s, dom) (by simp)⟩
  have hparts : ∀ mark cut sub dom suf reg, Parts first rest mark cut sub dom suf reg →
      ValidUtf8 sub ∧ ValidUtf8 dom ∧ ValidUtf8 suf ∧ ValidUtf8 reg := by
    intro mark cut sub dom suf reg hp
    cases hp with
    | noSuffix h =>
      obtain ⟨h1, h2⟩ := hsub rest [] _ _ (by simp) h
      exact ⟨h1, h2, validUtf8_nil, validUtf8_nil⟩
    | @suffix front s l more back _ _ _ _ e1 _ _ h =>
      obtain ⟨h1, h2⟩ := hsub front ((s, l) :: more ++ back) _ _ (by rw [e1]; simp) h
      refine ⟨h1, h2, ?_, ?_⟩
      · exact validUtf8_join (fun p hp => hs p (by rw [e1]; simp [hp])) (hr (s, l) (by rw [e1]; simp))
          fun p hp => hr p (by rw [e1]; simp [hp])
      · refine validUtf8_join (fun p hp => hs p ?_) h2 fun p hp => hr p ?_
        all_goals
          rw [e1]
          simp only [List.mem_append]
          exact .inl (.inr hp)
    | @suffixOnly front back _ _ e1 =>
      exact ⟨validUtf8_nil, validUtf8_nil, validUtf8_join (fun p hp => hs p (by rw [e1]; simp [hp])) hf
        fun p hp => hr p (by rw [e1]; simp [hp]), validUtf8_nil⟩
  have htext : ∀ k, ValidUtf8 (textTo first rest k) := fun k =>
    validUtf8_join (fun p hp => hs p (List.mem_of_mem_take hp)) hf fun p hp => hr p (List.mem_of_mem_take hp)
  have hif : ∀ {s : Bytes}, ValidUtf8 s → ValidUtf8 (if ig = true then [] else s) := by
    intro s h
    split
    · exact validUtf8_nil
    · exact h
  have n0 := validUtf8_nil
  cases hj with
  | consecutive => exact ⟨n0, n0, n0, n0, n0, n0, n0, n0⟩
  | ipv4 => exact ⟨n0, n0, n0, htext _, n0, htext _, n0, n0⟩
  | invalid => exact ⟨n0, n0, n0, n0, n0, n0, n0, n0⟩
  | noDomain _ _ _ hp =>
    obtain ⟨h1, -, h3, h4⟩ := hparts _ _ _ _ _ _ hp
    exact ⟨n0, n0, hif h1, n0, h3, h4, n0, n0⟩
  | name _ _ _ hp =>
    obtain ⟨h1, h2, h3, h4⟩ := hparts _ _ _ _ _ _ hp
    exact ⟨n0, n0, hif h1, h2, h3, h4, n0, n0⟩

/-! ## The whole result -/

theorem scheme_ascii {p : Bytes} (h : IsScheme p) : ∀ c ∈ p, c.toNat < 128 := by
  obtain ⟨name, colon, sl, rfl, hn, -, hsl⟩ := h
  have h1 : ∀ c : UInt8, isSchemeChar c = true ∨ isLetter c = true ∨ isSlash c = true → c.toNat < 128 := fun c =>
    forall_byte (P := fun c => isSchemeChar c = true ∨ isLetter c = true ∨ isSlash c = true → c.toNat < 128) (by decide +kernel) c
  intro c hc
  simp only [List.mem_append] at hc
  rcases hn with ⟨rfl, rfl⟩ | ⟨⟨x, y, rfl, hx, hy⟩, hcol⟩
  · rcases hc with (hc | hc) | hc
    · simp at hc
    · simp at hc
    · exact h1 c (.inr (.inr (hsl c hc)))
  · rcases hc with (hc | hc) | hc
    · rcases List.mem_cons.1 hc with rfl | hc
      · exact h1 _ (.inr (.inl hx))
      · exact h1 c (.inl (hy c hc))
    · rcases hcol with rfl | rfl
      · simp at hc
      · obtain rfl : c = 58 := by simpa using hc
        decide
    · exact h1 c (.inr (.inr (hsl c hc)))

theorem authority_text {url sch ui a : Bytes} (hu : ValidUtf8 url) (h : Authority url sch ui a) :
    ValidUtf8 sch ∧ ValidUtf8 ui ∧ ValidUtf8 a := by
  obtain ⟨t, rest, ⟨x, y, rfl, hx, hy, -, -, -, -⟩, hs, rfl, zone, more, hz, hui⟩ := h
  rw [List.append_assoc] at hu
  have h1 := validUtf8_left hu (validUtf8_made scalar_whiteSpace hx)
  have h2 : ValidUtf8 (sch ++ rest) := by
    refine (validUtf8_cut h1 fun c z hz => ?_).1
    obtain ⟨cs, hcs, rfl⟩ := hy
    cases cs with
    | nil => simp at hz
    | cons s cs =>
      obtain ⟨c0, t, he, h0, -⟩ := encode_shape (scalar_whiteSpace s (hcs s (by simp)))
      rw [List.flatMap_cons, he, List.cons_append, List.cons.injEq] at hz
      rw [← hz.1]; exact h0
  have h3 : ValidUtf8 sch := by
    rcases hs with ⟨rfl, -⟩ | ⟨hs, -, -⟩
    · exact validUtf8_nil
    · exact validUtf8_ascii (scheme_ascii hs)
  have h4 := validUtf8_left h2 h3
  refine ⟨h3, ?_⟩
  rcases hui with ⟨-, rfl, rfl⟩ | ⟨y, rfl, -, rfl⟩
  · exact ⟨validUtf8_nil, h4⟩
  · rw [hz.1, List.append_assoc] at h4
    obtain ⟨h5, h6⟩ := validUtf8_cut h4 fun c z hz => by
      rw [List.cons_append, List.cons.injEq] at hz
      rw [← hz.1]; decide
    exact ⟨h5, validUtf8_left (a := [64]) h6 (validUtf8_ascii (by decide))⟩

theorem hostEnd_ascii (c : UInt8) : isHostEnd c = true → c.toNat < 128 :=
  forall_byte (P := fun c => isHostEnd c = true → c.toNat < 128) (by decide +kernel) c

theorem hostAt_text {a : Bytes} {part : HostPart} (ha : ValidUtf8 a) (h : HostAt a part) :
    match part with
    | .bad _ => True
    | .name host after => ValidUtf8 host ∧ ValidUtf8 after
    | .literal inner after => ValidUtf8 inner ∧ ValidUtf8 after := by
  cases h with
  | name _ h => exact validUtf8_cut ha fun c x hx => isCont_ascii (hostEnd_ascii c (h c x hx))
  | openLate => trivial
  | closeOnly => trivial
  | openTwice => trivial
  | openAgain => trivial
  | neverClosed => trivial
  | literal =>
    rw [List.cons_append, List.cons_append, List.append_assoc, List.cons_append] at ha
    have h1 := validUtf8_left (a := [91]) ha (validUtf8_ascii (by decide))
    obtain ⟨h2, h3⟩ := validUtf8_cut h1 fun c z hz => by
      rw [List.cons.injEq] at hz
      rw [← hz.1]; decide
    exact ⟨h2, validUtf8_left (a := [93]) h3 (validUtf8_ascii (by decide))⟩

theorem afterHost_text {after port path : Bytes} (ha : ValidUtf8 after) (h : AfterHost after port path) :
    ValidUtf8 port ∧ ValidUtf8 path := by
  obtain ⟨-, ⟨rfl, rfl⟩ | ⟨hp, rfl⟩⟩ := h
  · exact ⟨validUtf8_nil, ha⟩
  · have h1 : ∀ c ∈ port, c.toNat < 128 := port_bytes_all (forall_byte (by decide +kernel)) (by decide) (by decide) hp
    refine ⟨validUtf8_ascii h1, validUtf8_left ha (validUtf8_ascii fun c hc => ?_)⟩
    rcases List.mem_cons.1 hc with rfl | hc
    · decide
    · exact h1 c hc

/-- C77: if the URL is valid UTF-8 (and, with punycode conversion, what the IDNA library returns), then so is every text of
the result, whether there is an error or not. -/
theorem C77_text (idna : Idna) (rules : List Bytes) (e : URLParams) (hu : ValidUtf8 e.url)
    (hi : e.convertURLToPunyCode = true → ∀ un x, idna.lookupASCII un = some x → ValidUtf8 x)
    {r : ExtractResult} {err : Option Err} (h : extract idna (buildTrie rules) e = .ok (r, err)) : TextResult r := by
  obtain ⟨sch, ui, a, part, hA, hat, hf⟩ := (C52_extract idna rules e r err).1 h
  obtain ⟨h1, h2, h3⟩ := authority_text hu hA
  have h4 := hostAt_text h3 hat
  have n0 := validUtf8_nil
  cases hf with
  | brackets => exact ⟨h1, h2, n0, n0, n0, n0, n0, n0⟩
  | notIPv6 => exact ⟨h1, h2, n0, n0, n0, n0, n0, n0⟩
  | trailing => exact ⟨h1, h2, n0, n0, n0, n0, n0, n0⟩
  | ipv6Port => exact ⟨h1, h2, n0, h4.1, n0, h4.1, n0, n0⟩
  | ipv6 _ ha => exact ⟨h1, h2, n0, h4.1, n0, h4.1, (afterHost_text h4.2 ha).1, (afterHost_text h4.2 ha).2⟩
  | namePort => exact ⟨h1, h2, n0, n0, n0, n0, n0, n0⟩
  | escape ha => exact ⟨h1, h2, n0, n0, n0, n0, (afterHost_text h4.2 ha).1, (afterHost_text h4.2 ha).2⟩
  | idna ha => exact ⟨h1, h2, n0, n0, n0, n0, (afterHost_text h4.2 ha).1, (afterHost_text h4.2 ha).2⟩
  | @host _ _ _ _ n _ _ ha htx hres =>
    have hn : ValidUtf8 n := by
      obtain ⟨un, -, ⟨-, -, rfl⟩ | ⟨hp, rfl⟩⟩ := htx
      · exact h4.1
      · cases hl : idna.lookupASCII un with
        | none => exact n0
        | some x => exact hi hp un x hl
    have ht := hostResult_text hn hres
    exact ⟨h1, h2, ht.subDomain, ht.domain, ht.suffix, ht.registeredDomain, (afterHost_text h4.2 ha).1,
      (afterHost_text h4.2 ha).2⟩

/-- A URL with a two-byte character in every part that may have one (userinfo, the labels, the path) and a three-byte
separator between the labels.  Not all byte sequences are texts: a continuation byte alone is none, and a result that had cut
`é` in two would have it. -/
theorem C77_example :
    (extract idId (buildTrie [b! "com"]) { url := b! "http://ü@é。ö.com:8/ä" } =
        .ok ({ scheme := b! "http://", userInfo := b! "ü", subDomain := b! "é", domain := b! "ö", suffix := b! "com"
               registeredDomain := b! "ö.com", port := b! "8", path := b! "/ä", hostType := .hostName }, none)) ∧
    ValidUtf8 (b! "http://ü@é。ö.com:8/ä") ∧
    ¬ ValidUtf8 [0xA9] := by
  refine ⟨by decide +kernel, ⟨"http://ü@é。ö.com:8/ä".toList.map Char.toNat, by decide +kernel, by decide +kernel⟩, ?_⟩
  rintro ⟨cs, hcs, h⟩
  cases cs with
  | nil => cases h
  | cons c cs =>
    obtain ⟨c0, t, he, h0, -⟩ := encode_shape (hcs c (by simp))
    rw [List.flatMap_cons, he, List.cons_append, List.cons.injEq] at h
    rw [← h.1] at h0
    exact absurd h0 (by decide)

end Fasttld.Props
