import Verif.Proofs.HostParts

/-!
# Dotted quads as hosts
-/

set_option linter.unusedSimpArgs false

namespace Fasttld
open Spec

theorem sep_byte_not_digit {r : Nat} (h : r ∈ separators) : ∀ c ∈ encode r, isDigit c = false := by
  simp [separators] at h
  rcases h with rfl | rfl | rfl | rfl <;> decide

theorem digits_free {d : Bytes} (h : ∀ c ∈ d, isDigit c = true) : FreeOf separators d := by
  intro r hr hi
  obtain ⟨b, t, hb⟩ : ∃ b t, encode r = b :: t := by
    cases he : encode r with
    | nil => exact absurd he (encode_ne_nil r)
    | cons b t => exact ⟨b, t, rfl⟩
  have h1 : b ∈ encode r := by rw [hb]; simp
  have := sep_byte_not_digit hr b h1
  rw [h b (hi.subset h1)] at this
  simp at this

theorem Spec.IsOctet.digits {d : Bytes} (h : IsOctet d) : ∀ c ∈ d, isDigit c = true := ((isOctet_iff d).1 h).2.1

theorem Spec.IsOctet.ne_nil {d : Bytes} (h : IsOctet d) : d ≠ [] := by
  exact ((isOctet_iff d).1 h).1

theorem joinR_seps (x : Bytes) (cs : List Nat) :
    joinR x (cs.reverse.map (fun c => (c, ([] : Bytes)))) = x ++ cs.flatMap encode := by
  rw [show cs = cs.reverse.reverse by simp]
  generalize cs.reverse = ds
  induction ds with
  | nil => simp [joinR]
  | cons d ds ih =>
    simp only [List.reverse_cons, List.reverse_append, List.reverse_nil, List.nil_append, List.cons_append,
      List.map_cons, joinR, List.flatMap_append, List.reverse_reverse] at ih ⊢
    rw [ih]; simp

/-- The labels of a dotted quad. -/
theorem ipv4_split {n : Bytes} (h : IsIPv4 n) :
    ∃ (a b c d : Bytes) (r1 r2 r3 : Nat) (cs : List Nat), IsOctet a ∧ IsOctet b ∧ IsOctet c ∧ IsOctet d ∧
      r1 ∈ separators ∧ r2 ∈ separators ∧ r3 ∈ separators ∧ (∀ c ∈ cs, c ∈ separators) ∧
      n = a ++ encode r1 ++ b ++ encode r2 ++ c ++ encode r3 ++ d ++ cs.flatMap encode ∧
      hostSplit n = (a, cs.reverse.map (fun c => (c, ([] : Bytes))) ++ [(r3, d), (r2, c), (r1, b)]) := by
  obtain ⟨q, t, ⟨a, b, c, d, r1, r2, r3, ha, hb, hc, hd, h1, h2, h3, rfl⟩, ⟨cs, hcs, rfl⟩, rfl⟩ := h
  refine ⟨a, b, c, d, r1, r2, r3, cs, ha, hb, hc, hd, h1, h2, h3, hcs, rfl, ?_⟩
  rw [← hostSplit_joinR (h := a) (rt := cs.reverse.map (fun c => (c, ([] : Bytes))) ++ [(r3, d), (r2, c), (r1, b)])]
  · rw [joinR_append, joinR_seps]
    simp [joinR]
  · refine ⟨digits_free ha.digits, ?_⟩
    intro p hp
    simp only [List.mem_append, List.mem_map, List.mem_reverse, List.mem_cons, List.mem_nil_iff, or_false] at hp
    rcases hp with ⟨c, hc, rfl⟩ | rfl | rfl | rfl
    · exact ⟨hcs c hc, freeOf_nil goodSet_separators⟩
    · exact ⟨h3, digits_free hd.digits⟩
    · exact ⟨h2, digits_free hc.digits⟩
    · exact ⟨h1, digits_free hb.digits⟩

theorem leadEmpty_seps (cs : List Nat) (s : Nat) (l : Bytes) (r : List SepLabel) (hl : l ≠ []) :
    leadEmpty (cs.map (fun c => (c, ([] : Bytes))) ++ (s, l) :: r) = cs.length := by
  induction cs with
  | nil => simp [leadEmpty, hl]
  | cons c cs ih => simp [leadEmpty, ih]

/-- A walk over non-empty labels does not fail. -/
theorem walkL_some {node : Trie} {ls : List Bytes} (h : ∀ l ∈ ls, l ≠ []) (k : Nat) (endK : Option Nat) :
    ∃ o, walkL node ls k endK = some o := by
  induction ls generalizing node k endK with
  | nil => exact ⟨_, rfl⟩
  | cons l ls ih =>
    rw [walkL, if_neg (fun hc => h l (by simp) hc.1)]
    split
    · exact ⟨_, rfl⟩
    · exact ih (fun l hl => h l (by simp [hl])) _ _

/-- Text without `%` and `+` is not changed by percent-decoding. -/
theorem queryUnescape_plain {s : Bytes} (h : ∀ c ∈ s, c ≠ 37 ∧ c ≠ 43) : queryUnescape s = .ok s := by
  induction s with
  | nil => rfl
  | cons c t ih =>
    have hc := h c (by simp)
    have ih := ih (fun x hx => h x (by simp [hx]))
    unfold queryUnescape
    split
    · simp_all
    · simp_all
    · simp_all
    · simp_all
    · rename_i c' t' _ _ _ heq
      simp only [List.cons.injEq] at heq
      obtain ⟨rfl, rfl⟩ := heq
      rw [ih]; simp [hc.2]

theorem ipv4_bytes {n : Bytes} (h : IsIPv4 n) : ∀ c ∈ n, isHostEnd c = false ∧ c ≠ 91 ∧ c ≠ 93 ∧ c ≠ 37 ∧ c ≠ 43 := by
  obtain ⟨a, b, c, d, r1, r2, r3, cs, ha, hb, hc, hd, h1, h2, h3, hcs, rfl, -⟩ := ipv4_split h
  have hdig : ∀ x : UInt8, isDigit x = true → isHostEnd x = false ∧ x ≠ 91 ∧ x ≠ 93 ∧ x ≠ 37 ∧ x ≠ 43 := by
    intro x
    exact forall_byte (P := fun x => isDigit x = true → isHostEnd x = false ∧ x ≠ 91 ∧ x ≠ 93 ∧ x ≠ 37 ∧ x ≠ 43)
      (by decide +kernel) x
  have hsep : ∀ r ∈ separators, ∀ x ∈ encode r, isHostEnd x = false ∧ x ≠ 91 ∧ x ≠ 93 ∧ x ≠ 37 ∧ x ≠ 43 := by
    decide
  intro x hx
  simp only [List.mem_append, List.mem_flatMap] at hx
  rcases hx with ((((((hx | hx) | hx) | hx) | hx) | hx) | hx) | ⟨r, hr, hx⟩
  · exact hdig x (ha.digits x hx)
  · exact hsep r1 h1 x hx
  · exact hdig x (hb.digits x hx)
  · exact hsep r2 h2 x hx
  · exact hdig x (hc.digits x hx)
  · exact hsep r3 h3 x hx
  · exact hdig x (hd.digits x hx)
  · exact hsep r (hcs r hr) x hx

/-- The result on a dotted quad. -/
theorem hostF_of_ipv4 (trie : Trie) (ig : Bool) {n q t : Bytes} (hq : IsQuad q) (ht : MadeOf separators t) (hn : n = q ++ t) :
    ∃ o : Out, hostF trie ig n {} =
      ({ hostType := .iPv4, domain := pre (hostSplit n).1 (hostSplit n).2 o.prev,
         registeredDomain := pre (hostSplit n).1 (hostSplit n).2 o.prev }, none) ∧
      (∃ z, q = pre (hostSplit n).1 (hostSplit n).2 o.prev ++ z) ∧
      ((∀ d z, IsOctet d → q = z ++ d → (∃ s ∈ separators, encode s <:+ z) → trie.get d = none) →
        pre (hostSplit n).1 (hostSplit n).2 o.prev = q) := by
  obtain ⟨a, b, c, d, r1, r2, r3, ha, hb, hc, hd, h1, h2, h3, rfl⟩ := hq
  obtain ⟨cs, hcs, rfl⟩ := ht
  have h4 : IsIPv4 n := ⟨_, _, ⟨a, b, c, d, r1, r2, r3, ha, hb, hc, hd, h1, h2, h3, rfl⟩, ⟨cs, hcs, rfl⟩, hn⟩
  have hg : GoodR a (cs.reverse.map (fun c => (c, ([] : Bytes))) ++ [(r3, d), (r2, c), (r1, b)]) := by
    refine ⟨digits_free ha.digits, ?_⟩
    intro p hp
    simp only [List.mem_append, List.mem_map, List.mem_reverse, List.mem_cons, List.mem_nil_iff, or_false] at hp
    rcases hp with ⟨c, hc, rfl⟩ | rfl | rfl | rfl
    · exact ⟨hcs c hc, freeOf_nil goodSet_separators⟩
    · exact ⟨h3, digits_free hd.digits⟩
    · exact ⟨h2, digits_free hc.digits⟩
    · exact ⟨h1, digits_free hb.digits⟩
  have hs : hostSplit n = (a, cs.reverse.map (fun c => (c, ([] : Bytes))) ++ [(r3, d), (r2, c), (r1, b)]) := by
    rw [← hostSplit_joinR hg, hn, joinR_append, joinR_seps]
    simp [joinR]
  have hle : leadEmpty (hostSplit n).2 = cs.length := by
    rw [hs]
    have := leadEmpty_seps cs.reverse r3 d [(r2, c), (r1, b)] hd.ne_nil
    simpa using this
  have hlab : labels (hostSplit n).1 (hostSplit n).2 (leadEmpty (hostSplit n).2) = [d, c, b, a] := by
    rw [hle, hs]
    simp [labels, List.drop_append]
  have hne : ∀ l ∈ [d, c, b, a], l ≠ [] := by
    intro l hl
    simp only [List.mem_cons, List.mem_nil_iff, or_false] at hl
    rcases hl with rfl | rfl | rfl | rfl
    · exact hd.ne_nil
    · exact hc.ne_nil
    · exact hb.ne_nil
    · exact ha.ne_nil
  obtain ⟨o, ho⟩ := walkL_some (node := trie) hne cs.length none
  have hb2 := walkL_bounds ho (by simp) (by simp)
  have hlen : (hostSplit n).2.length = cs.length + 3 := by rw [hs]; simp
  have hpm : pre (hostSplit n).1 (hostSplit n).2 cs.length
      = a ++ encode r1 ++ b ++ encode r2 ++ c ++ encode r3 ++ d := by
    rw [hs]; simp [pre, List.drop_append, joinR]
  refine ⟨o, hostF_ok.2 ⟨o, by rw [hlab, hle]; exact ho, .inl ⟨h4, rfl⟩⟩, ?_, ?_⟩
  · obtain ⟨z, hz⟩ := pre_prefix (h := (hostSplit n).1) (rt := (hostSplit n).2) hb2.1
      (by have := hb2.2.1; simp at this; omega)
    exact ⟨z, by rw [← hz, hpm]⟩
  · intro hget
    have hg4 := hget d (a ++ encode r1 ++ b ++ encode r2 ++ c ++ encode r3) hd rfl ⟨r3, h3, List.suffix_append _ _⟩
    have : o.prev = cs.length := by
      rw [walkL, if_neg (fun hc => hd.ne_nil hc.1)] at ho
      have hue : unescapeOrEmpty d = d := by
        unfold unescapeOrEmpty
        rw [queryUnescape_plain]
        intro x hx
        have hdig := hd.digits x hx
        revert hdig
        exact forall_byte (P := fun x => isDigit x = true → x ≠ 37 ∧ x ≠ 43) (by decide +kernel) x
      unfold labelL at ho
      rw [hue, hg4] at ho
      cases hst : trie.get (b! "*") with
      | none => rw [hst] at ho; simp at ho; rw [← ho]
      | some v => rw [hst] at ho; simp at ho; rw [← ho]
    rw [this, hpm]

end Fasttld
