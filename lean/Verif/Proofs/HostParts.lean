import Verif.Proofs.Outcome
import Verif.Spec.Host

/-!
# Facts about the walk and the parts of a host name
-/

set_option linter.unusedSimpArgs false

namespace Fasttld
open Spec

/-- Every top-level node is the end of a rule. -/
def TopComplete (t : Trie) : Prop := ∀ l v, t.get l = some v → v.isEnd = true

/-- The end of the suffix, once found, stays. -/
theorem walkL_end_some {node ls k e o} (h : walkL node ls k (some e) = some o) : o.endK = some e := by
  induction ls generalizing node k with
  | nil => simp only [walkL, Option.some.injEq] at h; rw [← h]
  | cons l ls ih =>
    rw [walkL] at h
    split at h
    · simp at h
    · split at h
      · rename_i o' ho
        injection h with h; subst h
        unfold labelL at ho
        split at ho
        · injection ho with ho; rw [← ho]
        · split at ho
          · injection ho with ho; rw [← ho]
          · simp only [reduceCtorEq, false_and, if_false] at ho
            split at ho
            · injection ho with ho; rw [← ho]
            · simp at ho
      · rename_i val e' hn
        obtain ⟨-, -, -, h4, -⟩ := labelL_next hn
        simp at h4; subst h4
        exact ih h

/-- The end of the suffix is among the labels looked at. -/
theorem walkL_end_bounds {node ls k o e} (h : walkL node ls k none = some o) (hne : ls ≠ []) (he : o.endK = some e) :
    k ≤ e ∧ e ≤ o.prev := by
  induction ls generalizing node k with
  | nil => exact absurd rfl hne
  | cons l ls ih =>
    have hb := walkL_bounds h hne (by simp)
    have h0 := h
    rw [walkL] at h
    split at h
    · simp at h
    · split at h
      · rename_i o' ho
        injection h with h; subst h
        unfold labelL at ho
        split at ho
        · injection ho with ho; rw [← ho] at he; simp at he
        · split at ho
          · injection ho with ho; rw [← ho] at he; simp at he
          · simp only at ho
            split at ho
            · injection ho with ho
              rw [← ho] at he
              simp only [true_and] at he
              split at he
              · injection he with he; omega
              · simp at he
            · simp at ho
      · rename_i val e' hn
        obtain ⟨h1, -, -, h4, -⟩ := labelL_next hn
        have hls : ls ≠ [] := by simpa using h1
        simp only [true_and] at h4
        split at h4
        · subst h4
          have := walkL_end_some h
          rw [he] at this; injection this with this; omega
        · subst h4
          have := ih h hls
          omega

/-- The labels looked at are not empty, except perhaps the first label of the host. -/
theorem walkL_nonempty {node ls k endK o} (h : walkL node ls k endK = some o) {i : Nat} (hi : k + i ≤ o.prev)
    (hl : i + 1 < ls.length) : ls[i]? ≠ some [] := by
  induction ls generalizing node k endK i with
  | nil => simp at hl
  | cons l ls ih =>
    rw [walkL] at h
    split at h
    · simp at h
    · rename_i hc
      cases i with
      | zero =>
        intro h0
        simp only [List.getElem?_cons_zero, Option.some.injEq] at h0
        exact hc ⟨h0, by rintro rfl; simp at hl⟩
      | succ i =>
        split at h
        · rename_i o' ho
          injection h with h; subst h
          have : o'.prev = k := by
            unfold labelL at ho
            split at ho
            · injection ho with ho; rw [← ho]
            · split at ho
              · injection ho with ho; rw [← ho]
              · simp only at ho
                split at ho
                · injection ho with ho; rw [← ho]
                · simp at ho
          omega
        · have := ih (i := i) h (by omega) (by simpa using hl)
          simpa using this

/-- With `TopComplete`: no suffix means the walk ended at once; a suffix starts at the right end. -/
theorem walkL_top {node ls k o} (ht : TopComplete node) (h : walkL node ls k none = some o) (hne : ls ≠ []) :
    (o.endK = none → o.prev = k) ∧ ∀ e, o.endK = some e → e = k := by
  cases ls with
  | nil => exact absurd rfl hne
  | cons l ls =>
    rw [walkL] at h
    split at h
    · simp at h
    · split at h
      · rename_i o' ho
        injection h with h; subst h
        unfold labelL at ho
        split at ho
        · injection ho with ho; rw [← ho]; simp
        · split at ho
          · injection ho with ho; rw [← ho]; simp
          · rename_i val hv
            simp only [ht _ _ hv, and_true, if_true] at ho
            split at ho
            · injection ho with ho; rw [← ho]; simp
            · simp at ho
      · rename_i val e' hn
        obtain ⟨h1, -, hv, h4, -⟩ := labelL_next hn
        simp only [ht _ _ hv, and_true, if_true] at h4
        subst h4
        have := walkL_end_some h
        rw [this]; simp

theorem labels_length (h : Bytes) (rt : List SepLabel) (k : Nat) : (labels h rt k).length = rt.length - k + 1 := by
  simp [labels]

theorem labels_ne_nil (h : Bytes) (rt : List SepLabel) (k : Nat) : labels h rt k ≠ [] := by simp [labels]

/-- Labels by number. -/
theorem labels_get {h : Bytes} {rt : List SepLabel} {k i : Nat} (hi : k + i ≤ rt.length) :
    (labels h rt k)[i]? = some (lab h rt (k + i)) := by
  unfold labels
  rcases Nat.lt_or_ge (k + i) rt.length with h1 | h1
  · rw [List.getElem?_append_left (by simp; omega)]
    obtain ⟨s, l, hd⟩ := exists_drop_of_lt h1
    rw [lab_cons hd, List.getElem?_map, List.getElem?_drop, List.getElem?_eq_getElem h1]
    have := congrArg (fun l => l[0]?) hd
    simp only [List.getElem?_drop, Nat.add_zero, List.getElem?_cons_zero, List.getElem?_eq_getElem h1] at this
    injection this with this
    rw [this]; rfl
  · have : k + i = rt.length := by omega
    rw [List.getElem?_append_right (by simp; omega), lab_eq_head h1]
    have : i - ((rt.drop k).map Prod.snd).length = 0 := by simp; omega
    rw [this]; rfl

/-- A label has no separators. -/
theorem lab_free {h : Bytes} {rt : List SepLabel} (g : GoodR h rt) (k : Nat) : FreeOf separators (lab h rt k) := by
  rcases Nat.lt_or_ge k rt.length with h1 | h1
  · obtain ⟨s, l, hd⟩ := exists_drop_of_lt h1
    rw [lab_cons hd]
    exact (g.2 (s, l) (List.mem_of_mem_drop (i := k) (by rw [hd]; simp))).2
  · rw [lab_eq_head h1]; exact g.1

theorem mem_seps {h : Bytes} {rt : List SepLabel} (g : GoodR h rt) {s : Nat} (hs : s ∈ rt.map Prod.fst) :
    s ∈ separators := by
  obtain ⟨p, hp, rfl⟩ := List.mem_map.1 hs
  exact (g.2 p hp).1

/-- The text up to label `k`, as sub-domain part and label. -/
theorem pre_front {h : Bytes} {rt : List SepLabel} (g : GoodR h rt) {k : Nat} (hk : k ≤ rt.length) :
    ∃ front, pre h rt k = front ++ lab h rt k ∧
      ((front = [] ∧ sub h rt false (k + 1) = []) ∨ ∃ s ∈ separators, front = sub h rt false (k + 1) ++ encode s) := by
  unfold sub
  rcases Nat.lt_or_ge k rt.length with h1 | h1
  · obtain ⟨s, hs, -, h2⟩ := pre_split (h := h) (a := k) (b := k + 1) (by omega) h1
    rw [seg_one] at h2
    refine ⟨pre h rt (k + 1) ++ encode s, h2, .inr ⟨s, mem_seps g hs, ?_⟩⟩
    simp [show k + 1 ≤ rt.length by omega]
  · refine ⟨[], by rw [pre_eq_head h1, lab_eq_head h1]; rfl, .inl ⟨rfl, ?_⟩⟩
    simp [show ¬ k + 1 ≤ rt.length by omega]

/-- Labels `b-1 .. a` end with label `a`. -/
theorem seg_last {h : Bytes} {rt : List SepLabel} {a b : Nat} (hab : a < b) (hb : b ≤ rt.length + 1) :
    ∃ z, seg h rt a b = z ++ lab h rt a := by
  induction b with
  | zero => omega
  | succ b ih =>
    rcases Nat.lt_or_ge a b with h1 | h1
    · obtain ⟨z, hz⟩ := ih h1 (by omega)
      obtain ⟨s, -, h2⟩ := seg_succ (h := h) h1 (rt := rt) (by omega)
      exact ⟨lab h rt b ++ encode s ++ z, by rw [h2, hz]; simp⟩
    · have : a = b := by omega
      subst this
      exact ⟨[], by rw [seg_one]; rfl⟩

/-- A text of separators. -/
theorem joinR_empty_labels {h : Bytes} {rt : List SepLabel} (g : ∀ p ∈ rt, p.1 ∈ separators) (he : ∀ p ∈ rt, p.2 = []) :
    ∃ t, MadeOf separators t ∧ joinR h rt = h ++ t := by
  induction rt with
  | nil => exact ⟨[], madeOf_nil _, by simp [joinR]⟩
  | cons p r ih =>
    obtain ⟨s, l⟩ := p
    obtain ⟨t, h1, h2⟩ := ih (fun p hp => g p (by simp [hp])) (fun p hp => he p (by simp [hp]))
    have hl : l = [] := he (s, l) (by simp)
    subst hl
    refine ⟨t ++ encode s, h1.append ⟨[s], ?_, by simp⟩, by simp [joinR, h2]⟩
    have := g (s, []) (by simp)
    simpa using this

/-- What follows the last non-empty label is separators. -/
theorem pre_lead {h : Bytes} {rt : List SepLabel} (g : GoodR h rt) :
    ∃ t, MadeOf separators t ∧ joinR h rt = pre h rt (leadEmpty rt) ++ t := by
  have h1 := (leadEmpty_spec h rt).1
  obtain ⟨t, ht, he⟩ := joinR_empty_labels (h := joinR h (rt.drop (leadEmpty rt))) (rt := rt.take (leadEmpty rt))
    (fun p hp => (g.2 p (List.mem_of_mem_take hp)).1) h1
  refine ⟨t, ht, ?_⟩
  rw [← joinR_append, List.take_append_drop] at he
  exact he

/-- Everything known about the labels in a host name that is accepted. -/
structure NameOK (trie : Trie) (n : Bytes) (o : Out) : Prop where
  walk : walkL trie (labels (hostSplit n).1 (hostSplit n).2 (leadEmpty (hostSplit n).2)) (leadEmpty (hostSplit n).2)
    none = some o
  notIP : ¬ IsIPv4 n
  chars : hasInvalidChars (checkedText (hostSplit n).1 (hostSplit n).2 o) = false
  none_case : o.endK = none → lab (hostSplit n).1 (hostSplit n).2 (leadEmpty (hostSplit n).2) ≠ []
  some_case : ∀ e, o.endK = some e → leadEmpty (hostSplit n).2 ≤ e ∧ e ≤ o.prev ∧ e < o.sep ∧
    o.sep ≤ (hostSplit n).2.length ∧ lab (hostSplit n).1 (hostSplit n).2 o.sep ≠ [] ∧
    lab (hostSplit n).1 (hostSplit n).2 e ≠ [] ∧ o.prev ≤ o.start ∧ o.start ≤ o.sep ∧ o.sep ≤ o.prev + 1

/-- The parts of a host name with label numbers. -/
def NameParts (ig : Bool) (n : Bytes) (o : Out) (r : ExtractResult) : Prop :=
  r.hostType = .hostName ∧
  match o.endK with
  | none => r.suffix = [] ∧ r.registeredDomain = [] ∧
      r.domain = lab (hostSplit n).1 (hostSplit n).2 (leadEmpty (hostSplit n).2) ∧
      r.subDomain = sub (hostSplit n).1 (hostSplit n).2 ig (leadEmpty (hostSplit n).2 + 1)
  | some e => r.suffix = seg (hostSplit n).1 (hostSplit n).2 e o.sep ∧
      r.registeredDomain = seg (hostSplit n).1 (hostSplit n).2 e (o.sep + 1) ∧
      r.domain = lab (hostSplit n).1 (hostSplit n).2 o.sep ∧
      r.subDomain = sub (hostSplit n).1 (hostSplit n).2 ig (o.sep + 1)

/-- Host names that are accepted. -/
theorem hostF_name {trie : Trie} {ig : Bool} {n : Bytes} {r : ExtractResult}
    (h : hostF trie ig n {} = (r, none)) (ht : r.hostType = .hostName) : ∃ o, NameOK trie n o ∧ NameParts ig n o r := by
  obtain ⟨o, hw, ⟨-, hr⟩ | ⟨h4, hc, hd, hr⟩⟩ := hostF_ok.1 h
  · rw [hr] at ht; simp at ht
  · refine ⟨o, ⟨hw, h4, hc, ?_, ?_⟩, ?_⟩
    · intro he
      unfold nameParts at hd
      rw [he] at hd
      exact hd
    · intro e he
      unfold nameParts at hd
      rw [he] at hd
      simp only at hd
      obtain ⟨b1, b2⟩ := walkL_end_bounds hw (labels_ne_nil _ _ _) he
      obtain ⟨b3, b4, b5, b6, b7, b8⟩ := walkL_bounds hw (labels_ne_nil _ _ _) (by simp)
      have b8 := b8 e he
      split at hd
      · rename_i hs
        refine ⟨b1, b2, b8, hs, hd, ?_, b5, b6, b7⟩
        have := walkL_nonempty hw (i := e - leadEmpty (hostSplit n).2) (by omega) (by rw [labels_length]; omega)
        rw [labels_get (by omega)] at this
        rw [show leadEmpty (hostSplit n).2 + (e - leadEmpty (hostSplit n).2) = e by omega] at this
        intro hc; rw [hc] at this; exact this rfl
      · simp at hd
    · rw [hr]
      refine ⟨rfl, ?_⟩
      unfold nameParts
      cases he : o.endK with
      | none => exact ⟨rfl, rfl, rfl, rfl⟩
      | some e =>
        unfold nameParts at hd
        rw [he] at hd
        simp only at hd
        by_cases hs : o.sep ≤ (hostSplit n).2.length
        · simp [hs]
        · simp [hs] at hd

/-- Conversely. -/
theorem hostF_of_name {trie : Trie} {ig : Bool} {n : Bytes} {o : Out} (h : NameOK trie n o) :
    ∃ r, hostF trie ig n {} = (r, none) ∧ NameParts ig n o r := by
  refine ⟨_, hostF_ok.2 ⟨o, h.walk, .inr ⟨h.notIP, h.chars, ?_, rfl⟩⟩, ?_⟩
  · unfold nameParts
    cases he : o.endK with
    | none => exact h.none_case he
    | some e =>
      have := h.some_case e he
      simp only
      rw [if_pos this.2.2.2.1]
      exact this.2.2.2.2.1
  · refine ⟨rfl, ?_⟩
    unfold nameParts
    cases he : o.endK with
    | none => exact ⟨rfl, rfl, rfl, rfl⟩
    | some e =>
      have := h.some_case e he
      simp [this.2.2.2.1]

/-- Putting the host together again. -/
theorem name_assembled {trie : Trie} {n : Bytes} {o : Out} {r : ExtractResult} (h : NameOK trie n o)
    (hp : NameParts false n o r) :
    ∃ tail, Assembled n r.subDomain r.domain r.suffix tail ∧
      (tail = [] ∨ ∃ s ∈ separators, encode s <+: tail) ∧
      (r.suffix = [] ∨ TopComplete trie → MadeOf separators tail) := by
  have g := hostSplit_good n
  have hj := hostSplit_join n
  have hle := leadEmpty_le (hostSplit n).2
  obtain ⟨-, hp⟩ := hp
  obtain ⟨t, ht, hlead⟩ := pre_lead g
  rw [hj] at hlead
  have htail : ∀ t, MadeOf separators t → (t = [] ∨ ∃ s ∈ separators, encode s <+: t) := by
    rintro t ⟨cs, h1, rfl⟩
    cases cs with
    | nil => exact .inl rfl
    | cons c cs => exact .inr ⟨c, h1 c (by simp), by simp⟩
  cases he : o.endK with
  | none =>
    rw [he] at hp
    obtain ⟨h1, h2, h3, h4⟩ := hp
    obtain ⟨front, hf, hf2⟩ := pre_front g hle
    refine ⟨t, ⟨front, [], ?_, ?_, .inl ⟨rfl, h1⟩⟩, htail t ht, fun _ => ht⟩
    · rw [hf] at hlead
      rw [h3]; simpa using hlead
    · rw [h4]; exact hf2
  | some e =>
    rw [he] at hp
    obtain ⟨h1, h2, h3, h4⟩ := hp
    obtain ⟨b1, b2, b3, b4, b5, b6, -⟩ := h.some_case e he
    obtain ⟨front, hf, hf2⟩ := pre_front g b4
    obtain ⟨s, hs, -, hs2⟩ := pre_split (h := (hostSplit n).1) b3 b4
    have hsuf : r.suffix ≠ [] := by
      obtain ⟨z, hz⟩ := seg_last (h := (hostSplit n).1) (rt := (hostSplit n).2) b3 (by omega)
      rw [h1, hz]; simp [b6]
    -- what follows label `e`
    have hpre : ∃ tail, n = pre (hostSplit n).1 (hostSplit n).2 e ++ tail ∧
        (tail = [] ∨ ∃ s ∈ separators, encode s <+: tail) ∧ (e = leadEmpty (hostSplit n).2 → MadeOf separators tail) := by
      rcases Nat.lt_or_ge (leadEmpty (hostSplit n).2) e with h1 | h1
      · obtain ⟨s, hs, -, hs2⟩ := pre_split (h := (hostSplit n).1) (a := 0) (b := e) (rt := (hostSplit n).2)
          (by omega) (by omega)
        rw [pre_zero, hj] at hs2
        exact ⟨encode s ++ seg (hostSplit n).1 (hostSplit n).2 0 e, by rw [← List.append_assoc]; exact hs2,
          .inr ⟨s, mem_seps g hs, by simp⟩, by omega⟩
      · have : e = leadEmpty (hostSplit n).2 := by omega
        exact ⟨t, by rw [this]; exact hlead, htail t ht, fun _ => ht⟩
    obtain ⟨tail, t1, t2, t3⟩ := hpre
    refine ⟨tail, ⟨front, encode s ++ r.suffix, ?_, ?_, .inr ⟨hsuf, s, mem_seps g hs, rfl⟩⟩, t2, ?_⟩
    · rw [h1, h3]
      generalize lab (hostSplit n).1 (hostSplit n).2 o.sep = x at *
      generalize seg (hostSplit n).1 (hostSplit n).2 e o.sep = y at *
      rw [hs2, hf] at t1
      simpa using t1
    · rw [h4]; exact hf2
    · rintro (hc | hc)
      · exact absurd hc hsuf
      · exact t3 ((walkL_top hc h.walk (labels_ne_nil _ _ _)).2 e he)

/-- IPv4 hosts that are accepted. -/
theorem hostF_ipv4 {trie : Trie} {ig : Bool} {n : Bytes} {r : ExtractResult}
    (h : hostF trie ig n {} = (r, none)) (ht : r.hostType = .iPv4) :
    IsIPv4 n ∧ ∃ o, walkL trie (labels (hostSplit n).1 (hostSplit n).2 (leadEmpty (hostSplit n).2))
          (leadEmpty (hostSplit n).2) none = some o ∧
      r = { hostType := .iPv4, domain := pre (hostSplit n).1 (hostSplit n).2 o.prev,
            registeredDomain := pre (hostSplit n).1 (hostSplit n).2 o.prev } := by
  obtain ⟨o, hw, ⟨h4, hr⟩ | ⟨h4, hc, hd, hr⟩⟩ := hostF_ok.1 h
  · exact ⟨h4, o, hw, hr⟩
  · rw [hr] at ht; simp at ht

theorem joinR_head (h : Bytes) (rt : List SepLabel) :
    ∃ z, joinR h rt = h ++ z ∧ (z = [] ∨ ∃ s ∈ rt.map Prod.fst, ∃ w, z = encode s ++ w) := by
  induction rt with
  | nil => exact ⟨[], by simp [joinR], .inl rfl⟩
  | cons p r ih =>
    obtain ⟨s, l⟩ := p
    obtain ⟨z, h1, h2⟩ := ih
    refine ⟨z ++ encode s ++ l, by simp [joinR, h1], .inr ?_⟩
    rcases h2 with rfl | ⟨s', hs', w, rfl⟩
    · exact ⟨s, by simp, l, by simp⟩
    · refine ⟨s', ?_, w ++ encode s ++ l, by simp⟩
      simp only [List.map_cons, List.mem_cons]; exact .inr hs'

/-- The first label of an IPv4 address is not empty. -/
theorem ipv4_head_ne {n : Bytes} (h : IsIPv4 n) : (hostSplit n).1 ≠ [] := by
  intro hc
  obtain ⟨z, h1, h2⟩ := joinR_head (hostSplit n).1 (hostSplit n).2
  rw [hostSplit_join, hc] at h1
  obtain ⟨hl, c, t, hd, hdig⟩ := h.shape
  rcases h2 with rfl | ⟨s, hs, w, rfl⟩
  · rw [h1] at hd; simp at hd
  · have := mem_seps (hostSplit_good n) hs
    rw [hd] at h1
    simp [separators] at this
    rcases this with rfl | rfl | rfl | rfl <;> simp [encode] at h1 <;> rw [h1.1] at hdig <;> revert hdig <;> decide

end Fasttld
