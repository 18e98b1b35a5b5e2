import Verif.Proofs.Trim

/-!
# Hosts as labels and separators

A host is a first label and, read from right to left, pairs of a separator and the label after it.
-/

set_option linter.unusedSimpArgs false

namespace Fasttld
open Spec

/-- Separator (code point) and the label after it. -/
abbrev SepLabel := Nat × Bytes

/-- The text of a host: first label, and the separated labels *from right to left*. -/
def joinR (h : Bytes) : List SepLabel → Bytes
  | [] => h
  | (s, l) :: r => joinR h r ++ encode s ++ l

/-- Separators are separators and labels have none. -/
def GoodR (h : Bytes) (rt : List SepLabel) : Prop :=
  FreeOf separators h ∧ ∀ p ∈ rt, p.1 ∈ separators ∧ FreeOf separators p.2

theorem GoodR.cons {h p rt} (g : GoodR h (p :: rt)) : GoodR h rt :=
  ⟨g.1, fun q hq => g.2 q (by simp [hq])⟩

theorem GoodR.drop {h rt} (g : GoodR h rt) (k : Nat) : GoodR h (rt.drop k) :=
  ⟨g.1, fun q hq => g.2 q (List.mem_of_mem_drop hq)⟩

/-- Split characters, left to right. -/
def splitToks : List (Nat × Bytes) → Bytes × List SepLabel
  | [] => ([], [])
  | t :: ts =>
    let p := splitToks ts
    if t.1 ∈ separators then ([], (t.1, p.1) :: p.2) else (t.2 ++ p.1, p.2)

/-- Split a host: first label, separated labels from right to left. -/
def hostSplit (s : Bytes) : Bytes × List SepLabel :=
  ((splitToks (toks s)).1, (splitToks (toks s)).2.reverse)

theorem joinR_append (h : Bytes) (a b : List SepLabel) : joinR h (a ++ b) = joinR (joinR h b) a := by
  induction a with
  | nil => rfl
  | cons p a ih => obtain ⟨s, l⟩ := p; simp [joinR, ih]

theorem joinR_prepend (x h : Bytes) (r : List SepLabel) : joinR (x ++ h) r = x ++ joinR h r := by
  induction r with
  | nil => rfl
  | cons p r ih => obtain ⟨s, l⟩ := p; simp [joinR, ih]

theorem splitToks_join (ts : List (Nat × Bytes)) (ht : ∀ t ∈ ts, IsTok t) :
    joinR (splitToks ts).1 (splitToks ts).2.reverse = flat ts := by
  induction ts with
  | nil => rfl
  | cons t ts ih =>
    have ih := ih (fun u hu => ht u (by simp [hu]))
    rw [splitToks, flat_cons, ← ih]
    split
    · rename_i h
      have := isTok_inSet goodSet_separators (ht t (by simp)) h
      simp only [List.reverse_cons, joinR_append, joinR, List.nil_append]
      rw [joinR_prepend]
      congr 1
      rw [this]
    · simp only [joinR_prepend]

theorem hostSplit_join (s : Bytes) : joinR (hostSplit s).1 (hostSplit s).2 = s := by
  rw [hostSplit, splitToks_join _ (fun t h => isTok_of_mem h), flat_toks]

theorem freeOf_nil {set} (hg : GoodSet set) : FreeOf set [] := by
  rw [freeOf_iff hg]; simp

theorem splitToks_good {s : Bytes} (ts : List (Nat × Bytes)) (A) (h : toks s = A ++ ts) :
    FreeOf separators (splitToks ts).1 ∧
      ∀ p ∈ (splitToks ts).2, p.1 ∈ separators ∧ FreeOf separators p.2 := by
  -- the first label is the run of characters up to the first separator
  have key : ∀ (ts A : List (Nat × Bytes)), toks s = A ++ ts →
      ∃ B C, ts = B ++ C ∧ (splitToks ts).1 = flat B ∧ ∀ t ∈ B, t.1 ∉ separators := by
    intro ts
    induction ts with
    | nil => intro A _; exact ⟨[], [], rfl, rfl, by simp⟩
    | cons t ts ih =>
      intro A hA
      obtain ⟨B, C, h1, h2, h3⟩ := ih (A ++ [t]) (by rw [hA]; simp)
      rw [splitToks]
      split
      · exact ⟨[], t :: ts, rfl, rfl, by simp⟩
      · rename_i hn
        refine ⟨t :: B, C, by rw [h1]; rfl, by simp [h2], ?_⟩
        intro u hu
        rcases List.mem_cons.1 hu with rfl | hu
        · exact hn
        · exact h3 u hu
  have free : ∀ (ts A : List (Nat × Bytes)), toks s = A ++ ts → FreeOf separators (splitToks ts).1 := by
    intro ts A hA
    obtain ⟨B, C, h1, h2, h3⟩ := key ts A hA
    rw [h2, freeOf_iff goodSet_separators]
    have hsub := (toks_flat_split hA).2
    rw [h1] at hsub
    have := (toks_flat_split hsub).1
    rw [this]; exact h3
  induction ts generalizing A with
  | nil => exact ⟨free [] A h, by simp [splitToks]⟩
  | cons t ts ih =>
    refine ⟨free _ A h, ?_⟩
    have hi := ih (A ++ [t]) (by rw [h]; simp)
    rw [splitToks]
    split
    · rename_i hm
      intro p hp
      rcases List.mem_cons.1 hp with rfl | hp
      · exact ⟨hm, hi.1⟩
      · exact hi.2 p hp
    · exact hi.2

theorem hostSplit_good (s : Bytes) : GoodR (hostSplit s).1 (hostSplit s).2 := by
  have := splitToks_good (s := s) (toks s) [] rfl
  exact ⟨this.1, fun p hp => this.2 p (by simpa [hostSplit] using hp)⟩

theorem splitToks_free_append (B ts : List (Nat × Bytes)) (hB : ∀ t ∈ B, t.1 ∉ separators) :
    splitToks (B ++ ts) = (flat B ++ (splitToks ts).1, (splitToks ts).2) := by
  induction B with
  | nil => simp
  | cons t B ih =>
    rw [List.cons_append, splitToks, ih (fun u hu => hB u (by simp [hu]))]
    simp [hB t (by simp)]

/-- Splitting a host given as labels gives these labels back. -/
theorem hostSplit_joinR {h : Bytes} {rt : List SepLabel} (g : GoodR h rt) :
    hostSplit (joinR h rt) = (h, rt) := by
  -- left to right
  have key : ∀ (lr : List SepLabel) (h : Bytes), FreeOf separators h →
      (∀ p ∈ lr, p.1 ∈ separators ∧ FreeOf separators p.2) →
      splitToks (toks (joinR h lr.reverse)) = (h, lr) := by
    intro lr
    induction lr with
    | nil =>
      intro h hf _
      have := splitToks_free_append (toks h) [] (by rwa [freeOf_iff goodSet_separators] at hf)
      simpa [splitToks, joinR] using this
    | cons p lr ih =>
      obtain ⟨s, l⟩ := p
      intro h hf hp
      have hs := hp (s, l) (by simp)
      have e : joinR h ((s, l) :: lr).reverse = h ++ encode s ++ joinR l lr.reverse := by
        simp only [List.reverse_cons, joinR_append, joinR]
        rw [joinR_prepend]
      rw [e, toks_append_encode h (goodSet_separators s hs.1).1,
        splitToks_free_append _ _ (by rwa [freeOf_iff goodSet_separators] at hf), flat_toks, splitToks]
      rw [ih l hs.2 (fun q hq => hp q (by simp [hq]))]
      simp [hs.1]
  have := key rt.reverse h g.1 (fun p hp => g.2 p (by simpa using hp))
  rw [List.reverse_reverse] at this
  rw [hostSplit, this]; simp

/-- Label number `k` from the right; number `rt.length` is the first label. -/
def lab (h : Bytes) (rt : List SepLabel) (k : Nat) : Bytes :=
  match rt.drop k with
  | [] => h
  | p :: _ => p.2

/-- Everything up to and including label `k`. -/
def pre (h : Bytes) (rt : List SepLabel) (k : Nat) : Bytes := joinR h (rt.drop k)

/-- Labels `b-1` down to `a` with the separators between them (`a < b`). -/
def seg (h : Bytes) (rt : List SepLabel) (a b : Nat) : Bytes :=
  joinR (lab h rt (b - 1)) ((rt.drop a).take (b - 1 - a))

theorem pre_zero (h rt) : pre h rt 0 = joinR h rt := rfl

theorem lab_cons {h rt k s l r} (hd : rt.drop k = (s, l) :: r) : lab h rt k = l := by
  simp [lab, hd]

theorem drop_succ_of {rt : List SepLabel} {k p r} (hd : rt.drop k = p :: r) : rt.drop (k + 1) = r := by
  have := congrArg (List.drop 1) hd
  simpa [List.drop_drop, Nat.add_comm] using this

theorem drop_lt_of {rt : List SepLabel} {k p r} (hd : rt.drop k = p :: r) : k < rt.length := by
  rcases Nat.lt_or_ge k rt.length with h | h
  · exact h
  · rw [List.drop_eq_nil_of_le h] at hd; simp at hd

theorem exists_drop_of_lt {rt : List SepLabel} {k : Nat} (h : k < rt.length) :
    ∃ s l, rt.drop k = (s, l) :: rt.drop (k + 1) := by
  refine ⟨rt[k].1, rt[k].2, ?_⟩
  rw [List.drop_eq_getElem_cons h]

theorem lab_eq_head {h rt k} (hk : rt.length ≤ k) : lab h rt k = h := by
  simp [lab, List.drop_eq_nil_of_le hk]

theorem pre_eq_head {h rt k} (hk : rt.length ≤ k) : pre h rt k = h := by
  simp [pre, List.drop_eq_nil_of_le hk, joinR]

/-- The text up to label `k` ends with labels `b..k`. -/
theorem pre_split {h rt a b} (hab : a < b) (hb : b ≤ rt.length) :
    ∃ s, s ∈ (rt.map Prod.fst) ∧ rt.drop (b - 1) = (s, lab h rt (b - 1)) :: rt.drop b ∧
      pre h rt a = pre h rt b ++ encode s ++ seg h rt a b := by
  obtain ⟨s, l, hd⟩ := exists_drop_of_lt (rt := rt) (k := b - 1) (by omega)
  have e1 : b - 1 + 1 = b := by omega
  rw [e1] at hd
  have hl := lab_cons (h := h) hd
  refine ⟨s, ?_, by rw [hl]; exact hd, ?_⟩
  · have : (s, l) ∈ rt := List.mem_of_mem_drop (i := b - 1) (by rw [hd]; simp)
    exact List.mem_map.2 ⟨_, this, rfl⟩
  · have hsplit : rt.drop a = (rt.drop a).take (b - 1 - a) ++ rt.drop (b - 1) := by
      have := (List.take_append_drop (b - 1 - a) (rt.drop a)).symm
      rwa [List.drop_drop, show a + (b - 1 - a) = b - 1 by omega] at this
    unfold pre seg
    rw [hsplit, joinR_append, hd, hl]
    simp only [joinR]
    rw [joinR_prepend]
    congr 2
    have : ((rt.drop a).take (b - 1 - a) ++ (s, l) :: rt.drop b).take (b - 1 - a)
        = (rt.drop a).take (b - 1 - a) := by
      rw [List.take_append_of_le_length]
      · rw [List.take_take]; simp
      · simp; omega
    rw [this]

/-- All the labels: everything. -/
theorem seg_all {h rt a} : seg h rt a (rt.length + 1) = pre h rt a := by
  unfold seg pre
  rw [show rt.length + 1 - 1 = rt.length by omega, lab_eq_head (Nat.le_refl _)]
  congr 1
  rw [List.take_of_length_le]
  simp

theorem seg_one {h rt a} : seg h rt a (a + 1) = lab h rt a := by
  simp [seg, joinR]

/-- Labels `b..a` are label `b`, a separator, labels `b-1..a`. -/
theorem seg_succ {h rt a b} (hab : a < b) (hb : b ≤ rt.length) :
    ∃ s, s ∈ (rt.map Prod.fst) ∧ seg h rt a (b + 1) = lab h rt b ++ encode s ++ seg h rt a b := by
  obtain ⟨s, hs, hd, -⟩ := pre_split (h := h) hab hb
  refine ⟨s, hs, ?_⟩
  unfold seg
  have e : (rt.drop a).take (b + 1 - 1 - a) = (rt.drop a).take (b - 1 - a) ++ [(s, lab h rt (b - 1))] := by
    have h1 : b + 1 - 1 - a = (b - 1 - a) + 1 := by omega
    rw [h1, List.take_add_one]
    congr 1
    rw [List.getElem?_drop, show a + (b - 1 - a) = b - 1 by omega]
    have := congrArg List.head? hd
    rw [List.head?_drop] at this
    rw [this]; rfl
  rw [e, joinR_append, show b + 1 - 1 = b by omega]
  simp only [joinR]
  rw [joinR_prepend]

/-- Byte offset of the end of label `k`; `-1` past the first label. -/
def pos (h : Bytes) (rt : List SepLabel) (k : Nat) : Int :=
  if k ≤ rt.length then ((pre h rt k).length : Int) else -1

theorem pos_le {h rt k} (hk : k ≤ rt.length) : pos h rt k = (pre h rt k).length := by
  simp [pos, hk]

theorem pos_gt {h rt k} (hk : rt.length < k) : pos h rt k = -1 := by
  simp [pos]; omega

theorem pos_zero (h rt) : pos h rt 0 = (joinR h rt).length := by
  rw [pos_le (Nat.zero_le _), pre_zero]

theorem pre_prefix {h rt a b} (hab : a ≤ b) (hb : b ≤ rt.length) :
    ∃ z, pre h rt a = pre h rt b ++ z := by
  rcases Nat.lt_or_ge a b with h1 | h1
  · obtain ⟨s, -, -, h2⟩ := pre_split (h := h) h1 hb
    exact ⟨encode s ++ seg h rt a b, by rw [h2]; simp⟩
  · have : a = b := by omega
    subst this; exact ⟨[], by simp⟩

theorem pre_length_lt {h rt a b} (hab : a < b) (hb : b ≤ rt.length) :
    (pre h rt b).length < (pre h rt a).length := by
  obtain ⟨s, -, -, h2⟩ := pre_split (h := h) hab hb
  have := encode_length s
  rw [h2]; simp; omega

/-- `netloc[:pos k]`. -/
theorem slice_pre {h rt k} (hk : k ≤ rt.length) :
    slice (joinR h rt) 0 (pos h rt k) = .ok (pre h rt k) := by
  obtain ⟨z, hz⟩ := pre_prefix (h := h) (Nat.zero_le k) hk
  rw [pre_zero] at hz
  exact slice_prefix hz (pos_le hk)

theorem sepSize_encode {s : Nat} (hs : s ∈ separators) :
    ∃ b t, encode s = b :: t ∧ sepSize b = (encode s).length := by
  simp [separators] at hs
  rcases hs with rfl | rfl | rfl | rfl
  · exact ⟨46, [], by decide, by decide⟩
  · exact ⟨0xE3, [0x80, 0x82], by decide, by decide⟩
  · exact ⟨0xEF, [0xBC, 0x8E], by decide, by decide⟩
  · exact ⟨0xEF, [0xBD, 0xA1], by decide, by decide⟩

/-- `netloc[pos b]` is a separator's first byte, and the text from there to `pos a` is labels `b-1..a`. -/
theorem index_sep {h rt a b} (g : GoodR h rt) (hab : a < b) (hb : b ≤ rt.length) :
    ∃ c, index (joinR h rt) (pos h rt b) = .ok c ∧
      slice (joinR h rt) (pos h rt b + sepSize c) (pos h rt a) = .ok (seg h rt a b) := by
  obtain ⟨s, hs, hd, h2⟩ := pre_split (h := h) hab hb
  have hsm : s ∈ separators := by
    have : (s, lab h rt (b - 1)) ∈ rt := List.mem_of_mem_drop (i := b - 1) (by rw [hd]; simp)
    exact (g.2 _ this).1
  obtain ⟨c, t, hc, hsz⟩ := sepSize_encode hsm
  obtain ⟨z, hz⟩ := pre_prefix (h := h) (Nat.zero_le a) (rt := rt) (by omega)
  rw [pre_zero] at hz
  refine ⟨c, ?_, ?_⟩
  · refine index_eq (a := pre h rt b) (c := t ++ seg h rt a b ++ z) ?_ (pos_le hb)
    rw [hz, h2, hc]; simp
  · refine slice_eq (a := pre h rt b ++ encode s) (c := z) ?_ ?_ ?_
    · rw [hz, h2]
    · rw [pos_le hb, hsz]; simp
    · rw [pos_le (by omega), h2]; simp; omega

/-- Last separator of the text up to label `k`. -/
theorem lastIndexAny_pre {h rt k} (g : GoodR h rt) (hk : k ≤ rt.length) :
    lastIndexAny (pre h rt k) separators = .ok (pos h rt (k + 1)) := by
  rcases Nat.lt_or_ge k rt.length with hlt | hge
  · obtain ⟨s, l, hd⟩ := exists_drop_of_lt hlt
    have hp := g.2 (s, l) (List.mem_of_mem_drop (i := k) (by rw [hd]; simp))
    have e : pre h rt k = pre h rt (k + 1) ++ encode s ++ l := by
      unfold pre; rw [hd, joinR]
    have ht := toks_append_encode (pre h rt (k + 1)) (goodSet_separators s hp.1).1 l
    rw [← e] at ht
    have := lastIndexAny_some (set := separators) ht (by rw [inSet_iff]; exact hp.1)
      (fun t ht => by
        rw [inSet_false_iff]
        exact (freeOf_iff goodSet_separators).1 hp.2 t ht)
    rw [this, flat_toks, pos_le (by omega)]
  · rw [pre_eq_head hge, pos_gt (by omega)]
    exact lastIndexAny_none (fun t ht => by
      rw [inSet_false_iff]; exact (freeOf_iff goodSet_separators).1 g.1 t ht)

end Fasttld
