import Verif.Proofs.World

/-!
# Lists that are cut off
-/

set_option linter.unusedSimpArgs false

namespace Fasttld
open Spec

theorem splitByte_append_sep (b : UInt8) (A B : Bytes) : splitByte b (A ++ [b] ++ B) = splitByte b A ++ splitByte b B := by
  have h : A ++ [b] ++ B = List.intercalate [b] (splitByte b A ++ splitByte b B) := by
    rw [intercalate_append (splitByte_ne_nil _ _) (splitByte_ne_nil _ _), splitByte_join, splitByte_join]
  rw [h, splitByte_unique b (by simp [splitByte_ne_nil])]
  intro l hl
  rcases List.mem_append.1 hl with h | h
  · exact splitByte_free _ _ l h
  · exact splitByte_free _ _ l h

theorem splitByte_append_free (b : UInt8) (m Z : Bytes) (hm : b ∉ m) :
    ∃ w ws, splitByte b Z = w :: ws ∧ splitByte b (m ++ Z) = (m ++ w) :: ws := by
  induction m with
  | nil =>
    cases h : splitByte b Z with
    | nil => exact absurd h (splitByte_ne_nil b Z)
    | cons w ws => exact ⟨w, ws, rfl, by simpa using h⟩
  | cons c m ih =>
    simp only [List.mem_cons, not_or] at hm
    obtain ⟨w, ws, h1, h2⟩ := ih hm.2
    refine ⟨w, ws, h1, ?_⟩
    rw [List.cons_append, splitByte, if_neg (Ne.symm hm.1), h2]
    rfl

theorem mem_of_splitByte {b : UInt8} {s l : Bytes} (h : l ∈ splitByte b s) : ∀ c ∈ l, c ∈ s := by
  intro c hc
  have := splitByte_join b s
  rw [← this]
  obtain ⟨i, hi, rfl⟩ := List.getElem_of_mem h
  clear this
  generalize splitByte b s = ls at *
  induction ls generalizing i with
  | nil => simp at hi
  | cons x ls ih =>
    cases ls with
    | nil => simp at hi; subst hi; rw [intercalate_singleton]; exact hc
    | cons y ls =>
      rw [intercalate_cons_cons]
      cases i with
      | zero => simp at hc; simp [hc]
      | succ i =>
        have := ih i (by simpa using hi) (List.getElem_mem _) (by simpa using hc)
        simp [this]

/-- Bytes that are white space. -/
def IsBlank (z : Bytes) : Prop := ∀ b ∈ z, b ∈ [(9 : UInt8), 10, 13, 32]

theorem IsBlank.madeOf {z : Bytes} (h : IsBlank z) : MadeOf unicodeWhite z := by
  refine ⟨z.map UInt8.toNat, ?_, ?_⟩
  · intro c hc
    obtain ⟨b, hb, rfl⟩ := List.mem_map.1 hc
    have := h b hb
    simp only [List.mem_cons, List.not_mem_nil, or_false] at this
    rcases this with rfl | rfl | rfl | rfl <;> decide
  · induction z with
    | nil => rfl
    | cons b z ih =>
      have hb := h b (by simp)
      rw [List.map_cons, List.flatMap_cons, ← ih (fun x hx => h x (by simp [hx]))]
      simp only [List.mem_cons, List.not_mem_nil, or_false] at hb
      rcases hb with rfl | rfl | rfl | rfl <;> rfl

theorem stripped_blank {z : Bytes} (h : IsBlank z) : Stripped z [] :=
  ⟨z, [], by simp, h.madeOf, madeOf_nil _, by simp, by simp,
    fun _ r _ hp => encode_ne_nil r (List.prefix_nil.1 hp), fun _ r _ hp => encode_ne_nil r (List.suffix_nil.1 hp)⟩

theorem stripped_endMarker {z : Bytes} (h : IsBlank z) : Stripped (endMarker ++ z) endMarker :=
  ⟨[], z, by simp, madeOf_nil _, h.madeOf, by simp, by simp, by decide +kernel, by decide +kernel⟩

/-- What follows the last marker does not matter. -/
theorem parsePSL_terminated (idna : Idna) (A : Bytes) {Z Z' : Bytes} (hZ : IsBlank Z) (hZ' : IsBlank Z') :
    parsePSL idna (A ++ [10] ++ (endMarker ++ Z)) = parsePSL idna (A ++ [10] ++ (endMarker ++ Z')) := by
  have key : ∀ {Z}, IsBlank Z → (((splitByte 10 (A ++ [10] ++ (endMarker ++ Z))).map trimSpace).filter matters) =
      ((splitByte 10 A).map trimSpace).filter matters := by
    intro Z hZ
    rw [splitByte_append_sep]
    obtain ⟨w, ws, h1, h2⟩ := splitByte_append_free 10 endMarker Z (by decide)
    rw [h2]
    have hb : ∀ l ∈ w :: ws, IsBlank l := by
      rw [← h1]; intro l hl b hb; exact hZ b (mem_of_splitByte hl b hb)
    simp only [List.map_append, List.map_cons, List.filter_append, List.filter_cons]
    rw [← stripped_iff.1 (stripped_endMarker (hb w (by simp)))]
    rw [if_neg (by decide)]
    have : (List.filter matters (List.map trimSpace ws)) = [] := by
      rw [List.filter_eq_nil_iff]
      intro t ht
      obtain ⟨l, hl, rfl⟩ := List.mem_map.1 ht
      rw [← stripped_iff.1 (stripped_blank (hb l (by simp [hl])))]
      decide
    rw [this, List.append_nil]
  exact parsePSL_matters idna (strippedLines_iff.2 rfl) (strippedLines_iff.2 rfl) ((key hZ).trans (key hZ').symm)

/-- A beginning of a well-terminated list that has the section markers has all its rules. -/
theorem parsePSL_torn (idna : Idna) {body c : Bytes} (hb : WellTerminated body) (hc : c <+: body) (hm : HasMarkers c) :
    parsePSL idna c = parsePSL idna body := by
  obtain ⟨A, Z, rfl, hZ, hno⟩ := hb
  have hend : endMarker <:+: c := hm _ (by decide)
  by_cases hlen : (A ++ [10] ++ endMarker).length ≤ c.length
  · obtain ⟨Z1, rfl⟩ := List.prefix_of_prefix_length_le (List.prefix_append _ _) hc hlen
    have hZ1 : Z1 <+: Z := (List.prefix_append_right_inj _).1 hc
    have := parsePSL_terminated idna A (Z := Z1) (Z' := Z) (fun b hb => hZ b (hZ1.subset hb)) hZ
    simpa using this
  · exfalso
    apply hno
    have hx : c <+: A ++ [10] ++ endMarker.dropLast := by
      have h1 : A ++ [10] ++ endMarker.dropLast <+: A ++ [10] ++ endMarker ++ Z := by
        refine List.IsPrefix.trans ?_ (List.prefix_append _ _)
        exact (List.prefix_append_right_inj _).2 (List.dropLast_prefix _)
      refine List.prefix_of_prefix_length_le hc h1 ?_
      have : endMarker.dropLast.length + 1 = endMarker.length := by decide
      simp only [List.length_append] at hlen ⊢
      omega
    exact hend.trans hx.isInfix

theorem trieOfText_torn (idna : Idna) (inc : Bool) {body c : Bytes} (hb : WellTerminated body) (hc : c <+: body) (hm : HasMarkers c) :
    trieOfText idna inc c = trieOfText idna inc body := by
  unfold trieOfText; rw [parsePSL_torn idna hb hc hm]

/-- Writing beginnings of a list over a beginning of it gives a beginning of it. -/
theorem writeAt_prefix {c body : Bytes} (h : c <+: body) (k : Nat) : writeAt c 0 (body.take k) <+: body := by
  rw [writeAt_zero]
  obtain ⟨t, rfl⟩ := h
  by_cases hk : k ≤ c.length
  · have e1 : (c ++ t).take k = c.take k := List.take_append_of_le_length hk
    rw [e1, List.length_take, Nat.min_eq_left hk, List.take_append_drop]
    exact List.prefix_append _ _
  · have : List.drop ((c ++ t).take k).length c = [] := by
      apply List.drop_eq_nil_of_le
      simp only [List.length_take, List.length_append]; omega
    rw [this, List.append_nil]
    exact List.take_prefix _ _

theorem layered_prefix {w : World} {old c body : Bytes} (h : Layered w old c) (ho : OnlyOffers w body) (hp : old <+: body) :
    c <+: body := by
  induction h with
  | base => exact hp
  | layer k h hoff ih =>
    obtain rfl := ho _ _ hoff
    exact writeAt_prefix ih k

theorem Spec.Layered.mono {w w' : World} {old c : Bytes} (h : Layered w old c) (hm : ∀ u b, Offers w u b → Offers w' u b) :
    Layered w' old c := by
  induction h with
  | base => exact .base
  | layer k h ho ih => exact .layer k ih (hm _ _ ho)

/-- Death after `n` calls, the next one, if it is a write, having written `j` bytes. -/
def Op.tornBy : {β : Type} → Op β → Nat → World → World
  | _, .write h body, j, w => w.put h (body.take j)
  | _, _, _, w => w

def Prog.crashAt {α : Type} : Prog α → Nat → Nat → World → World
  | .ret _, _, _, w => w
  | .call o _, 0, j, w => o.tornBy j w
  | .call o k, n + 1, j, w => (k (o.answer w).1).crashAt n j (o.answer w).2

theorem crash_crashAt {α : Type} (p : Prog α) (n j : Nat) (w : World) : Crash p w (p.crashAt n j w) := by
  induction p generalizing n w with
  | ret a => exact .here _ _
  | call o k ih =>
    cases n with
    | zero =>
      cases o with
      | write h body => exact .torn ⟨j, rfl⟩
      | _ => exact .here _ _
    | succ n => exact .step (ih _ n _)

end Fasttld
