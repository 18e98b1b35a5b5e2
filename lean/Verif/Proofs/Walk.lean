import Verif.Proofs.Labels
import Verif.Proofs.Net
import Verif.Model.Extract

/-!
# The suffix loop on label lists
-/

set_option linter.unusedSimpArgs false

namespace Fasttld
open Spec

/-- Result of the walk, as label numbers from the right.  `endK`: where the suffix ends, if there is
one; `prev`: the last label looked at; `start`: number of labels matched by trie nodes; `sep`: the
label before the suffix. -/
structure Out where
  endK : Option Nat
  prev : Nat
  start : Nat
  sep : Nat
  deriving DecidableEq, Repr

/-- One label: the walk ends, or goes on at a child node. -/
inductive LabelStep
  | stop (o : Out)
  | next (val : Trie) (endK : Option Nat)

/-- What happens at label `l`, number `k`. -/
def labelL (node : Trie) (l : Bytes) (isLast : Bool) (k : Nat) (endK : Option Nat) : LabelStep :=
  match node.get (b! "*") with
  | some _ => .stop ⟨endK, k, k, if (node.get (33 :: l)).isSome then k else k + 1⟩
  | none =>
    match node.get (unescapeOrEmpty l) with
    | none => .stop ⟨endK, k, k, k⟩
    | some val =>
      let endK' := if endK = none ∧ val.isEnd = true then some k else endK
      if val.kids.length = 0 ∨ isLast = true then .stop ⟨endK', k, k + 1, k + 1⟩
      else .next val endK'

/-- The walk over the labels from the right, first label last; `k` is the number of the label.
`none`: an empty label before the first one. -/
def walkL : Trie → List Bytes → (k : Nat) → (endK : Option Nat) → Option Out
  | _, [], k, endK => some ⟨endK, k, k, k⟩
  | node, l :: ls, k, endK =>
    if l = [] ∧ ls ≠ [] then none
    else
      match labelL node l ls.isEmpty k endK with
      | .stop o => some o
      | .next val endK' => walkL val ls (k + 1) endK'

/-- Labels from the right, starting with number `k`. -/
def labels (h : Bytes) (rt : List SepLabel) (k : Nat) : List Bytes := (rt.drop k).map Prod.snd ++ [h]

/-- How the variables of the loop represent the result; `e0` is the end index if there is no suffix. -/
def WalkRel (h : Bytes) (rt : List SepLabel) (e0 : Int) (w : Walk) (o : Out) : Prop :=
  w.hasSuffix = o.endK.isSome ∧ w.previousSepIdx = pos h rt o.prev ∧
  (∀ e, o.endK = some e → w.suffixEndIdx = pos h rt e ∧ w.suffixStartIdx = pos h rt o.start ∧
    w.sepIdx = pos h rt o.sep) ∧
  (o.endK = none → w.suffixEndIdx = e0)

theorem joinR_ne_pos {h rt k} (hk : k ≤ rt.length) (h0 : k ≠ 0) :
    pos h rt k ≠ ((joinR h rt).length : Int) := by
  have := pre_length_lt (h := h) (a := 0) (b := k) (rt := rt) (by omega) hk
  rw [pre_zero] at this
  rw [pos_le hk]; omega

/-- One iteration at the first label. -/
theorem walkLoop_last {h : Bytes} {rt : List SepLabel} (g : GoodR h rt) (u : ExtractResult) {k : Nat}
    (hk : k = rt.length) (fuel : Nat) (node : Trie) (hl : Bool) (w : Walk) (hw : w.sepIdx = pos h rt k) :
    walkLoop (joinR h rt) u (fuel + 1) node hl w =
      walkLabel (joinR h rt) node h true { w with previousSepIdx := pos h rt k, sepIdx := -1 }
        (fun _ w => .ok w) := by
  rw [walkLoop]
  have h1 : slice (joinR h rt) 0 w.sepIdx = .ok (pre h rt k) := by rw [hw]; exact slice_pre (by omega)
  have h2 := lastIndexAny_pre g (k := k) (by omega)
  rw [pos_gt (by omega)] at h2
  simp only [h1, labelSeparators_eq, h2, liftGo, bind_ok]
  rw [if_neg (by simp), pre_eq_head (by omega), hw]

/-- One iteration at another label. -/
theorem walkLoop_step {h : Bytes} {rt : List SepLabel} (g : GoodR h rt) (u : ExtractResult) {k : Nat}
    (hk : k < rt.length) (fuel : Nat) (node : Trie) (hl : Bool) (w : Walk) (hw : w.sepIdx = pos h rt k) :
    walkLoop (joinR h rt) u (fuel + 1) node hl w =
      if (lab h rt k).length = 0 then
        if !hl then
          walkLoop (joinR h rt) u fuel node hl
            { w with previousSepIdx := pos h rt k, sepIdx := pos h rt (k + 1), suffixEndIdx := pos h rt (k + 1) }
        else fail u .consecutiveSeparators
      else
        walkLabel (joinR h rt) node (lab h rt k) false
          { w with previousSepIdx := pos h rt k, sepIdx := pos h rt (k + 1) }
          (fun node w => walkLoop (joinR h rt) u fuel node true w) := by
  rw [walkLoop]
  have h1 : slice (joinR h rt) 0 w.sepIdx = .ok (pre h rt k) := by rw [hw]; exact slice_pre (by omega)
  have h2 := lastIndexAny_pre g (k := k) (by omega)
  obtain ⟨c, hc1, hc2⟩ := index_sep g (show k < k + 1 by omega) (show k + 1 ≤ rt.length by omega)
  rw [seg_one] at hc2
  have hpne : pos h rt (k + 1) ≠ -1 := by rw [pos_le (by omega)]; omega
  simp only [h1, labelSeparators_eq, h2, liftGo, bind_ok]
  rw [if_pos hpne]
  simp only [hc1, hw, hc2, bind_ok]

/-- The label part of an iteration. -/
theorem walkLabel_eq {h : Bytes} {rt : List SepLabel} {e0 : Int} {k : Nat} (hk : k ≤ rt.length)
    (node : Trie) (l : Bytes) (isLast : Bool) (w : Walk) (endK : Option Nat) (cont : Trie → Walk → M Walk)
    (hp : w.previousSepIdx = pos h rt k) (hw1 : w.sepIdx = pos h rt (k + 1))
    (hw2 : w.hasSuffix = endK.isSome)
    (hw3 : ∀ e, endK = some e → w.suffixEndIdx = pos h rt e ∧ w.suffixStartIdx = pos h rt k ∧ k ≠ 0)
    (hw4 : endK = none → w.suffixEndIdx = e0) :
    match labelL node l isLast k endK with
    | .stop o => ∃ w', walkLabel (joinR h rt) node l isLast w cont = .ok w' ∧ WalkRel h rt e0 w' o
    | .next val endK' => isLast = false ∧ ∃ w', walkLabel (joinR h rt) node l isLast w cont = cont val w' ∧
        w'.sepIdx = pos h rt (k + 1) ∧ w'.hasSuffix = endK'.isSome ∧
        (∀ e, endK' = some e → w'.suffixEndIdx = pos h rt e ∧ w'.suffixStartIdx = pos h rt (k + 1) ∧ k + 1 ≠ 0) ∧
        (endK' = none → w'.suffixEndIdx = e0) := by
  unfold labelL walkLabel
  cases hs : node.get (b! "*") with
  | some x =>
    simp only
    cases he : node.get (33 :: l) with
    | some y =>
      simp only [Option.isSome_some, if_true]
      exact ⟨_, rfl, hw2, hp, fun e he => ⟨(hw3 e he).1, (hw3 e he).2.1, hp⟩, hw4⟩
    | none =>
      exact ⟨_, rfl, hw2, hp, fun e he => ⟨(hw3 e he).1, (hw3 e he).2.1, hw1⟩, hw4⟩
  | none =>
    simp only
    cases hv : node.get (unescapeOrEmpty l) with
    | none =>
      simp only
      by_cases hk0 : k = 0
      · subst hk0
        rw [hp, pos_zero, if_neg (by simp)]
        exact ⟨_, rfl, hw2, hp, fun e he => absurd rfl (hw3 e he).2.2, hw4⟩
      · rw [hp, if_pos (joinR_ne_pos hk hk0)]
        exact ⟨_, rfl, hw2, rfl, fun e he => ⟨(hw3 e he).1, (hw3 e he).2.1, rfl⟩, hw4⟩
    | some val =>
      simp only
      -- the new end of the suffix
      generalize hw' : (if (!w.hasSuffix && val.isEnd) = true then
          { hasSuffix := true, previousSepIdx := w.previousSepIdx, sepIdx := w.sepIdx,
            suffixStartIdx := w.sepIdx, suffixEndIdx := w.previousSepIdx : Walk }
        else
          { hasSuffix := w.hasSuffix, previousSepIdx := w.previousSepIdx, sepIdx := w.sepIdx,
            suffixStartIdx := w.sepIdx, suffixEndIdx := w.suffixEndIdx }) = w'
      generalize hk' : (if endK = none ∧ val.isEnd = true then some k else endK) = endK'
      have hall : w'.previousSepIdx = pos h rt k ∧ w'.sepIdx = pos h rt (k + 1) ∧
          w'.suffixStartIdx = pos h rt (k + 1) ∧ w'.hasSuffix = endK'.isSome ∧
          (∀ e, endK' = some e → w'.suffixEndIdx = pos h rt e) ∧ (endK' = none → w'.suffixEndIdx = e0) := by
        subst hw' hk'
        cases endK with
        | some e =>
          have : w.hasSuffix = true := by simpa using hw2
          rw [if_neg (by simp [this]), if_neg (by simp)]
          exact ⟨hp, hw1, hw1, hw2, fun e' he' => (hw3 e' he').1, by simp⟩
        | none =>
          have : w.hasSuffix = false := by simpa using hw2
          by_cases hen : val.isEnd = true
          · rw [if_pos (by simp [this, hen]), if_pos ⟨rfl, hen⟩]
            refine ⟨hp, hw1, hw1, rfl, ?_, by simp⟩
            intro e' he'
            injection he' with he'; subst he'; exact hp
          · rw [if_neg (by simp [hen]), if_neg (by simp [hen])]
            exact ⟨hp, hw1, hw1, hw2, by simp, hw4⟩
      obtain ⟨a1, a2, a3, a4, a5, a6⟩ := hall
      have hstop : WalkRel h rt e0 w' ⟨endK', k, k + 1, k + 1⟩ := ⟨a4, a1, fun e he => ⟨a5 e he, a3, a2⟩, a6⟩
      by_cases hleaf : val.kids.length = 0
      · rw [if_pos (.inl hleaf), if_pos hleaf]
        exact ⟨w', rfl, hstop⟩
      · rw [if_neg hleaf]
        cases isLast with
        | true =>
          rw [if_pos (.inr rfl), if_pos rfl]
          exact ⟨w', rfl, hstop⟩
        | false =>
          rw [if_neg (by simp [hleaf]), if_neg (by simp)]
          exact ⟨rfl, w', rfl, a2, a4, fun e he => ⟨a5 e he, a3, by omega⟩, a6⟩

theorem walkLoop_eq {h : Bytes} {rt : List SepLabel} (g : GoodR h rt) (u : ExtractResult) (e0 : Int)
    (r : Nat) (k : Nat) (hr : rt.length = r + k) (fuel : Nat) (hf : r < fuel) (node : Trie)
    (hasLabels : Bool) (w : Walk) (endK : Option Nat)
    (hhl : hasLabels = true ∨ labels h rt k = [h] ∨ lab h rt k ≠ [])
    (hw1 : w.sepIdx = pos h rt k) (hw2 : w.hasSuffix = endK.isSome)
    (hw3 : ∀ e, endK = some e → w.suffixEndIdx = pos h rt e ∧ w.suffixStartIdx = pos h rt k ∧ k ≠ 0)
    (hw4 : endK = none → w.suffixEndIdx = e0) :
    match walkL node (labels h rt k) k endK with
    | none => walkLoop (joinR h rt) u fuel node hasLabels w = fail u .consecutiveSeparators
    | some o => ∃ w', walkLoop (joinR h rt) u fuel node hasLabels w = .ok w' ∧ WalkRel h rt e0 w' o := by
  induction r generalizing k fuel node hasLabels w endK with
  | zero =>
    obtain ⟨fuel, rfl⟩ : ∃ f, fuel = f + 1 := ⟨fuel - 1, by omega⟩
    have hl : labels h rt k = [h] := by simp [labels, List.drop_eq_nil_of_le (show rt.length ≤ k by omega)]
    rw [hl, walkL, walkLoop_last g u (by omega) fuel node hasLabels w hw1, if_neg (by simp)]
    have := walkLabel_eq (h := h) (rt := rt) (e0 := e0) (k := k) (by omega) node h true
      { w with previousSepIdx := pos h rt k, sepIdx := -1 } endK (fun _ w => .ok w) rfl
      (by simp [pos_gt (show rt.length < k + 1 by omega)]) hw2 hw3 hw4
    rw [List.isEmpty_nil]
    cases hL : labelL node h true k endK with
    | stop o => rw [hL] at this; exact this
    | next val e => rw [hL] at this; simp at this
  | succ r ih =>
    obtain ⟨fuel, rfl⟩ : ∃ f, fuel = f + 1 := ⟨fuel - 1, by omega⟩
    have hklt : k < rt.length := by omega
    obtain ⟨s, l, hd⟩ := exists_drop_of_lt hklt
    have hlab := lab_cons (h := h) hd
    have hl : labels h rt k = l :: labels h rt (k + 1) := by simp [labels, hd]
    have hne : labels h rt (k + 1) ≠ [] := by simp [labels]
    rw [hl, walkL, walkLoop_step g u hklt fuel node hasLabels w hw1, hlab]
    by_cases hle : l = []
    · rw [if_pos ⟨hle, hne⟩]
      simp only
      rw [if_pos (by simp [hle])]
      rcases hhl with h1 | h1 | h1
      · simp [h1]
      · exact absurd h1 (by rw [hl]; intro h2; injection h2 with _ h3; exact hne h3)
      · exact absurd (hlab.trans hle) h1
    · rw [if_neg (by simp [hle]), if_neg (by simp [hle])]
      have := walkLabel_eq (h := h) (rt := rt) (e0 := e0) (k := k) (by omega) node l false
        { w with previousSepIdx := pos h rt k, sepIdx := pos h rt (k + 1) } endK
        (fun node w => walkLoop (joinR h rt) u fuel node true w) rfl rfl hw2 hw3 hw4
      rw [show (labels h rt (k + 1)).isEmpty = false by simpa using hne]
      cases hL : labelL node l false k endK with
      | stop o => rw [hL] at this; exact this
      | next val e =>
        rw [hL] at this
        obtain ⟨-, w', h1, h2, h3, h4, h5⟩ := this
        simp only
        rw [h1]
        exact ih (k + 1) (by omega) fuel (by omega) val true w' _ (.inl rfl) h2 h3 h4 h5

/-- Number of empty labels at the right end. -/
def leadEmpty : List SepLabel → Nat
  | [] => 0
  | (_, l) :: r => if l = [] then leadEmpty r + 1 else 0

theorem leadEmpty_le (rt : List SepLabel) : leadEmpty rt ≤ rt.length := by
  induction rt with
  | nil => simp [leadEmpty]
  | cons p r ih => obtain ⟨s, l⟩ := p; simp only [leadEmpty]; split <;> simp <;> omega

/-- The labels skipped are empty, the next one is not (unless it is the first label). -/
theorem leadEmpty_spec (h : Bytes) (rt : List SepLabel) :
    (∀ p ∈ rt.take (leadEmpty rt), p.2 = []) ∧
    (labels h rt (leadEmpty rt) = [h] ∨ lab h rt (leadEmpty rt) ≠ []) := by
  induction rt with
  | nil => simp [leadEmpty, labels]
  | cons p r ih =>
    obtain ⟨s, l⟩ := p
    simp only [leadEmpty]
    split
    · rename_i hl
      refine ⟨?_, ?_⟩
      · simp only [List.take_succ_cons, List.mem_cons]
        rintro p (rfl | hp)
        · exact hl
        · exact ih.1 p hp
      · simpa [labels, lab] using ih.2
    · rename_i hl
      exact ⟨by simp, .inr (by simpa [lab] using hl)⟩

/-- The walk from the right end of a host. -/
theorem walkLoop_start {h : Bytes} {rt : List SepLabel} (g : GoodR h rt) (u : ExtractResult) (trie : Trie) :
    match walkL trie (labels h rt (leadEmpty rt)) (leadEmpty rt) none with
    | none => walkLoop (joinR h rt) u ((joinR h rt).length + 2) trie false
        { hasSuffix := false, previousSepIdx := 0, sepIdx := (joinR h rt).length,
          suffixStartIdx := (joinR h rt).length, suffixEndIdx := (joinR h rt).length }
          = fail u .consecutiveSeparators
    | some o => ∃ w', walkLoop (joinR h rt) u ((joinR h rt).length + 2) trie false
        { hasSuffix := false, previousSepIdx := 0, sepIdx := (joinR h rt).length,
          suffixStartIdx := (joinR h rt).length, suffixEndIdx := (joinR h rt).length } = .ok w' ∧
        WalkRel h rt (pos h rt (leadEmpty rt)) w' o := by
  -- skip the empty labels one by one
  have skip : ∀ (j k : Nat), k + j = leadEmpty rt → ∀ fuel, rt.length - k < fuel → ∀ w : Walk,
      w.hasSuffix = false → w.sepIdx = pos h rt k → w.suffixEndIdx = pos h rt k →
      ∃ w2 : Walk, ∃ fuel2, rt.length - leadEmpty rt < fuel2 ∧ w2.hasSuffix = false ∧
        w2.sepIdx = pos h rt (leadEmpty rt) ∧
        w2.suffixEndIdx = pos h rt (leadEmpty rt) ∧
        walkLoop (joinR h rt) u fuel trie false w = walkLoop (joinR h rt) u fuel2 trie false w2 := by
    intro j
    induction j with
    | zero =>
      intro k hk fuel hf w h1 h2 h3
      simp at hk; subst hk
      exact ⟨w, fuel, hf, h1, h2, h3, rfl⟩
    | succ j ih =>
      intro k hk fuel hf w h1 h2 h3
      have hle := leadEmpty_le rt
      have hklt : k < rt.length := by omega
      obtain ⟨fuel, rfl⟩ : ∃ f, fuel = f + 1 := ⟨fuel - 1, by omega⟩
      obtain ⟨s, l, hd⟩ := exists_drop_of_lt hklt
      have hl : l = [] := by
        have hm : (s, l) ∈ rt.take (leadEmpty rt) := by
          have e : rt = rt.take k ++ rt.drop k := (List.take_append_drop k rt).symm
          rw [hd] at e
          rw [List.mem_take_iff_getElem]
          refine ⟨k, by omega, ?_⟩
          have := congrArg List.head? hd
          rw [List.head?_drop, List.getElem?_eq_getElem hklt] at this
          simpa using this
        exact (leadEmpty_spec h rt).1 _ hm
      have hlab := lab_cons (h := h) hd
      rw [walkLoop_step g u hklt fuel trie false w h2, hlab, if_pos (by simp [hl]), if_pos (by simp)]
      obtain ⟨w2, f2, q1, q2, q3, q4, q5⟩ := ih (k + 1) (by omega) fuel (by omega)
        { w with previousSepIdx := pos h rt k, sepIdx := pos h rt (k + 1), suffixEndIdx := pos h rt (k + 1) }
        h1 rfl rfl
      exact ⟨w2, f2, q1, q2, q3, q4, q5⟩
  have hlen : rt.length ≤ (joinR h rt).length := by
    have : ∀ r : List SepLabel, r.length ≤ (joinR h r).length := by
      intro r
      induction r with
      | nil => simp
      | cons p r ih =>
        obtain ⟨s, l⟩ := p
        have := encode_length s
        simp [joinR]; omega
    exact this rt
  obtain ⟨w2, f2, q1, q2, q3, q4, q5⟩ := skip (leadEmpty rt) 0 (by omega) ((joinR h rt).length + 2) (by omega)
    { hasSuffix := false, previousSepIdx := 0, sepIdx := (joinR h rt).length,
      suffixStartIdx := (joinR h rt).length, suffixEndIdx := (joinR h rt).length } rfl
    (by rw [pos_zero]) (by rw [pos_zero])
  rw [q5]
  have hle := leadEmpty_le rt
  exact walkLoop_eq g u (pos h rt (leadEmpty rt)) (rt.length - leadEmpty rt) (leadEmpty rt) (by omega) f2 q1 trie false
    w2 none (.inr (leadEmpty_spec h rt).2) q3 (by simp [q2]) (by simp) (fun _ => q4)

end Fasttld
