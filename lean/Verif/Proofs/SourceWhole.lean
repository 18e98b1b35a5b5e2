import Verif.Proofs.SourceHost

/-!
# Running the text of Extract: the loop over the labels, the names, the whole
-/

set_option linter.unusedSimpArgs false

namespace Fasttld.GoLang
open Fasttld

variable {w : Nat} {idna : Idna} {texts : Lib} {isPrint : Nat → Bool} {B : Int}

section
variable (f n : Nat) (t : Val) (e : URLParams) (u : ExtractResult) (s : Bytes) (o c h a x y : Val)

local notation "EX" => exec (tableCtx w idna texts isPrint) (call (tableCtx w idna texts isPrint) Source.program (f + 1)) n
local notation "LO" => loopOut (tableCtx w idna texts isPrint) (call (tableCtx w idna texts isPrint) Source.program (f + 1)) n
  (Expr.not (Expr.var 13 "end")) Stmt.skip Source.Extract_loop2

theorem loop_end (fuel : Nat) (node : Trie) (hl : Bool) (W : Walk) :
    LO (fuel + 1) (walkEnv t e u s o c h a x y (.node node) hl true W []) = .ok (.norm (walkEnv t e u s o c h a x y (.node node) hl true W [])) := by
  rw [loopOut_step]; simp

theorem loop_go (fuel : Nat) (node : Trie) (hl : Bool) (W : Walk) :
    LO (fuel + 1) (walkEnv t e u s o c h a x y (.node node) hl false W []) =
      ((EX Source.Extract_loop2 (walkEnv t e u s o c h a x y (.node node) hl false W [])).bind fun o => .ok (o.leave 18)).bind
        (Out.iterate fun vs => LO fuel vs) := by
  rw [loopOut_step]; simp

theorem tail_out (node : Trie) (hl en : Bool) (W : Walk) (l : Bytes) (L : Vars → Comp Out) (G : Out → Comp Out) (cont : Trie → Walk → M Walk)
    (k : Walk → Comp Out) (hK : ∀ node hl en W, G (.norm (walkEnv t e u s o c h a x y node hl en W [])) = k W)
    (hL : ∀ val W', (if en then .ok W' else cont val W') = walkLabel s node l en W cont →
      (L (walkEnv t e u s o c h a x y (.node val) hl en W' [])).bind G = ofM isPrint (walkLabel s node l en W cont) k) :
    ((EX walkTail (walkEnv t e u s o c h a x y (.node node) hl en W [.str l])).bind fun o =>
      ((o.leave 18).iterate L).bind G) = ofM isPrint (walkLabel s node l en W cont) k := by
  have hleave : ∀ node hl en W l, (walkEnv t e u s o c h a x y node hl en W [.str l]).take 18 = walkEnv t e u s o c h a x y node hl en W [] :=
    fun _ _ _ _ _ => rfl
  rw [exec_walkTail]
  unfold walkLabel at hL ⊢
  cases h1 : node.get (b! "*") with
  | some v =>
    cases h2 : node.get (33 :: l) <;> simp [h1, h2, hK, hleave, -walkEnv]
  | none =>
    simp only [h1] at hL ⊢
    cases h3 : node.get (unescapeOrEmpty l) with
    | none =>
      by_cases hp : W.previousSepIdx = s.length <;> simp [h1, h3, hp, hK, hleave, -walkEnv]
    | some val =>
      simp only [h3] at hL ⊢
      generalize (if (!W.hasSuffix && val.isEnd) = true then _ else _ : Walk) = W' at hL ⊢
      by_cases hk : val.kids.length = 0
      · simp only [hk, if_true]
        simp [hK, hleave, -walkEnv]
      · simp only [hk, if_false] at hL ⊢
        simp only [Except.bind, Out.leave, Out.iterate, hleave]
        exact hL val W' rfl

theorem loop_walk (hB : Big w B) (hw : 2 ^ 31 ≤ B) (hs : s.length + 4 < B) (hf : s.length + 1 ≤ f) (G : Out → Comp Out)
    (k : Walk → Comp Out) (hK : ∀ node hl en W, G (.norm (walkEnv t e u s o c h a x y node hl en W [])) = k W)
    (hR : ∀ xs, G (.ret xs) = .ok (.ret xs)) :
    ∀ m fuel node hl W, m + 1 ≤ fuel → walkLoop s u m node hl W ≠ .error (.fault .outOfFuel) →
      (LO fuel (walkEnv t e u s o c h a x y (.node node) hl false W [])).bind G = ofM isPrint (walkLoop s u m node hl W) k := by
  intro m
  induction m with
  | zero => intro fuel node hl W _ hne; exact absurd rfl hne
  | succ m ih =>
    intro fuel node hl W hm hne
    obtain ⟨fuel, rfl⟩ : ∃ z, fuel = z + 1 := ⟨fuel - 1, by omega⟩
    have hhead := exec_loopHead (idna := idna) (texts := texts) (isPrint := isPrint) f n t e u s o c h a x y walkTail hB hw hs hf (.node node) hl W
    rw [← loop2_eq] at hhead
    rw [loop_go, hhead]
    unfold walkLoop at hne ⊢
    cases hpre : slice s 0 W.sepIdx with
    | error er => simp [hpre]
    | ok pre =>
    cases hz : lastIndexAny pre labelSeparatorsRuneSet with
    | error er => simp [hpre, hz]
    | ok z =>
    by_cases hz1 : z = -1
    · subst hz1
      simp [hpre, hz, -walkEnv]
      refine tail_out f n t e u s o c h a x y node hl true _ pre _ G _ k hK fun val W' hc => ?_
      obtain ⟨fuel, rfl⟩ : ∃ z, fuel = z + 1 := ⟨fuel - 1, by omega⟩
      rw [loop_end, ← hc]
      simp [hK, -walkEnv]
    · cases hi : index s z with
      | error er => simp [hpre, hz, hz1, hi]
      | ok b =>
      cases hsl : slice s (z + sepSize b) W.sepIdx with
      | error er => simp [hpre, hz, hz1, hi, hsl]
      | ok l =>
      by_cases hn : l = []
      · subst hn
        cases hl
        · simp [hpre, hz, hz1, hi, hsl, -walkEnv]
          refine ih fuel node false _ (by omega) ?_
          simpa [hpre, hz, hz1, hi, hsl, liftGo, bind, Except.bind] using hne
        · simp [hpre, hz, hz1, hi, hsl, hR]
      · simp [hpre, hz, hz1, hi, hsl, hn, -walkEnv]
        refine tail_out f n t e u s o c h a x y node true false _ l _ G _ k hK fun val W' hc => ?_
        rw [← hc]
        refine ih fuel val true _ (by omega) ?_
        intro hbad
        apply hne
        simp only [Bool.false_eq_true, if_false] at hc
        rw [hbad] at hc
        simp [hpre, hz, hz1, hi, hsl, hn, liftGo, bind, Except.bind, ← hc]

end

end Fasttld.GoLang
