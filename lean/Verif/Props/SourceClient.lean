import Verif.Props.SourceCli
import Verif.Spec.Client
import Mathlib.Data.List.Nodup

/-!
# C87: programs that use the package, by the text

Any number of calls of New, of Extract and of Update, one after the other in one goroutine, on any number of extractors: the text of
these functions (Model/Source.lean), run with memory and the operating system (Model/GoSys.lean).
-/

namespace Fasttld.Props
open Fasttld Fasttld.GoLang
open Fasttld.Spec (Request Extractor Answer RequestDoes RequestsDo)

/-! ## What is stated -/

/-- A program that uses the package: what belongs to its goroutine, the pointers that New has returned, and memory. -/
structure Client where
  own : Local
  handles : List Nat
  mem : Mem

/-- The text of a call. -/
def _root_.Fasttld.Spec.Request.prog (round : Rat → Rat) (c : Ctx) (fuel : Nat) (handles : List Nat) : Request → EffX Val
  | .new n => callSys round c fuel .New [.listParams n]
  | .extract i e => match handles[i]? with
    | some p => callSys round c fuel .Extract [.obj p, .params e]
    | none => EffX.lift (.error .stuck)
  | .update i => match handles[i]? with
    | some p => callSys round c fuel .Update [.obj p]
    | none => EffX.lift (.error .stuck)

/-- What the call returns: the results, and the pointer if there is one. -/
def answerOf : Val → Option (Answer × Option Nat)
  | .tuple [.obj p, .err e] => some (.new e, some p)
  | .tuple [.result r, .err e] => some (.extract r e, none)
  | .err e => some (.update e, none)
  | _ => none

/-- One call: the text of it ends without a panic, with these results. -/
def ClientStep (round : Rat → Rat) (c : Ctx) (fuel : Nat) (C : Client) (j : Request) (evs : List LEvent) (a : Answer) (C' : Client) : Prop :=
  ∃ v p, XRun (j.prog round c fuel C.handles C.own) C.mem evs (.ok (v, C'.own)) C'.mem ∧ answerOf v = some (a, p) ∧
    C'.handles = C.handles ++ p.toList

/-- Calls one after the other. -/
inductive ClientRuns (round : Rat → Rat) (c : Ctx) (fuel : Nat) : Client → List (Request × List LEvent × Answer) → Client → Prop
  | nil (C : Client) : ClientRuns round c fuel C [] C
  | cons {C C' C'' : Client} {j : Request} {evs : List LEvent} {a : Answer} {l : List (Request × List LEvent × Answer)}
      (h : ClientStep round c fuel C j evs a C') (hl : ClientRuns round c fuel C' l C'') : ClientRuns round c fuel C ((j, evs, a) :: l) C''

/-- The URL of a call fits. -/
def _root_.Fasttld.Spec.Request.Fits (w : Nat) (idna : Idna) : Request → Prop
  | .extract _ e => UrlFits w idna e
  | _ => True

/-- The extractor that a call is made on is among the first `k`. -/
def _root_.Fasttld.Spec.Request.Below (k : Nat) : Request → Prop
  | .new _ => True
  | .extract i _ => i < k
  | .update i => i < k

/-- Calls in an order in which they can be made, after `k` calls of New: each extractor has been made before it is used. -/
def InOrder : Nat → List Request → Prop
  | _, [] => True
  | k, j :: js => j.Below k ∧ InOrder (match j with | .new _ => k + 1 | _ => k) js

/-- At the beginning. -/
def Client.start (m : Mem) : Client := ⟨⟨[], [], []⟩, [], m⟩

/-! ## Proofs -/

theorem updateL_list {idna : Idna} {hard : Bytes} {F F' : FastTLD} {tx : IdnaTexts} {evs : List LEvent} {err : Option TextErr}
    (h : LRun (F.updateL idna tx hard) evs (F', err)) :
    (∃ e, err = some e ∧ F' = F) ∨ err = none ∧ F'.cacheFilePath = F.cacheFilePath ∧ F'.includePrivateSuffix = F.includePrivateSuffix ∧
      ∃ list t, LEvent.sys (.readFile F.cacheFilePath (some list)) t ∈ evs ∧ Spec.Serves idna F' list := by
  have h' := (C72_same idna tx hard).2.2.1 F evs F' err h
  cases err with
  | some e => exact .inl ⟨e, rfl, (C39_failed_update idna hard F h' (by simp)).1⟩
  | none =>
    obtain ⟨h1, h2⟩ := C44_update_keeps idna hard F h'
    refine .inr ⟨rfl, h1, h2, ?_⟩
    obtain ⟨tmp, h⟩ := Fasttld.run_update.1 h'
    rcases h with ⟨-, -, hr⟩ | ⟨hp, ⟨-, hr⟩ | ⟨hd, evs', ok, -, ⟨-, -, hr⟩ | ⟨-, c, he, hr⟩⟩⟩
    · simp at hr
    · simp at hr
    · simp at hr
    · cases c with
      | none => simp at hr
      | some c =>
        simp only [Prod.mk.injEq, Option.map_none, and_true] at hr
        subst hr
        have key : ∀ evs : List LEvent, Event.readFile F.cacheFilePath (some c) ∈ (Spec.calls evs).map Prod.fst →
            ∃ t, LEvent.sys (.readFile F.cacheFilePath (some c)) t ∈ evs := by
          intro evs
          induction evs with
          | nil => intro h; cases h
          | cons a l ih =>
            intro h
            cases a with
            | sys e t =>
              rcases List.mem_cons.1 h with rfl | h
              · exact ⟨t, by simp⟩
              · exact (ih h).imp fun t h => by simp [h]
            | effect e => exact (ih h).imp fun t h => by simp [h]
        obtain ⟨t, ht⟩ := key evs (by rw [he]; simp)
        exact ⟨c, t, ht, rfl⟩

/-- A structure in memory is this extractor. -/
def IsExtractor (idna : Idna) (m : Mem) (O : List Obj) (p : Nat) (x : Extractor) : Prop :=
  ∃ o F, O[p]? = some o ∧ ObjIs m o F ∧ F.cacheFilePath = x.path ∧ F.includePrivateSuffix = x.includePrivateSuffix ∧ Spec.Serves idna F x.list

/-- The structures in memory are these extractors. -/
structure Client.Has (idna : Idna) (C : Client) (xs : List Extractor) : Prop where
  length : C.handles.length = xs.length
  nodup : C.handles.Nodup
  each : ∀ (k : Nat) p x, C.handles[k]? = some p → xs[k]? = some x → IsExtractor idna C.mem C.own.objs p x
  deferred : C.own.deferred = []

theorem IsExtractor.lt {idna : Idna} {m : Mem} {O : List Obj} {p : Nat} {x : Extractor} (h : IsExtractor idna m O p x) : p < O.length := by
  obtain ⟨o, -, h, -⟩ := h
  exact (List.getElem?_eq_some_iff.1 h).1

theorem IsExtractor.mono {idna : Idna} {m m' : Mem} {O O' : List Obj} {p : Nat} {x : Extractor} (h : IsExtractor idna m O p x)
    (hs : m.nodes.Sub m'.nodes) (hO : O'[p]? = O[p]?) : IsExtractor idna m' O' p x := by
  obtain ⟨o, F, h1, h2, h3⟩ := h
  exact ⟨o, F, hO.trans h1, ⟨h2.path, h2.incl, h2.trie.sub hs⟩, h3⟩

section
variable {w : Nat} (hw : 32 ≤ w) {round : Rat → Rat} (hr : Spec.IsRounding round) (idna : Idna) (texts : Lib) (isPrint : Nat → Bool)
include hw hr

/-- Every run of a call ends as it should. -/
theorem client_call (hhard : ListFits w idna texts.hardcodedPSL) : ∃ N, ∀ fuel, N ≤ fuel → ∀ (C : Client) xs (j : Request) evs r m', C.Has idna xs →
    j.Fits w idna → j.Below xs.length → FilesFit w idna evs →
    XRun (j.prog round (sourceCtx w idna texts isPrint) fuel C.handles C.own) C.mem evs r m' →
    ∃ v S a p xs', r = .ok (v, S) ∧ answerOf v = some (a, p) ∧ RequestDoes idna texts.hardcodedPSL (Err.text isPrint) xs j evs a xs' ∧
      Client.Has idna ⟨S, C.handles ++ p.toList, m'⟩ xs' ∧ Spec.Opened.afterAll {} evs = some {} ∧ Spec.printed evs = [] := by
  obtain ⟨N, hE⟩ := C84_extract hw (round := round) idna texts isPrint
  refine ⟨max N (2 ^ (w - 1) + 6), fun fuel hfuel C xs j evs r m' hC hj hb hfit hrun => ?_⟩
  obtain ⟨⟨A, O, D⟩, hs, m⟩ := C
  obtain ⟨hlen, hnd, heach, rfl⟩ := hC
  dsimp only at hlen hnd heach hrun
  have h := Nat.le_trans (Nat.le_max_right _ _) hfuel
  cases j with
  | new n =>
    simp only [Spec.Request.prog] at hrun
    rw [sourceCtx_eq (big_of hw) (two31_le hw)] at hrun
    obtain ⟨f, rfl⟩ : ∃ f, fuel = f + 6 := ⟨fuel - 6, (Nat.sub_add_cancel (Nat.le_trans (Nat.le_add_left _ _) h)).symm⟩
    have hf : 2 ^ (w - 1) ≤ f := Nat.le_of_add_le_add_right h
    have I := impl_New (isPrint := isPrint) f (big_of hw) (sixty_five_lt hw) hr n m A O [] (short_of idna hf hhard) (fits_event idna hf)
    obtain ⟨⟨F, err⟩, h1, i, A', O', o, rfl, h2, h3, -, h5, h6⟩ := I.forward hrun fun e he p text t h => hfit p text t (h ▸ he)
    obtain ⟨rfl, h7, list, h8, h9⟩ := newL_list idna h1
    refine ⟨_, _, _, _, xs ++ [⟨F.cacheFilePath, F.includePrivateSuffix, list⟩], rfl, rfl, .new (x := ⟨F.cacheFilePath, F.includePrivateSuffix, list⟩) h7 h8, ⟨by simp [hlen], ?_, fun k p x hk hx => ?_, rfl⟩,
      (C74_closed idna texts.toIdnaTexts texts.hardcodedPSL).1 n evs _ h1, (silent_newL idna texts.toIdnaTexts texts.hardcodedPSL n).printed h1⟩
    · have hni : i ∉ hs := by
        intro hi
        obtain ⟨k, hk⟩ := List.mem_iff_getElem?.1 hi
        obtain ⟨hk', -⟩ := List.getElem?_eq_some_iff.1 hk
        have := (heach k i _ hk (List.getElem?_eq_getElem (hlen ▸ hk'))).lt
        have := h6.1
        dsimp only at this
        omega
      simp only [Option.toList_some]
      rw [List.nodup_append]
      refine ⟨hnd, by simp, fun a ha b hb => ?_⟩
      rintro rfl
      rw [List.mem_singleton] at hb
      exact hni (hb ▸ ha)
    · dsimp only at hk ⊢
      rcases Nat.lt_or_ge k hs.length with hlt | hge
      · rw [List.getElem?_append_left hlt] at hk
        rw [List.getElem?_append_left (hlen ▸ hlt)] at hx
        have h10 := heach k p x hk hx
        exact h10.mono h5 (h6.2 p h10.lt)
      · rw [List.getElem?_append_right hge] at hk
        rw [List.getElem?_append_right (hlen ▸ hge), ← hlen] at hx
        obtain ⟨h11, -⟩ := List.getElem?_eq_some_iff.1 hk
        have h12 : k - hs.length = 0 := by simp at h11; omega
        rw [h12] at hk hx
        cases hk
        cases hx
        exact ⟨o, F, h2, h3, rfl, rfl, h9⟩
  | extract i e =>
    obtain ⟨x, hx⟩ : ∃ x, xs[i]? = some x := ⟨_, List.getElem?_eq_getElem hb⟩
    obtain ⟨p, hp⟩ : ∃ p, hs[i]? = some p := ⟨_, List.getElem?_eq_getElem (hlen ▸ hb)⟩
    simp only [Spec.Request.prog, hp] at hrun
    obtain ⟨o, F, h1, h2, h3, h4, h5⟩ := heach i p x hp hx
    obtain ⟨rules, h6, h7⟩ := h2.trie
    obtain ⟨r, er, h8, h9, -⟩ := hE fuel (Nat.le_trans (Nat.le_max_left _ _) hfuel) e m ⟨A, O, []⟩ p o rules hj h1 h6
    obtain ⟨rfl, rfl, rfl⟩ := h9 _ _ _ hrun
    refine ⟨_, _, _, _, xs, rfl, rfl, .extract hx ?_ fun ts before after hts hse => ?_, ⟨by simpa using hlen, by simpa using hnd, by simpa using heach, rfl⟩, ?_, ?_⟩
    · generalize extractLog idna texts.toIdnaTexts e = l
      induction l with
      | nil => rfl
      | cons a l ih => exact ih
    · rw [← C52_from_text idna hts hse, ← h4, ← (show F.tldTrie = _ from h5), h7]
      exact h8
    · generalize extractLog idna texts.toIdnaTexts e = l
      induction l with
      | nil => rfl
      | cons a l ih => exact ih
    · generalize extractLog idna texts.toIdnaTexts e = l
      induction l with
      | nil => rfl
      | cons a l ih => exact ih
  | update i =>
    obtain ⟨x, hx⟩ : ∃ x, xs[i]? = some x := ⟨_, List.getElem?_eq_getElem hb⟩
    obtain ⟨p, hp⟩ : ∃ p, hs[i]? = some p := ⟨_, List.getElem?_eq_getElem (hlen ▸ hb)⟩
    simp only [Spec.Request.prog, hp] at hrun
    obtain ⟨o, F, h1, h2, h3, h4, h5⟩ := heach i p x hp hx
    rw [sourceCtx_eq (big_of hw) (two31_le hw)] at hrun
    obtain ⟨f, rfl⟩ : ∃ f, fuel = f + 5 := ⟨fuel - 5, (Nat.sub_add_cancel (Nat.le_trans (Nat.le_trans (by decide) (Nat.le_add_left 6 _)) h)).symm⟩
    have hf : 2 ^ (w - 1) ≤ f := Nat.le_of_add_le_add_right (b := 5) (Nat.le_trans (Nat.add_le_add_left (by decide) _) h)
    have I := impl_Update (isPrint := isPrint) (round := round) f (big_of hw) (sixty_five_lt hw) m A O [] p o F h1 h2
      (short_of idna hf hhard) (fits_event idna hf)
    obtain ⟨⟨F', err⟩, h6, A', o', rfl, h7, -, h8⟩ := I.forward hrun fun e he p text t h => hfit p text t (h ▸ he)
    have hcl := And.intro ((C74_closed idna texts.toIdnaTexts texts.hardcodedPSL).2 F evs _ h6) ((silent_updateL idna texts.toIdnaTexts texts.hardcodedPSL F).printed h6)
    have hself : (O.set p o')[p]? = some o' := by
      rw [List.getElem?_set_self (List.getElem?_eq_some_iff.1 h1).1]
    have hother : ∀ k q y, k ≠ i → hs[k]? = some q → xs[k]? = some y → IsExtractor idna m' (O.set p o') q y := by
      intro k q y hki hq hy
      refine (heach k q y hq hy).mono h8 (List.getElem?_set_ne fun hpq => hki ?_)
      subst hpq
      obtain ⟨a1, a2⟩ := List.getElem?_eq_some_iff.1 hq
      obtain ⟨b1, b2⟩ := List.getElem?_eq_some_iff.1 hp
      exact (List.Nodup.getElem_inj_iff hnd).1 (a2.trans b2.symm)
    rcases updateL_list h6 with ⟨e, rfl, rfl⟩ | ⟨rfl, h9, h10, list, t, h11, h12⟩
    · refine ⟨_, _, _, _, xs, rfl, rfl, .failed hx, ⟨by simpa using hlen, by simpa using hnd, fun k q y hq hy => ?_, rfl⟩, hcl⟩
      simp only [Option.toList_none, List.append_nil] at hq
      by_cases hki : k = i
      · subst hki
        cases hp.symm.trans hq
        cases hx.symm.trans hy
        exact ⟨o', F', hself, h7, h3, h4, h5⟩
      · exact hother k q y hki hq hy
    · refine ⟨_, _, _, _, xs.set i { x with list := list }, rfl, rfl, .updated hx (h3 ▸ h11), ⟨by simpa using hlen, by simpa using hnd, fun k q y hq hy => ?_, rfl⟩, hcl⟩
      simp only [Option.toList_none, List.append_nil] at hq
      by_cases hki : k = i
      · subst hki
        cases hp.symm.trans hq
        rw [List.getElem?_set_self hb] at hy
        cases hy
        exact ⟨o', F', hself, h7, h9.trans h3, h10.trans h4, h12⟩
      · rw [List.getElem?_set_ne (Ne.symm hki)] at hy
        exact hother k q y hki hq hy

omit hw hr in
theorem answers_append {env : Environment} {past a b : List Event} (ha : Answers env past a) (hb : Answers env (past ++ a) b) : Answers env past (a ++ b) := by
  induction ha with
  | nil => simpa using hb
  | cons _ ih => exact .cons (ih (by simpa using hb))

omit hw hr in
theorem calls_append (a b : List LEvent) : Spec.calls (a ++ b) = Spec.calls a ++ Spec.calls b := by
  induction a with
  | nil => rfl
  | cons e a ih => cases e <;> simp [Spec.calls, ih]

omit hw hr in
theorem fits_of_env {env : Environment} (henv : ∀ past path list, env (Option Bytes) past (.readFile path) = some list → ListFits w idna list) {evs : List LEvent}
    {text : Event → Bytes} (h : ∀ e t, LEvent.sys e t ∈ evs → t = text e ∧ ∃ (β : Type) (o : Op β) (past : List Event), e = o.event (env β past o)) :
    FilesFit w idna evs := by
  intro path list t ht
  obtain ⟨-, β, o, past, he⟩ := h _ _ ht
  cases o <;> simp only [Op.event, reduceCtorEq, Event.readFile.injEq] at he
  · obtain ⟨rfl, he⟩ := he
    exact henv past _ _ he.symm

/-- There is a run of every call, with every environment. -/
theorem client_exists (hhard : ListFits w idna texts.hardcodedPSL) (env : Environment) (text : Event → Bytes)
    (henv : ∀ past path list, env (Option Bytes) past (.readFile path) = some list → ListFits w idna list) : ∃ N, ∀ fuel, N ≤ fuel →
    ∀ (C : Client) xs (j : Request) past, C.Has idna xs → j.Fits w idna → j.Below xs.length → Free C.mem →
    ∃ evs r m', XRun (j.prog round (sourceCtx w idna texts isPrint) fuel C.handles C.own) C.mem evs r m' ∧ FilesFit w idna evs ∧ Free m' ∧
      Answers env past ((Spec.calls evs).map Prod.fst) ∧ ∀ e t, LEvent.sys e t ∈ evs → t = text e := by
  obtain ⟨N, hE⟩ := C84_extract hw (round := round) idna texts isPrint
  refine ⟨max N (2 ^ (w - 1) + 6), fun fuel hfuel C xs j past hC hj hb hfree => ?_⟩
  obtain ⟨⟨A, O, D⟩, hs, m⟩ := C
  obtain ⟨hlen, -, heach, rfl⟩ := hC
  dsimp only at hlen heach hfree ⊢
  have h := Nat.le_trans (Nat.le_max_right _ _) hfuel
  cases j with
  | new n =>
    simp only [Spec.Request.prog]
    rw [sourceCtx_eq (big_of hw) (two31_le hw)]
    obtain ⟨f, rfl⟩ : ∃ f, fuel = f + 6 := ⟨fuel - 6, (Nat.sub_add_cancel (Nat.le_trans (Nat.le_add_left _ _) h)).symm⟩
    have hf : 2 ^ (w - 1) ≤ f := Nat.le_of_add_le_add_right h
    have I := impl_New (isPrint := isPrint) f (big_of hw) (sixty_five_lt hw) hr n m A O [] (short_of idna hf hhard) (fits_event idna hf)
    obtain ⟨evs, r, h1, h2, h3⟩ := lrun_exists (newL idna texts.toIdnaTexts texts.hardcodedPSL n) env text past
    have hfit := fits_of_env idna henv h3
    obtain ⟨v, m', h4, -, h5⟩ := I.backward hfree h1 fun e he p text t h => hfit p text t (h ▸ he)
    exact ⟨evs, v, m', h4, hfit, h5, h2, fun e t he => (h3 e t he).1⟩
  | extract i e =>
    obtain ⟨x, hx⟩ : ∃ x, xs[i]? = some x := ⟨_, List.getElem?_eq_getElem hb⟩
    obtain ⟨p, hp⟩ : ∃ p, hs[i]? = some p := ⟨_, List.getElem?_eq_getElem (hlen ▸ hb)⟩
    simp only [Spec.Request.prog, hp]
    obtain ⟨o, F, h1, h2, -⟩ := heach i p x hp hx
    obtain ⟨rules, h6, h7⟩ := h2.trie
    obtain ⟨r, er, h8, h9, h10⟩ := hE fuel (Nat.le_trans (Nat.le_max_left _ _) hfuel) e m ⟨A, O, []⟩ p o rules hj h1 h6
    obtain ⟨evs, v, m', h11⟩ := h10 hfree
    obtain ⟨rfl, rfl, rfl⟩ := h9 _ _ _ h11
    have hno : ∀ e' t, LEvent.sys e' t ∉ (extractLog idna texts.toIdnaTexts e).map (fun l => LEvent.effect (.log l)) := by simp
    refine ⟨_, _, _, h11, fun p l t ht => (hno _ _ ht).elim, hfree, ?_, fun e' t ht => (hno _ _ ht).elim⟩
    have : Spec.calls ((extractLog idna texts.toIdnaTexts e).map (fun l => LEvent.effect (.log l))) = [] := by
      generalize extractLog idna texts.toIdnaTexts e = l
      induction l with
      | nil => rfl
      | cons a l ih => exact ih
    rw [this]
    exact .nil _
  | update i =>
    obtain ⟨x, hx⟩ : ∃ x, xs[i]? = some x := ⟨_, List.getElem?_eq_getElem hb⟩
    obtain ⟨p, hp⟩ : ∃ p, hs[i]? = some p := ⟨_, List.getElem?_eq_getElem (hlen ▸ hb)⟩
    simp only [Spec.Request.prog, hp]
    obtain ⟨o, F, h1, h2, h3, h4, h5⟩ := heach i p x hp hx
    rw [sourceCtx_eq (big_of hw) (two31_le hw)]
    obtain ⟨f, rfl⟩ : ∃ f, fuel = f + 5 := ⟨fuel - 5, (Nat.sub_add_cancel (Nat.le_trans (Nat.le_trans (by decide) (Nat.le_add_left 6 _)) h)).symm⟩
    have hf : 2 ^ (w - 1) ≤ f := Nat.le_of_add_le_add_right (b := 5) (Nat.le_trans (Nat.add_le_add_left (by decide) _) h)
    have I := impl_Update (isPrint := isPrint) (round := round) f (big_of hw) (sixty_five_lt hw) m A O [] p o F h1 h2
      (short_of idna hf hhard) (fits_event idna hf)
    obtain ⟨evs, r, h1, h2, h3⟩ := lrun_exists (F.updateL idna texts.toIdnaTexts texts.hardcodedPSL) env text past
    have hfit := fits_of_env idna henv h3
    obtain ⟨v, m', h4, -, h5⟩ := I.backward hfree h1 fun e he p text t h => hfit p text t (h ▸ he)
    exact ⟨evs, v, m', h4, hfit, h5, h2, fun e t he => (h3 e t he).1⟩

theorem client_history (hhard : ListFits w idna texts.hardcodedPSL) : ∃ N, ∀ fuel, N ≤ fuel → ∀ (C : Client) xs tr C', C.Has idna xs →
    ClientRuns round (sourceCtx w idna texts isPrint) fuel C tr C' → (∀ s ∈ tr, s.1.Fits w idna ∧ FilesFit w idna s.2.1) →
    ∃ xs', RequestsDo idna texts.hardcodedPSL (Err.text isPrint) xs tr xs' ∧ Client.Has idna C' xs' ∧
      ∀ s ∈ tr, Spec.Opened.afterAll {} s.2.1 = some {} := by
  obtain ⟨N, h⟩ := client_call hw hr idna texts isPrint hhard
  refine ⟨N, fun fuel hf C xs tr C' hC hrun hfit => ?_⟩
  induction hrun generalizing xs with
  | nil => exact ⟨xs, .nil _, hC, by simp⟩
  | @cons C C' C'' j evs a l h1 _ ih =>
    obtain ⟨v, p, h2, h3, h4⟩ := h1
    have hb : j.Below xs.length := by
      have key : ∀ i, (∃ e, j = .extract i e) ∨ j = .update i → i < xs.length := by
        intro i hi
        rcases Nat.lt_or_ge i xs.length with h | h
        · exact h
        · have h5 : C.handles[i]? = none := List.getElem?_eq_none (hC.length ▸ h)
          rcases hi with ⟨e, rfl⟩ | rfl <;>
          · simp only [Spec.Request.prog, h5] at h2
            cases h2
      cases j with
      | new n => trivial
      | extract i e => exact key i (.inl ⟨e, rfl⟩)
      | update i => exact key i (.inr rfl)
    obtain ⟨v', S, a', p', xs1, h5, h6, h7, h8, h9⟩ := h fuel hf C xs j evs _ _ hC (hfit (j, evs, a) (by simp)).1 hb (hfit (j, evs, a) (by simp)).2 h2
    cases h5
    rw [h3] at h6
    cases h6
    rw [← h4] at h8
    obtain ⟨xs2, h10, h11, h12⟩ := ih xs1 h8 fun s hs => hfit s (by simp [hs])
    refine ⟨xs2, .cons h7 h10, h11, fun s hs => ?_⟩
    rcases List.mem_cons.1 hs with rfl | hs
    · exact h9.1
    · exact h12 s hs

omit hw hr in
theorem has_start (m : Mem) : Client.Has idna (.start m) [] :=
  ⟨rfl, .nil, fun k p x h => by simp [Client.start] at h, rfl⟩

/-! ## Theorems -/

/-- C87: whatever calls of New, Extract and Update a program makes, one after the other, and whatever the operating system answers to
them, the results are those of the specification; every call leaves nothing open. -/
theorem C87_history (hhard : ListFits w idna texts.hardcodedPSL) : ∃ N, ∀ fuel, N ≤ fuel → ∀ m tr C,
    ClientRuns round (sourceCtx w idna texts isPrint) fuel (.start m) tr C → (∀ s ∈ tr, s.1.Fits w idna ∧ FilesFit w idna s.2.1) →
    (∃ xs, RequestsDo idna texts.hardcodedPSL (Err.text isPrint) [] tr xs) ∧ ∀ s ∈ tr, Spec.Opened.afterAll {} s.2.1 = some {} := by
  obtain ⟨N, h⟩ := client_history hw hr idna texts isPrint hhard
  refine ⟨N, fun fuel hf m tr C hrun hfit => ?_⟩
  obtain ⟨xs, h1, -, h2⟩ := h fuel hf _ _ _ _ (has_start idna m) hrun hfit
  exact ⟨⟨xs, h1⟩, h2⟩

/-- C87: and the next call does not panic, whatever came before it, if it is on an extractor that there is. -/
theorem C87_next (hhard : ListFits w idna texts.hardcodedPSL) : ∃ N, ∀ fuel, N ≤ fuel → ∀ m tr C,
    ClientRuns round (sourceCtx w idna texts isPrint) fuel (.start m) tr C → (∀ s ∈ tr, s.1.Fits w idna ∧ FilesFit w idna s.2.1) →
    ∀ (j : Request) evs r m', j.Fits w idna → j.Below (tr.countP fun s => s.1 matches .new _) → FilesFit w idna evs →
      XRun (j.prog round (sourceCtx w idna texts isPrint) fuel C.handles C.own) C.mem evs r m' →
      ∃ S a hs, r.map Prod.snd = .ok S ∧ ClientStep round (sourceCtx w idna texts isPrint) fuel C j evs a ⟨S, hs, m'⟩ := by
  obtain ⟨N, h⟩ := client_history hw hr idna texts isPrint hhard
  obtain ⟨N', h'⟩ := client_call hw hr idna texts isPrint hhard
  refine ⟨max N N', fun fuel hf m tr C hrun hfit j evs r m' hj hb hfe hx => ?_⟩
  obtain ⟨xs, h1, h2, -⟩ := h fuel (by omega) _ _ _ _ (has_start idna m) hrun hfit
  have hcount : ∀ {xs tr xs'}, RequestsDo idna texts.hardcodedPSL (Err.text isPrint) xs tr xs' →
      xs'.length = xs.length + tr.countP fun s => s.1 matches .new _ := by
    intro xs tr xs' h
    induction h with
    | nil => rfl
    | cons h _ ih =>
      rw [ih, List.countP_cons]
      cases h <;> simp; omega
  have hlen := hcount h1
  simp only [List.length_nil, Nat.zero_add] at hlen
  rw [← hlen] at hb
  obtain ⟨v, S, a, p, xs', rfl, h3, -⟩ := h' fuel (by omega) C xs j evs r m' h2 hj hb hfe hx
  exact ⟨S, a, C.handles ++ p.toList, rfl, v, p, hx, h3, rfl⟩

/-- C87: and every sequence of calls, in an order in which they can be made, does run to its end, whatever the answers of the operating
system and the texts of the errors are, if there are addresses left in memory. -/
theorem C87_ends (hhard : ListFits w idna texts.hardcodedPSL) (env : Environment) (text : Event → Bytes)
    (henv : ∀ past path list, env (Option Bytes) past (.readFile path) = some list → ListFits w idna list) : ∃ N, ∀ fuel, N ≤ fuel →
    ∀ (m : Mem) (js : List Request), (∃ N, ∀ r, N ≤ r → m.nodes r = none) → InOrder 0 js → (∀ j ∈ js, j.Fits w idna) →
    ∃ tr C, ClientRuns round (sourceCtx w idna texts isPrint) fuel (.start m) tr C ∧ tr.map Prod.fst = js ∧
      Answers env [] ((Spec.calls (tr.flatMap fun s => s.2.1)).map Prod.fst) ∧
      ∀ s ∈ tr, FilesFit w idna s.2.1 ∧ ∀ e t, LEvent.sys e t ∈ s.2.1 → t = text e := by
  obtain ⟨N, h⟩ := client_exists hw hr idna texts isPrint hhard env text henv
  obtain ⟨N', h'⟩ := client_call hw hr idna texts isPrint hhard
  refine ⟨max N N', fun fuel hf m js hm hjs hfit => ?_⟩
  suffices key : ∀ (js : List Request) (C : Client) xs past, C.Has idna xs → Free C.mem → InOrder xs.length js → (∀ j ∈ js, j.Fits w idna) →
      ∃ tr C', ClientRuns round (sourceCtx w idna texts isPrint) fuel C tr C' ∧ tr.map Prod.fst = js ∧
        Answers env past ((Spec.calls (tr.flatMap fun s => s.2.1)).map Prod.fst) ∧
        ∀ s ∈ tr, FilesFit w idna s.2.1 ∧ ∀ e t, LEvent.sys e t ∈ s.2.1 → t = text e from
    key js _ [] [] (has_start idna m) hm hjs hfit
  intro js
  induction js with
  | nil => exact fun C xs past _ _ _ _ => ⟨[], C, .nil C, rfl, .nil _, by simp⟩
  | cons j js ih =>
    intro C xs past hC hfree hin hfit
    obtain ⟨evs, r, m', h1, h2, h3, h4, h5⟩ := h fuel (by omega) C xs j past hC (hfit j (by simp)) hin.1 hfree
    obtain ⟨v, S, a, p, xs', rfl, h6, h7, h8, -⟩ := h' fuel (by omega) C xs j evs _ m' hC (hfit j (by simp)) hin.1 h2 h1
    have hin' : InOrder xs'.length js := by
      have := hin.2
      cases h7 <;> simpa using this
    obtain ⟨tr, C', h9, h10, h11, h12⟩ := ih ⟨S, C.handles ++ p.toList, m'⟩ xs' (past ++ (Spec.calls evs).map Prod.fst) h8 h3 hin' fun j hj => hfit j (by simp [hj])
    refine ⟨(j, evs, a) :: tr, C', .cons ⟨v, p, h1, h6, rfl⟩ h9, by simp [h10], ?_, fun s hs => ?_⟩
    · rw [List.flatMap_cons, calls_append, List.map_append]
      exact answers_append h4 h11
    · rcases List.mem_cons.1 hs with rfl | hs
      · exact ⟨h2, h5⟩
      · exact h12 s hs

omit hw hr
end

/-! ## Concrete cases: the text, run in a world -/

/-- What is shown of an answer: the parts of a name, the text of an error. -/
def Answer.seen : Answer → List Bytes × Option Bytes
  | .new e => ([], e)
  | .extract r e => ([r.subDomain, r.domain, r.suffix], e)
  | .update e => ([], e)

/-- Calls one after the other, in a world. -/
def clientIn (c : Ctx) : List Request → Local → List Nat → World → WMem → Option (List (List Bytes × Option Bytes))
  | [], _, _, _, _ => some []
  | j :: js, S, hs, w, m => match XProg.runIn exText (j.prog id c 60 hs S) w m with
    | some (.ok (v, S'), w', m', _) => match answerOf v with
      | some (a, p) => (clientIn c js S' (hs ++ p.toList) w' m').map (Answer.seen a :: ·)
      | none => none
    | _ => none

/-- The URL of the cases. -/
def abOrg : URLParams := ⟨b! "a.b.org", false, false⟩

/-- And another one. -/
def abNet : URLParams := ⟨b! "a.b.net", false, false⟩

-- the cache file has list A; both extractors use it; Update of the second one replaces the file by list B, and the first one keeps list A
example : clientIn (idnaCtx idId) [.new ⟨[], true⟩, .extract 0 abNet, .new ⟨[], false⟩, .extract 1 abNet, .extract 1 abOrg, .update 1,
      .extract 0 abNet, .extract 0 abOrg, .extract 1 abNet, .extract 1 abOrg] ⟨[], [], []⟩ [] (exWorld (some (.file ⟨listA, 28 * hour, true, true⟩))) freshMem =
    some [([], none), ([b! "a", b! "b", b! "net"], none), ([], none), ([b! "a", b! "b", b! "net"], none), ([b! "a.b", b! "org", []], none), ([], none),
      ([b! "a", b! "b", b! "net"], none), ([b! "a.b", b! "org", []], none), ([b! "a.b", b! "net", []], none), ([b! "a", b! "b", b! "org"], none)] := by
  decide +kernel
-- Update of an extractor that has a list of its own fails, and nothing changes; an extractor that there is not cannot be used
example : clientIn (idnaCtx idId) [.new ⟨b! "/x", true⟩, .extract 0 abNet, .update 0, .extract 0 abNet] ⟨[], [], []⟩ [] (exWorld none) freshMem =
      some [([], none), ([b! "a", b! "b", b! "net"], none), ([], some (b! "No-op. Only default Public Suffix list file can be updated")), ([b! "a", b! "b", b! "net"], none)] ∧
    clientIn (idnaCtx idId) [.new ⟨b! "/x", true⟩, .extract 1 abNet] ⟨[], [], []⟩ [] (exWorld none) freshMem = none := by
  decide +kernel

end Fasttld.Props
