import Verif.Proofs.SourceSysExtract
import Verif.Props.Complete
import Verif.Props.SourceSys

/-!
# C84: Extract on what New returns, by the text

The text of Extract (Model/Source.lean), run by the rules of the language with memory, the operating system, logging and `defer`
(Model/GoSys.lean) on a structure `FastTLD` in memory.  With C83: New and then Extract, as a program that uses the package calls
them, by their text alone.
-/

namespace Fasttld.Props
open Fasttld Fasttld.GoLang

/-! ## What is stated -/

/-- The URL, and the names that the IDNA library makes of its parts, are short enough for their lengths to be an `int`. -/
def UrlFits (w : Nat) (idna : Idna) (e : URLParams) : Prop :=
  (e.url.length : Int) + 4 < 2 ^ (w - 1) ∧
    ∀ v a : Bytes, v.length ≤ e.url.length → idna.lookupASCII v = some a → (a.length : Int) + 4 < 2 ^ (w - 1)

/-- The text of the list that an extractor with this path uses: one that was read from a file, or the one that is built in. -/
def ListUsed (hard : Bytes) (evs : List LEvent) (path list : Bytes) : Prop :=
  path = [] ∧ list = hard ∨ ∃ t, LEvent.sys (.readFile path (some list)) t ∈ evs

theorem xrun_free {α : Type} {p : XProg α} {m m' : Mem} {evs : List LEvent} {a : α} (h : XRun p m evs a m') (hm : Free m) : Free m' := by
  induction h with
  | ret => exact hm
  | sys _ ih => exact ih hm
  | effect _ ih => exact ih hm
  | mem hd _ ih => exact ih (does_free hd hm)

section
variable {w : Nat} (hw : 32 ≤ w) {round : Rat → Rat} (idna : Idna) (texts : Lib) (isPrint : Nat → Bool)
include hw

/-- C84: Extract, on a structure with the trie of some rules.  Every run logs the lines of the model, asks nothing of the operating
system, returns the results of the model with the text of the error, and memory and structures are as they were; there is such a run. -/
theorem C84_extract : ∃ N, ∀ fuel, N ≤ fuel → ∀ (e : URLParams) (m : Mem) (S : Local) (i : Nat) (o : Obj) (rules : List Bytes),
    UrlFits w idna e → S.objs[i]? = some o → Spec.Holds m.nodes o.tldTrie rules →
    ∃ r er, extract idna (buildTrie rules) e = .ok (r, er) ∧
      (∀ evs v m', XRun (callSys round (sourceCtx w idna texts isPrint) fuel .Extract [.obj i, .params e] S) m evs v m' →
        evs = (extractLog idna texts.toIdnaTexts e).map (fun l => .effect (.log l)) ∧
        v = .ok (.tuple [.result r, .err (er.map (Err.text isPrint))], S) ∧ m' = m) ∧
      ((∃ N, ∀ r, N ≤ r → m.nodes r = none) → ∃ evs v m',
        XRun (callSys round (sourceCtx w idna texts isPrint) fuel .Extract [.obj i, .params e] S) m evs v m') := by
  rw [sourceCtx_eq (big_of hw) (two31_le hw)]
  refine ⟨((2 : Int) ^ (w - 1) - 5).toNat + 13, fun fuel h e m S i o rules he ho hm => ?_⟩
  obtain ⟨f, rfl⟩ : ∃ f, fuel = f + 3 := ⟨fuel - 3, by omega⟩
  obtain ⟨A, O, D⟩ := S
  have hM : ∀ v : Bytes, v.length ≤ e.url.length → (formatAsPunycode idna v).length ≤ ((2 : Int) ^ (w - 1) - 5).toNat := by
    intro v hv
    unfold formatAsPunycode
    split
    · next a ha => have := he.2 v a hv ha; omega
    · simp
  have hurl := he.1
  have I := impl_Extract (ok := fun _ => True) (round := round) (isPrint := isPrint) (texts := texts) f e (big_of hw) (two31_le hw)
    (M := ((2 : Int) ^ (w - 1) - 5).toNat) (by omega) (by omega) (by omega) hM m A O D i o _ ho (Rep.of_holds hm)
  rw [extract_eq] at I
  refine ⟨_, _, extract_eq idna _ e, fun evs v m' hr => ?_, fun hf => ?_⟩
  · obtain ⟨b, h1, h2, h3⟩ := I.forward hr fun _ _ => trivial
    obtain ⟨_, e1, e2, rfl, h4, h5⟩ := lrun_bind_iff.1 h1
    cases h5
    rw [lrun_logAll] at h4
    subst h4
    exact ⟨by simp, h3, h2⟩
  · obtain ⟨v, m', h1, -⟩ := I.backward hf (lrun_bind_iff.2 ⟨(), _, _, rfl, lrun_logAll.2 rfl, .ret _⟩) fun _ _ => trivial
    exact ⟨_, v, m', h1⟩

/-- C84: so a call of Extract logs at most one line, and only if it returns an error; the line is the text of an error of the IDNA
library up to the first `idna: invalid label`. -/
theorem C84_extract_log : ∃ N, ∀ fuel, N ≤ fuel → ∀ (e : URLParams) (m : Mem) (S : Local) (i : Nat) (o : Obj) (rules : List Bytes),
    UrlFits w idna e → S.objs[i]? = some o → Spec.Holds m.nodes o.tldTrie rules →
    ∀ evs v m', XRun (callSys round (sourceCtx w idna texts isPrint) fuel .Extract [.obj i, .params e] S) m evs v m' →
      evs = [] ∨ ∃ line text r shown, evs = [.effect (.log line)] ∧ Spec.UpToFirst (b! "idna: invalid label") text line ∧
        v = .ok (.tuple [.result r, .err (some shown)], S) ∧
        (shown = text ∧ e.convertURLToPunyCode = false ∨
         shown = b! "empty domain" ∧ e.convertURLToPunyCode = true ∧ ∃ host, text = texts.lookupASCII host ∧ idna.lookupASCII host = none) := by
  obtain ⟨N, h⟩ := C84_extract hw (round := round) idna texts isPrint
  refine ⟨N, fun fuel hf e m S i o rules he ho hm evs v m' hr => ?_⟩
  obtain ⟨r, er, h1, h2, -⟩ := h fuel hf e m S i o rules he ho hm
  obtain ⟨rfl, rfl, rfl⟩ := h2 evs v m' hr
  rcases C72_extract idna texts.toIdnaTexts (buildTrie rules) e with h3 | ⟨line, text, r', err, h3, h4, h5, h6⟩
  · exact .inl (by rw [h3]; rfl)
  · rw [h1] at h5
    cases h5
    refine .inr ⟨line, text, r, _, by rw [h3]; rfl, h4, rfl, ?_⟩
    rcases h6 with ⟨rfl, h6⟩ | ⟨rfl, h6⟩
    · exact .inl ⟨rfl, h6⟩
    · exact .inr ⟨rfl, h6⟩

variable (hr : Spec.IsRounding round)
include hr

/-- C84: New, then any number of calls of Extract on what it returns, by the text.  The results are those of the specification of
C52, for the lines of a list that was read, or of the built-in one. -/
theorem C84_end_to_end (hhard : ListFits w idna texts.hardcodedPSL) (n : SuffixListParams) : ∃ N, ∀ fuel, N ≤ fuel → ∀ (m : Mem) evs v m',
    FilesFit w idna evs →
    XRun (callSys round (sourceCtx w idna texts isPrint) fuel .New [.listParams n] ⟨[], [], []⟩) m evs v m' →
    ∃ i S o list, v = .ok (.tuple [.obj i, .err none], S) ∧ S.objs[i]? = some o ∧
      ListUsed texts.hardcodedPSL evs o.cacheFilePath list ∧
      ∀ ts before after, Spec.StrippedLines list ts → Spec.Sections ts before after → ∀ e, UrlFits w idna e →
        ∃ r er, Spec.Extracts idna (Spec.rulesOf idna.toASCII (if n.includePrivateSuffix then ts else before)) e r er ∧
          (∀ evs2 v2 m2, XRun (callSys round (sourceCtx w idna texts isPrint) fuel .Extract [.obj i, .params e] S) m' evs2 v2 m2 →
            evs2 = (extractLog idna texts.toIdnaTexts e).map (fun l => .effect (.log l)) ∧
            v2 = .ok (.tuple [.result r, .err (er.map (Err.text isPrint))], S) ∧ m2 = m') ∧
          ((∃ N, ∀ r, N ≤ r → m.nodes r = none) → ∃ evs2 v2 m2,
            XRun (callSys round (sourceCtx w idna texts isPrint) fuel .Extract [.obj i, .params e] S) m' evs2 v2 m2) := by
  obtain ⟨N, h⟩ := C83_new hw hr idna texts isPrint hhard n
  obtain ⟨N', h'⟩ := C84_extract hw (round := round) idna texts isPrint
  refine ⟨max N N', fun fuel hf m evs v m' hfit hrun => ?_⟩
  obtain ⟨⟨x, err⟩, h1, i, A, O, o, rfl, h3, ⟨h4, h5, rules, h6, h7⟩, -⟩ := (h fuel (by omega) m).1 evs v m' hfit hrun
  obtain ⟨rfl, h8, h9⟩ : err = none ∧ _ := by
    have h10 := C36_new idna _ n ((C72_same idna texts.toIdnaTexts texts.hardcodedPSL).1 n evs x err h1)
    exact ⟨Option.map_eq_none_iff.1 h10.1, h10.2⟩
  have hlist : ∃ list, ListUsed texts.hardcodedPSL evs o.cacheFilePath list ∧ Spec.Serves idna x list := by
    rcases h9 with ⟨h9, h10⟩ | ⟨c, h9, h10, -⟩
    · exact ⟨_, .inl ⟨h4.trans h9, rfl⟩, h10⟩
    · refine ⟨c, .inr ?_, h10⟩
      rw [h4]
      have key : ∀ evs : List LEvent, Event.readFile x.cacheFilePath (some c) ∈ (Spec.calls evs).map Prod.fst →
          ∃ t, LEvent.sys (.readFile x.cacheFilePath (some c)) t ∈ evs := by
        intro evs
        induction evs with
        | nil => intro h; cases h
        | cons a l ih =>
          intro h
          cases a with
          | sys e t =>
            rcases List.mem_cons.1 h with rfl | h
            · exact ⟨t, by simp⟩
            · exact (ih h).imp fun t h => by simp [h]
          | effect e => exact (ih h).imp fun t h => by simp [h]
      exact key evs h9
  obtain ⟨list, h10, h11⟩ := hlist
  refine ⟨i, _, o, list, rfl, h3, h10, fun ts before after hts hse e he => ?_⟩
  obtain ⟨r, er, h12, h13, h14⟩ := h' fuel (by omega) e m' ⟨A, O, []⟩ i o rules he h3 h6
  refine ⟨r, er, ?_, h13, fun hm => h14 (xrun_free hrun hm)⟩
  rw [← C52_from_text idna hts hse, ← h8, ← (show x.tldTrie = _ from h11), h7]
  exact h12

omit hw hr
end

/-! ## Concrete cases: the text, run in a world -/

/-- Running New, then Extract on what it returns: the parts of the name and the text of the error; the lines that Extract logs; whether
Extract makes no calls and changes neither memory nor structures. -/
def newExtract (c : Ctx) (n : SuffixListParams) (w : World) (e : URLParams) : Option (List Bytes × Option Bytes × List Bytes × Bool) :=
  match XProg.runIn exText (callSys id c 30 .New [.listParams n] ⟨[], [], []⟩) w freshMem with
  | some (.ok (.tuple [.obj i, .err none], S), w, m, _) =>
    match XProg.runIn exText (callSys id c 60 .Extract [.obj i, .params e] S) w m with
    | some (.ok (.tuple [.result r, .err er], S'), _, m', evs) =>
      some ([r.subDomain, r.domain, r.suffix, r.port, r.path], er, Spec.logged evs,
        decide (Spec.calls evs = [] ∧
          S'.objs = S.objs ∧ m'.next = m.next ∧ ∀ r < m.next, (m'.nodes r).length = (m.nodes r).length))
    | _ => none
  | _ => none

/-- To run the text with an IDNA library. -/
def idnaCtx (idna : Idna) : Ctx := sourceCtx 64 idna ⟨exTexts, builtin, fun _ => .error []⟩ fun _ => true

set_option synthInstance.maxSize 1000

-- a file that is asked for, with and without the private section; a list from a mirror; the built-in one
example : newExtract (idnaCtx idId) ⟨b! "/x", true⟩ (exWorld none) ⟨b! "https://u@q.p.a.com:80/z", false, false⟩ =
      some ([b! "q", b! "p", b! "a.com", b! "80", b! "/z"], none, [], true) ∧
    newExtract (idnaCtx idId) ⟨b! "/x", false⟩ (exWorld none) ⟨b! "https://u@q.p.a.com:80/z", false, false⟩ =
      some ([b! "q.p", b! "a", b! "com", b! "80", b! "/z"], none, [], true) ∧
    newExtract (idnaCtx idId) ⟨[], false⟩ (exWorld none) ⟨b! "a.b.org", true, false⟩ =
      some ([[], b! "b", b! "org", [], []], none, [], true) ∧
    newExtract (idnaCtx idId) ⟨[], false⟩ { exWorld none with canOpenDir := fun _ => false } ⟨b! "a.b.org", false, false⟩ =
      some ([b! "a.b", b! "org", [], [], []], none, [], true) := by decide +kernel
-- errors: one that is logged, without the label; one that is not
example : newExtract (idnaCtx (refusing (b! "idna: invalid label \"x\""))) ⟨b! "/x", true⟩ (exWorld none) ⟨b! "http://a.com", false, false⟩ =
      some ([[], [], [], [], []], some (b! "idna: invalid label \"x\""), [b! "idna: invalid label"], true) ∧
    newExtract (idnaCtx (refusing (b! "no"))) ⟨b! "/x", true⟩ (exWorld none) ⟨b! "http://a.com", false, true⟩ =
      some ([[], [], [], [], []], some (b! "empty domain"), [b! "idna: invalid label"], true) ∧
    newExtract (idnaCtx idId) ⟨b! "/x", true⟩ (exWorld none) ⟨b! "http://a.com:99999", false, false⟩ =
      some ([[], [], [], [], []], some (b! "invalid port"), [], true) := by decide +kernel

end Fasttld.Props
