import Verif.Proofs.SourceSysNew
import Verif.Props.Log
import Verif.Props.SourceMem

/-!
# C83: New and Update, by the text

The text of New (fasttld.go:403-434), of Update and of the functions of psl.go that they call (Model/Source.lean), run by the
rules of the language with memory, the operating system, logging and `defer` (Model/GoSys.lean), does what the model of
Model/Log.lean does, and nothing else: the same calls in the same order, the same lines in the log, the same files closed, the
same error, and in memory the structure that the model has as a value.  So what C72, C73 and C74 say of the model, and by
`C72_same` what the claims about Model/System.lean say, holds for the text.
-/

namespace Fasttld.Props
open Fasttld Fasttld.GoLang

/-! ## What is stated -/

/-- The rules of a list are short enough for their lengths to be an `int`. -/
def ListFits (w : Nat) (idna : Idna) (text : Bytes) : Prop :=
  ∀ incl, ∀ s ∈ rulesOf idna incl text, (s.length : Int) + 1 < 2 ^ (w - 1)

/-- So are those of every file that is read. -/
def FilesFit (w : Nat) (idna : Idna) (evs : List LEvent) : Prop :=
  ∀ p text t, LEvent.sys (.readFile p (some text)) t ∈ evs → ListFits w idna text

/-- The structure `o` in memory is the value `x`: the fields are the same, and its trie is that of some rules, for which the
trie of the value is built. -/
def IsValue (m : Mem) (o : Obj) (x : FastTLD) : Prop :=
  o.cacheFilePath = x.cacheFilePath ∧ o.includePrivateSuffix = x.includePrivateSuffix ∧
    ∃ rules, Spec.Holds m.nodes o.tldTrie rules ∧ x.tldTrie = buildTrie rules

/-- What New returns: a pointer to a structure that is `x`, and the error; nothing that was in memory has changed. -/
def Returns (m : Mem) (r : FastTLD × Option TextErr) (v : Comp (Val × Local)) (m' : Mem) : Prop :=
  ∃ i A O o, v = .ok (.tuple [.obj i, .err (r.2.map Prod.snd)], ⟨A, O, []⟩) ∧ O[i]? = some o ∧ IsValue m' o r.1 ∧
    m'.root = m.root ∧ ∀ x nd, m.nodes x = some nd → m'.nodes x = some nd

/-- What Update returns: the error; the structure is now `x`, the others and what was in memory are as they were. -/
def Updates (m : Mem) (i : Nat) (O : List Obj) (r : FastTLD × Option TextErr) (v : Comp (Val × Local)) (m' : Mem) : Prop :=
  ∃ A o, v = .ok (.err (r.2.map Prod.snd), ⟨A, O.set i o, []⟩) ∧ IsValue m' o r.1 ∧
    m'.root = m.root ∧ ∀ x nd, m.nodes x = some nd → m'.nodes x = some nd

section
variable {w : Nat} (hw : 32 ≤ w) {round : Rat → Rat} (hr : Spec.IsRounding round) (idna : Idna) (texts : Lib) (isPrint : Nat → Bool)

theorem short_of {f : Nat} (hf : 2 ^ (w - 1) ≤ f) {text : Bytes} (h : ListFits w idna text) (incl : Bool) :
    Short (2 ^ (w - 1)) f (rulesOf idna incl text) := by
  intro s hs
  have h1 : (splitByte 46 s).length ≤ s.length + 1 := weight_split 46 s ▸ length_le_weight _
  have h2 := h incl s hs
  have h3 : ((2 ^ (w - 1) : Nat) : Int) = 2 ^ (w - 1) := by norm_cast
  exact ⟨by omega, by omega⟩

/-- The condition on one event. -/
def EventFits (w : Nat) (idna : Idna) (e : LEvent) : Prop := ∀ p text t, e = .sys (.readFile p (some text)) t → ListFits w idna text

theorem fits_event {f : Nat} (hf : 2 ^ (w - 1) ≤ f) : ∀ p text t, EventFits w idna (.sys (.readFile p (some text)) t) →
    ∀ incl, Short (2 ^ (w - 1)) f (rulesOf idna incl text) :=
  fun p text t h incl => short_of idna hf (h p text t rfl) incl

include hw

theorem sixty_five_lt : (65 : Int) < 2 ^ (w - 1) := by
  have := two31_le hw
  omega

include hr

/-- C83: New.  Every run of the text is a run of the model, and every run of the model is one of the text: the same calls to
the operating system with the same answers, the same effects, in the same order; the structure that is returned is that of the
model, and the error too. -/
theorem C83_new (hhard : ListFits w idna texts.hardcodedPSL) (n : SuffixListParams) :
    ∃ N, ∀ fuel, N ≤ fuel → ∀ m : Mem,
      (∀ evs v m', FilesFit w idna evs →
        XRun (callSys round (sourceCtx w idna texts isPrint) fuel .New [.listParams n] ⟨[], [], []⟩) m evs v m' →
        ∃ r, LRun (newL idna texts.toIdnaTexts texts.hardcodedPSL n) evs r ∧ Returns m r v m') ∧
      ((∃ N, ∀ r, N ≤ r → m.nodes r = none) → ∀ evs r, FilesFit w idna evs →
        LRun (newL idna texts.toIdnaTexts texts.hardcodedPSL n) evs r →
        ∃ v m', XRun (callSys round (sourceCtx w idna texts isPrint) fuel .New [.listParams n] ⟨[], [], []⟩) m evs v m' ∧ Returns m r v m') := by
  rw [sourceCtx_eq (big_of hw) (two31_le hw)]
  refine ⟨2 ^ (w - 1) + 6, fun fuel h m => ?_⟩
  obtain ⟨f, rfl⟩ : ∃ f, fuel = f + 6 := ⟨fuel - 6, (Nat.sub_add_cancel (Nat.le_trans (Nat.le_add_left _ _) h)).symm⟩
  have hf : 2 ^ (w - 1) ≤ f := Nat.le_of_add_le_add_right h
  have I := impl_New (isPrint := isPrint) f (big_of hw) (sixty_five_lt hw) hr n m [] [] [] (short_of idna hf hhard) (fits_event idna hf)
  have R : ∀ v m' r, FastMade m ⟨[], [], []⟩ m' v r → Returns m r v m' := by
    rintro v m' r ⟨i, A, O, o, h1, h2, h3, h4, h5, -⟩
    exact ⟨i, A, O, o, h1, h2, ⟨h3.path, h3.incl, h3.trie⟩, h4, h5⟩
  refine ⟨fun evs v m' hfit hrun => ?_, fun hm evs r hfit hrun => ?_⟩
  · obtain ⟨r, h1, h2⟩ := I.forward hrun fun e he p text t h => hfit p text t (h ▸ he)
    exact ⟨r, h1, R _ _ _ h2⟩
  · obtain ⟨v, m', h1, h2, -⟩ := I.backward hm hrun fun e he p text t h => hfit p text t (h ▸ he)
    exact ⟨v, m', h1, R _ _ _ h2⟩

omit hr in
/-- C83: Update, of a structure that is `x`. -/
theorem C83_update (hhard : ListFits w idna texts.hardcodedPSL) (O : List Obj) (i : Nat) (o : Obj) (ho : O[i]? = some o) (x : FastTLD) :
    ∃ N, ∀ fuel, N ≤ fuel → ∀ m : Mem, IsValue m o x →
      (∀ evs v m', FilesFit w idna evs →
        XRun (callSys round (sourceCtx w idna texts isPrint) fuel .Update [.obj i] ⟨[], O, []⟩) m evs v m' →
        ∃ r, LRun (x.updateL idna texts.toIdnaTexts texts.hardcodedPSL) evs r ∧ Updates m i O r v m') ∧
      ((∃ N, ∀ r, N ≤ r → m.nodes r = none) → ∀ evs r, FilesFit w idna evs →
        LRun (x.updateL idna texts.toIdnaTexts texts.hardcodedPSL) evs r →
        ∃ v m', XRun (callSys round (sourceCtx w idna texts isPrint) fuel .Update [.obj i] ⟨[], O, []⟩) m evs v m' ∧ Updates m i O r v m') := by
  rw [sourceCtx_eq (big_of hw) (two31_le hw)]
  refine ⟨2 ^ (w - 1) + 5, fun fuel h m hx => ?_⟩
  obtain ⟨f, rfl⟩ : ∃ f, fuel = f + 5 := ⟨fuel - 5, (Nat.sub_add_cancel (Nat.le_trans (Nat.le_add_left _ _) h)).symm⟩
  have hf : 2 ^ (w - 1) ≤ f := Nat.le_of_add_le_add_right h
  have I := impl_Update (isPrint := isPrint) (round := round) f (big_of hw) (sixty_five_lt hw) m [] O [] i o x ho ⟨hx.1, hx.2.1, hx.2.2⟩
    (short_of idna hf hhard) (fits_event idna hf)
  have R : ∀ v m' r, Updated m i ⟨[], O, []⟩ m' v r → Updates m i O r v m' := by
    rintro v m' r ⟨A, o, h1, h3, h4, h5⟩
    exact ⟨A, o, h1, ⟨h3.path, h3.incl, h3.trie⟩, h4, h5⟩
  refine ⟨fun evs v m' hfit hrun => ?_, fun hm evs r hfit hrun => ?_⟩
  · obtain ⟨r, h1, h2⟩ := I.forward hrun fun e he p text t h => hfit p text t (h ▸ he)
    exact ⟨r, h1, R _ _ _ h2⟩
  · obtain ⟨v, m', h1, h2, -⟩ := I.backward hm hrun fun e he p text t h => hfit p text t (h ▸ he)
    exact ⟨v, m', h1, R _ _ _ h2⟩

/-- C83: so New, by its text, always returns an extractor and no error, opens nothing twice, leaves nothing open, and logs the
lines of C72. -/
theorem C83_new_log (hhard : ListFits w idna texts.hardcodedPSL) (n : SuffixListParams) {bad : Bytes → List Bytes}
    (hbad : ∀ text, Spec.Complaints idna.toASCII texts.toASCII text (bad text)) :
    ∃ N, ∀ fuel, N ≤ fuel → ∀ (m : Mem) evs v m', FilesFit w idna evs →
      XRun (callSys round (sourceCtx w idna texts isPrint) fuel .New [.listParams n] ⟨[], [], []⟩) m evs v m' →
      Spec.Opened.afterAll {} evs = some {} ∧
      ∃ i A O o, v = .ok (.tuple [.obj i, .err none], ⟨A, O, []⟩) ∧ O[i]? = some o ∧ (∃ rules, Spec.Holds m'.nodes o.tldTrie rules) ∧
        Spec.logged evs = Spec.expectedLog bad (Spec.calls evs) ++
          (if o.cacheFilePath = [] then
            (if n.cacheFilePath = [] ∧ Spec.tempDirs (Spec.calls evs) = 0 then []
             else [(if Spec.tempDirs (Spec.calls evs) = 2 then b! "<nil>" else Spec.lastText (Spec.calls evs)) ++
              b! " Fallback to hardcoded Public Suffix List"]) ++ bad texts.hardcodedPSL
           else []) := by
  obtain ⟨N, h⟩ := C83_new hw hr idna texts isPrint hhard n
  refine ⟨N, fun fuel hf m evs v m' hfit hrun => ?_⟩
  obtain ⟨⟨x, err⟩, h1, i, A, O, o, rfl, h3, ⟨h4, h5, rules, h6, -⟩, -⟩ := (h fuel hf m).1 evs v m' hfit hrun
  obtain ⟨rfl, h7⟩ := C72_new idna texts.toIdnaTexts texts.hardcodedPSL n hbad h1
  exact ⟨(C74_closed idna texts.toIdnaTexts texts.hardcodedPSL).1 n evs _ h1, i, A, O, o, rfl, h3, ⟨rules, h6⟩, by rw [h4]; exact h7⟩

omit hw hr

/-- What a program of the model does, as one of the text that returns `g` of its result. -/
def sameAs {α : Type} (g : α → Val) : LProg α → Local → XProg (Comp (Val × Local))
  | .ret a, S => .ret (.ok (g a, S))
  | .call o k, S => .sys o fun b t => sameAs g (k b t) S
  | .effect e k, S => .effect e (sameAs g k S)

theorem sameAs_eq {α : Type} (g : α → Val) (p : LProg α) (S : Local) : sameAs g p S = endsWith p g S := by
  unfold endsWith
  induction p with
  | ret a => rfl
  | call o k ih => exact congrArg (XProg.sys o) (funext fun b => funext fun t => ih b t)
  | effect e k ih => exact congrArg (XProg.effect e) ih

include hr in
/-- C83: checkCacheFile, psl.go:206-219: the program of the model; the second result is the number of hours, a `float64`. -/
theorem C83_checkCacheFile (p : Bytes) (S : Local) : ∃ N, ∀ fuel, N ≤ fuel →
    callSys round (sourceCtx w idna texts isPrint) fuel .checkCacheFile [.str p] S =
      sameAs (fun r => .tuple [.bool r.1, .float (Spec.hours round (Spec.saturate r.2))]) (checkCacheFileL p) S := by
  refine ⟨3, fun fuel h => ?_⟩
  obtain ⟨f, rfl⟩ : ∃ f, fuel = f + 3 := ⟨fuel - 3, by omega⟩
  rw [GoLang.run_checkCacheFile f hr, sameAs_eq]

/-- C83: update, psl.go:176-203: the program of the model. -/
theorem C83_mirrors (h : Nat) (l : List Bytes) (S : Local) : ∃ N, ∀ fuel, N ≤ fuel →
    callSys round (sourceCtx w idna texts isPrint) fuel .update [.file h, .strs l] S =
      sameAs (fun r => .err (if r then none else some (b! "failed to fetch any Public Suffix List from all mirrors"))) (updateL h l) S := by
  refine ⟨3, fun fuel h => ?_⟩
  obtain ⟨f, rfl⟩ : ∃ f, fuel = f + 3 := ⟨fuel - 3, by omega⟩
  rw [GoLang.run_update f, sameAs_eq]
  rfl

end

/-! ## Concrete cases: the text, run in a world -/

/-- Running in a world, alone, with the addresses in order. -/
def XProg.runIn {α : Type} (text : Event → Bytes) : XProg α → World → WMem → Option (α × World × WMem × List LEvent)
  | .ret a, w, m => some (a, w, m, [])
  | .mem o k, w, m => match o.weak 0 0 m with
    | some (b, m') => XProg.runIn text (k b) w m'
    | none => none
  | .sys o k, w, m => (XProg.runIn text (k (o.answer w).1 (text (o.event (o.answer w).1))) (o.answer w).2 m).map fun s =>
      (s.1, s.2.1, s.2.2.1, .sys (o.event (o.answer w).1) (text (o.event (o.answer w).1)) :: s.2.2.2)
  | .effect e k, w, m => (XProg.runIn text k w m).map fun s => (s.1, s.2.1, s.2.2.1, .effect e :: s.2.2.2)

/-- To run the text with; no number is rounded. -/
def sysCtx : Ctx := sourceCtx 64 noCom ⟨exTexts, builtin, fun _ => .error []⟩ fun _ => true

/-- Running New: the path of the extractor, its option, what is on some paths of its trie, whether there is an error; the events. -/
def newText (n : SuffixListParams) (w : World) (ps : List (List Bytes)) :
    Option ((Bytes × Bool × List (List Bool) × Bool) × List LEvent) :=
  match XProg.runIn exText (callSys id sysCtx 30 .New [.listParams n] ⟨[], [], []⟩) w freshMem with
  | some (.ok (.tuple [.obj i, .err e], S), _, m, evs) => S.objs[i]?.map fun o =>
      ((o.cacheFilePath, o.includePrivateSuffix, ps.map (pathMarks m o.tldTrie), e.isSome), evs)
  | _ => none

/-- The same, with the lines of the log, what is left open, and whether the events are those of the model. -/
def newSeen (n : SuffixListParams) (w : World) (ps : List (List Bytes)) :=
  (newText n w ps).map fun r => (r.1, Spec.logged r.2, Spec.Opened.afterAll {} r.2,
    decide (r.2 = (LProg.execL exText (newL noCom exTexts builtin n) w).2.2))

set_option synthInstance.maxSize 1000

-- no cache file: the first mirror fails, the second one has list B
example : newSeen ⟨[], false⟩ (exWorld none) [[b! "org"], [b! "net"], [b! "org", b! "b"]] =
    some ((b! "/tmp/public_suffix_list.dat", false, [[false, true], [false], [false, true]], false),
      [b! "no route to host", b! "Public Suffix List updated.", b! "com 124 bad"], some {}, true) := by decide +kernel
-- a file that is asked for, with the private section
example : newSeen ⟨b! "/x", true⟩ (exWorld none) [[b! "net"], [b! "com", b! "a"]] =
    some ((b! "/x", true, [[false, true], [false, false, true]], false), [b! "com 124 bad"], some {}, true) := by decide +kernel
-- a cache file of 72 hours is used, one that is a nanosecond older is replaced
example : newSeen ⟨[], false⟩ (exWorld (some (.file ⟨listA, 28 * hour, true, true⟩))) [[b! "net"], [b! "org"]] =
      some ((b! "/tmp/public_suffix_list.dat", false, [[false, true], [false]], false), [b! "com 124 bad"], some {}, true) ∧
    newSeen ⟨[], false⟩ (exWorld (some (.file ⟨listA, 28 * hour - 1, true, true⟩))) [[b! "net"], [b! "org"]] =
      some ((b! "/tmp/public_suffix_list.dat", false, [[false], [false, true]], false),
        [b! "no route to host", b! "Public Suffix List updated.", b! "com 124 bad"], some {}, true) := by decide +kernel
-- the folder or the file cannot be opened
example : newSeen ⟨[], false⟩ { exWorld none with canOpenDir := fun _ => false } [[b! "com"]] =
      some (([], false, [[false]], false), [b! "no such folder Fallback to hardcoded Public Suffix List", b! "com 124 bad"], some {}, true) ∧
    newSeen ⟨b! "/nothing", true⟩ { exWorld none with canCreate := fun _ => false } [[b! "com"]] =
      some (([], true, [[false]], false), [b! "<nil> Fallback to hardcoded Public Suffix List", b! "com 124 bad"], some {}, true) := by
  decide +kernel
-- no mirror has a list
example : newSeen ⟨[], false⟩ { exWorld none with net := fun _ => .status 404 listB true } [] =
      some (([], false, [], false), [b! "Download failed, HTTP status code : 404", b! "Download failed, HTTP status code : 404",
        b! "<nil> Fallback to hardcoded Public Suffix List", b! "com 124 bad"], some {}, true) ∧
    newSeen ⟨[], false⟩ { exWorld none with net := fun _ => .status 200 listB false } [] =
      some (([], false, [], false), [b! "unexpected EOF", b! "unexpected EOF",
        b! "<nil> Fallback to hardcoded Public Suffix List", b! "com 124 bad"], some {}, true) := by decide +kernel

/-- So with a list built in, one file and the file system of these worlds, there are runs of the text, for every way of rounding. -/
example {round : Rat → Rat} (hr : Spec.IsRounding round) : ∃ fuel evs v m',
    XRun (callSys round sysCtx fuel .New [.listParams ⟨b! "/x", true⟩] ⟨[], [], []⟩) ⟨fun _ => none, 0⟩ evs v m' ∧ evs.length = 6 := by
  have hfit : ∀ text ∈ [builtin, listA], ListFits 64 noCom text := by
    intro text ht incl s hs
    have h : ([builtin, listA].all fun text => (rulesOf noCom true text ++ rulesOf noCom false text).all fun s => decide ((s.length : Int) + 1 < 2 ^ 63)) = true := by
      decide +kernel
    have h1 := List.all_eq_true.1 (List.all_eq_true.1 h text ht) s (by cases incl <;> simp [hs])
    exact of_decide_eq_true h1
  obtain ⟨N, h⟩ := C83_new (w := 64) (by decide) hr noCom ⟨exTexts, builtin, fun _ => .error []⟩ (fun _ => true) (hfit _ (by simp)) ⟨b! "/x", true⟩
  have hev : ((LProg.execL exText (newL noCom exTexts builtin ⟨b! "/x", true⟩) (exWorld none)).2.2.all fun e => match e with
      | .sys (.readFile _ (some text)) _ => decide (text = listA)
      | _ => true) = true ∧ (LProg.execL exText (newL noCom exTexts builtin ⟨b! "/x", true⟩) (exWorld none)).2.2.length = 6 := by decide +kernel
  obtain ⟨v, m', h1, -⟩ := (h N (Nat.le_refl _) ⟨fun _ => none, 0⟩).2 ⟨0, fun _ _ => rfl⟩ _ _
    (fun p text t ht => by
      have h3 := List.all_eq_true.1 hev.1 _ ht
      exact hfit text (by simp at h3; simp [h3]))
    (execL_run exText (newL noCom exTexts builtin ⟨b! "/x", true⟩) (exWorld none))
  exact ⟨N, _, v, m', h1, hev.2⟩

/-- Running Update on the second of two structures: those afterwards (without the tries), what is on some paths of its trie, the
text of the error, the lines of the log, whether the events are those of the model. -/
def updateText (path : Bytes) (w : World) (ps : List (List Bytes)) :
    Option (List (Bytes × Bool) × List (List Bool) × Option Bytes × List Bytes × Bool) :=
  match XProg.runIn exText (callSys id sysCtx 30 .Update [.obj 1] ⟨[], [⟨b! "p", 0, true⟩, ⟨path, 0, false⟩], []⟩) w freshMem with
  | some (.ok (.err e, S), _, m, evs) => S.objs[1]?.map fun o =>
      (S.objs.map fun o => (o.cacheFilePath, o.includePrivateSuffix), ps.map (pathMarks m o.tldTrie), e, Spec.logged evs,
        decide (evs = (LProg.execL exText (FastTLD.updateL noCom exTexts builtin ⟨path, .node false [], false⟩) w).2.2))
  | _ => none

example : updateText (b! "/tmp/public_suffix_list.dat") (exWorld none) [[b! "org"]] =
    some ([(b! "p", true), (b! "/tmp/public_suffix_list.dat", false)], [[false, true]], none,
      [b! "no route to host", b! "Public Suffix List updated.", b! "com 124 bad"], true) := by decide +kernel
-- another file; a file that cannot be opened; no mirror
example : updateText (b! "/x") (exWorld none) [[b! "org"]] =
      some ([(b! "p", true), (b! "/x", false)], [[false]], some (b! "No-op. Only default Public Suffix list file can be updated"), [], true) ∧
    updateText (b! "/tmp/public_suffix_list.dat") { exWorld none with canCreate := fun _ => false } [[b! "org"]] =
      some ([(b! "p", true), (b! "/tmp/public_suffix_list.dat", false)], [[false]], some (b! "permission denied"), [], true) ∧
    updateText (b! "/tmp/public_suffix_list.dat") { exWorld none with net := fun _ => .failed } [[b! "org"]] =
      some ([(b! "p", true), (b! "/tmp/public_suffix_list.dat", false)], [[false]],
        some (b! "failed to fetch any Public Suffix List from all mirrors"), [b! "no route to host", b! "no route to host"], true) := by
  decide +kernel

end Fasttld.Props
