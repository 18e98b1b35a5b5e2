import Verif.Props.SourceClient
import Verif.Props.Readme
import Verif.Spec.Demo
import Verif.Model.GoDemo
import Verif.Model.DemoFile

/-!
# C90: examples/demo.go, by the text
-/

set_option linter.unusedSimpArgs false

namespace Fasttld.Props
open Fasttld Fasttld.GoLang Fasttld.GoLang.Demo
open Fasttld.Spec (Request Extractor Answer RequestDoes RequestsDo DemoShows ReadOrBuiltIn demoRows demoPrivate)

/-! ## The text is that of the file -/

/-- C90: split into tokens, examples/demo.go is package, imports, and `main` with the statements that are run. -/
theorem C90_text : lexLines Files.demoGo = some
    ([.id "package", .id "main", .op ";", .id "import", .op "(", .str (b! "log"), .op ";", .str (b! "github.com/elliotwutingfeng/go-fasttld"), .op ";",
      .str (b! "github.com/fatih/color"), .op ";", .op ")", .op ";", .id "func", .id "main", .op "(", .op ")", .op "{"] ++
      Demo.main.flatMap Demo.Stmt.toks ++ [.op "}", .op ";"]) := by decide +kernel

/-! ## Proofs -/

section
variable {α β : Type}

theorem xrun_bind {p : XProg α} {f : α → XProg β} {m m' : Mem} {evs : List LEvent} {b : β} :
    XRun (p.bind f) m evs b m' ↔ ∃ a evs1 evs2 m1, evs = evs1 ++ evs2 ∧ XRun p m evs1 a m1 ∧ XRun (f a) m1 evs2 b m' := by
  constructor
  · intro h
    induction p generalizing m evs with
    | ret a => exact ⟨a, [], evs, m, rfl, .ret _ _, h⟩
    | mem o k ih =>
      cases h with
      | mem hd h =>
        obtain ⟨a, e1, e2, m1, rfl, h1, h2⟩ := ih _ h
        exact ⟨a, e1, e2, m1, rfl, .mem hd h1, h2⟩
    | sys o k ih =>
      cases h with
      | sys h =>
        obtain ⟨a, e1, e2, m1, rfl, h1, h2⟩ := ih _ _ h
        exact ⟨a, _, e2, m1, rfl, .sys h1, h2⟩
    | effect e k ih =>
      cases h with
      | effect h =>
        obtain ⟨a, e1, e2, m1, rfl, h1, h2⟩ := ih h
        exact ⟨a, _, e2, m1, rfl, .effect h1, h2⟩
  · rintro ⟨a, e1, e2, m1, rfl, h1, h2⟩
    induction h1 with
    | ret => exact h2
    | mem hd _ ih => exact .mem hd (ih h2)
    | sys _ ih => exact .sys (ih h2)
    | effect _ ih => exact .effect (ih h2)

theorem xrun_effBind {p : EffX α} {k : α → EffX β} {S : Local} {m m' : Mem} {evs : List LEvent} {b : Comp (β × Local)} :
    XRun (p.bind k S) m evs b m' ↔ ∃ a evs1 evs2 m1, evs = evs1 ++ evs2 ∧ XRun (p S) m evs1 a m1 ∧ XRun (EffX.next k a) m1 evs2 b m' := xrun_bind

theorem xrun_ret {a b : α} {m m' : Mem} {evs : List LEvent} : XRun (.ret a) m evs b m' ↔ evs = [] ∧ b = a ∧ m' = m := by
  constructor
  · rintro ⟨⟩; exact ⟨rfl, rfl, rfl⟩
  · rintro ⟨rfl, rfl, rfl⟩; exact .ret _ _

theorem xrun_effOk {a : α} {S : Local} {b : Comp (α × Local)} {m m' : Mem} {evs : List LEvent} :
    XRun (EffX.ok a S) m evs b m' ↔ evs = [] ∧ b = .ok (a, S) ∧ m' = m := xrun_ret

theorem xrun_effEffect {e : Effect} {k : Unit → EffX α} {S : Local} {b : Comp (α × Local)} {m m' : Mem} {evs : List LEvent} :
    XRun ((EffX.effect e).bind k S) m evs b m' ↔ ∃ l, evs = .effect e :: l ∧ XRun (k () S) m l b m' := by
  constructor
  · intro h
    change XRun (.effect e (k () S)) _ _ _ _ at h
    cases h with
    | effect h => exact ⟨_, rfl, h⟩
  · rintro ⟨l, rfl, h⟩
    exact .effect h

theorem printed_append (a b : List LEvent) : Spec.printed (a ++ b) = Spec.printed a ++ Spec.printed b := by
  induction a with
  | nil => rfl
  | cons e a ih =>
    cases e with
    | sys => exact ih
    | effect e => cases e <;> simp [Spec.printed, ih]

theorem printed_chunks (cs : List Chunk) : Spec.printed (cs.map fun c => .effect (.print c)) = cs := by
  induction cs with
  | nil => rfl
  | cons c cs ih => simp [Spec.printed, ih]

theorem afterAll_chunks (cs : List Chunk) : Spec.Opened.afterAll {} (cs.map fun c => .effect (.print c)) = some {} := by
  induction cs with
  | nil => rfl
  | cons c cs ih => exact ih

end

/-- The variables of `main`, with the extractor as its user sees it. -/
structure Seen where
  url : Bytes
  x : Option Extractor
  err : Option Bytes
  res : ExtractResult

/-- The variables, in memory, are these. -/
structure Holds (idna : Idna) (s : Demo.Vars) (S : Local) (m : Mem) (v : Seen) : Prop where
  url : s.url = v.url
  err : s.err = v.err
  res : s.res = v.res
  deferred : S.deferred = []
  x : match s.extractor, v.x with
    | none, none => True
    | some p, some x => IsExtractor idna m S.objs p x
    | _, _ => False

/-- The results of Extract are those of C52. -/
def DemoGives (idna : Idna) (x : Extractor) (e : URLParams) (r : ExtractResult) (er : Option Err) : Prop :=
  ∀ ts before after, Spec.StrippedLines x.list ts → Spec.Sections ts before after →
    Spec.Extracts idna (Spec.rulesOf idna.toASCII (if x.includePrivateSuffix then ts else before)) e r er

/-- What a statement does and prints. -/
inductive DStep (idna : Idna) (hard : Bytes) (text : Err → Bytes) (E : List LEvent) : Seen → Demo.Stmt → List Chunk → Seen → Prop
  | fontStyle {u x e r} : DStep idna hard text E ⟨u, x, e, r⟩ .fontStyle [] ⟨u, x, e, r⟩
  | url {u x e r d u'} : DStep idna hard text E ⟨u, x, e, r⟩ (.url d u') [] ⟨u', x, e, r⟩
  | newErr {u x e r x'} (hp : x'.includePrivateSuffix = false) (hl : ReadOrBuiltIn hard E x'.list) :
      DStep idna hard text E ⟨u, x, e, r⟩ .newErr [] ⟨u, some x', none, r⟩
  | new {u x e r x' p} (hp : x'.includePrivateSuffix = p) (hl : ReadOrBuiltIn hard E x'.list) :
      DStep idna hard text E ⟨u, x, e, r⟩ (.new p) [] ⟨u, some x', e, r⟩
  | fatal {u x r} : DStep idna hard text E ⟨u, x, none, r⟩ .fatal [] ⟨u, x, none, r⟩
  | extract {u x e r d f r' er} (h : DemoGives idna x (Demo.params u f) r' er) :
      DStep idna hard text E ⟨u, some x, e, r⟩ (.extract d f) [] ⟨u, some x, e, r'⟩
  | title {u x e r t} : DStep idna hard text E ⟨u, x, e, r⟩ (.title t) [Spec.boldLine t] ⟨u, x, e, r⟩
  | plain {u x e r t} : DStep idna hard text E ⟨u, x, e, r⟩ (.plain t) [⟨[], t ++ [10]⟩] ⟨u, x, e, r⟩
  | printRes {u x e r} : DStep idna hard text E ⟨u, x, e, r⟩ .printRes (Spec.shown u r) ⟨u, x, e, r⟩
  | update {u x e r x'} : DStep idna hard text E ⟨u, some x, e, r⟩ .update [] ⟨u, some x', e, r⟩
  | extractErr {u x e r r' er} (h : DemoGives idna x (Demo.params u none) r' er) :
      DStep idna hard text E ⟨u, some x, e, r⟩ .extractErr (Spec.shownError (er.map text)) ⟨u, some x, er.map text, r'⟩

/-- Statements one after the other. -/
inductive DSteps (idna : Idna) (hard : Bytes) (text : Err → Bytes) (E : List LEvent) : Seen → List Demo.Stmt → List Chunk → Seen → Prop
  | nil {v} : DSteps idna hard text E v [] [] v
  | cons {v v' v'' t ts o o'} (h : DStep idna hard text E v t o v') (hs : DSteps idna hard text E v' ts o' v'') :
      DSteps idna hard text E v (t :: ts) (o ++ o') v''

/-- The statements can be run, one after the other: there is an extractor, no error, and the URL fits, where this is needed. -/
def Runnable (w : Nat) (idna : Idna) : (hasX noErr : Bool) → (url : Bytes) → List Demo.Stmt → Prop
  | _, _, _, [] => True
  | a, b, u, t :: ts => match t with
    | .url _ u' => Runnable w idna a b u' ts
    | .newErr => Runnable w idna true true u ts
    | .new _ => Runnable w idna true b u ts
    | .fatal => b = true ∧ Runnable w idna a b u ts
    | .extract _ f => a = true ∧ UrlFits w idna (Demo.params u f) ∧ Runnable w idna a b u ts
    | .update => a = true ∧ Runnable w idna a b u ts
    | .extractErr => a = true ∧ UrlFits w idna (Demo.params u none) ∧ Runnable w idna a false u ts
    | _ => Runnable w idna a b u ts

theorem readOrBuiltIn_mono {hard list : Bytes} {a b : List LEvent} (h : ReadOrBuiltIn hard a list) (hab : ∀ e ∈ a, e ∈ b) : ReadOrBuiltIn hard b list :=
  h.imp id fun ⟨p, t, h⟩ => ⟨p, t, hab _ h⟩

theorem DStep.mono {idna : Idna} {hard : Bytes} {text : Err → Bytes} {a b : List LEvent} {v t o v'} (h : DStep idna hard text a v t o v')
    (hab : ∀ e ∈ a, e ∈ b) : DStep idna hard text b v t o v' := by
  cases h with
  | newErr hp hl => exact .newErr hp (readOrBuiltIn_mono hl hab)
  | new hp hl => exact .new hp (readOrBuiltIn_mono hl hab)
  | extract h => exact .extract h
  | extractErr h => exact .extractErr h
  | _ => constructor

theorem DSteps.mono {idna : Idna} {hard : Bytes} {text : Err → Bytes} {a b : List LEvent} {v ts o v'} (h : DSteps idna hard text a v ts o v')
    (hab : ∀ e ∈ a, e ∈ b) : DSteps idna hard text b v ts o v' := by
  induction h with
  | nil => exact .nil
  | cons h _ ih => exact .cons (h.mono hab) ih

theorem dsteps_cons {idna : Idna} {hard : Bytes} {text : Err → Bytes} {E : List LEvent} {v t ts o v''} :
    DSteps idna hard text E v (t :: ts) o v'' ↔ ∃ v' o1 o2, o = o1 ++ o2 ∧ DStep idna hard text E v t o1 v' ∧ DSteps idna hard text E v' ts o2 v'' := by
  constructor
  · intro h
    cases h with
    | cons h hs => exact ⟨_, _, _, rfl, h, hs⟩
  · rintro ⟨v', o1, o2, rfl, h, hs⟩
    exact .cons h hs

section
variable {w : Nat} (hw : 32 ≤ w) {round : Rat → Rat} (hr : Spec.IsRounding round) (idna : Idna) (texts : Lib) (isPrint : Nat → Bool)
include hw hr

local notation "CTX" => sourceCtx w idna texts isPrint
local notation "HARD" => Lib.hardcodedPSL texts
local notation "TEXT" => Err.text isPrint

/-- Every run of New. -/
theorem demo_new (hhard : ListFits w idna HARD) : ∃ N, ∀ fuel, N ≤ fuel → ∀ (priv : Bool) S m evs r m', S.deferred = [] → FilesFit w idna evs →
    XRun (Demo.callNew round CTX fuel priv S) m evs r m' → ∃ p S' x, r = .ok ((p, none), S') ∧ S'.deferred = [] ∧ IsExtractor idna m' S'.objs p x ∧
      x.includePrivateSuffix = priv ∧ ReadOrBuiltIn HARD evs x.list ∧ Spec.Opened.afterAll {} evs = some {} ∧ Spec.printed evs = [] := by
  obtain ⟨N, h⟩ := client_call hw hr idna texts isPrint hhard
  refine ⟨N, fun fuel hf priv S m evs r m' hS hfit hrun => ?_⟩
  obtain ⟨c, e1, e2, m1, rfl, h1, h2⟩ := xrun_effBind.1 hrun
  obtain ⟨v, S', a, p, xs', rfl, h3, h4, h5, h6, h7⟩ := h fuel hf ⟨S, [], m⟩ [] (.new ⟨[], priv⟩) e1 c m1 ⟨rfl, by simp, by simp, hS⟩ trivial trivial
    (fun p text t h => hfit p text t (by simp [h])) h1
  cases h4 with
  | new hs hl =>
    rename_i x
    unfold answerOf at h3
    split at h3 <;> simp only [Option.some.injEq, Prod.mk.injEq, reduceCtorEq, false_and] at h3
    obtain ⟨h3, rfl⟩ := h3
    cases h3
    obtain ⟨rfl, rfl, rfl⟩ := xrun_effOk.1 h2
    refine ⟨_, S', x, rfl, h5.deferred, h5.each 0 _ x rfl rfl, hs, ?_, by simpa using h6, by simpa using h7⟩
    rcases hl with ⟨-, hl⟩ | ⟨t, hl⟩
    · exact .inl hl
    · exact .inr ⟨_, t, by simpa using hl⟩

/-- Every run of Extract. -/
theorem demo_extract (hhard : ListFits w idna HARD) : ∃ N, ∀ fuel, N ≤ fuel → ∀ (s : Demo.Vars) (e : URLParams) S m evs r m' p x, s.extractor = some p →
    S.deferred = [] → IsExtractor idna m S.objs p x → UrlFits w idna e → FilesFit w idna evs →
    XRun (Demo.callExtract round CTX fuel s e S) m evs r m' → ∃ S' r' er, r = .ok ((r', er.map TEXT), S') ∧ S'.deferred = [] ∧ IsExtractor idna m' S'.objs p x ∧
      DemoGives idna x e r' er ∧ Spec.Opened.afterAll {} evs = some {} ∧ Spec.printed evs = [] := by
  obtain ⟨N, h⟩ := client_call hw hr idna texts isPrint hhard
  refine ⟨N, fun fuel hf s e S m evs r m' p x hp hS hx hu hfit hrun => ?_⟩
  unfold Demo.callExtract at hrun
  rw [hp] at hrun
  obtain ⟨c, e1, e2, m1, rfl, h1, h2⟩ := xrun_effBind.1 hrun
  have hhas : Client.Has idna ⟨S, [p], m⟩ [x] := ⟨rfl, by simp, fun k q y hq hy => by
    cases k with
    | zero => cases hq; cases hy; exact hx
    | succ k => simp at hq, hS⟩
  obtain ⟨v, S', a, q, xs', rfl, h3, h4, h5, h6, h7⟩ := h fuel hf ⟨S, [p], m⟩ [x] (.extract 0 e) e1 c m1 hhas hu (by simp [Request.Below])
    (fun p text t h => hfit p text t (by simp [h])) h1
  cases h4 with
  | extract hy he hres =>
    rename_i y r' er
    cases hy
    unfold answerOf at h3
    split at h3 <;> simp only [Option.some.injEq, Prod.mk.injEq, reduceCtorEq, false_and, Answer.extract.injEq] at h3
    obtain ⟨⟨rfl, rfl⟩, rfl⟩ := h3
    obtain ⟨rfl, rfl, rfl⟩ := xrun_effOk.1 h2
    exact ⟨S', _, er, rfl, h5.deferred, h5.each 0 p x rfl rfl, hres, by simpa using h6, by simpa using h7⟩

/-- Every run of Update. -/
theorem demo_update (hhard : ListFits w idna HARD) : ∃ N, ∀ fuel, N ≤ fuel → ∀ S m evs r m' p x,
    S.deferred = [] → IsExtractor idna m S.objs p x → FilesFit w idna evs →
    XRun (callSys round CTX fuel .Update [.obj p] S) m evs r m' → ∃ S' e x', r = .ok (.err e, S') ∧ S'.deferred = [] ∧ IsExtractor idna m' S'.objs p x' ∧
      Spec.Opened.afterAll {} evs = some {} ∧ Spec.printed evs = [] := by
  obtain ⟨N, h⟩ := client_call hw hr idna texts isPrint hhard
  refine ⟨N, fun fuel hf S m evs r m' p x hS hx hfit hrun => ?_⟩
  have hhas : Client.Has idna ⟨S, [p], m⟩ [x] := ⟨rfl, by simp, fun k q y hq hy => by
    cases k with
    | zero => cases hq; cases hy; exact hx
    | succ k => simp at hq, hS⟩
  obtain ⟨v, S', a, q, xs', rfl, h3, h4, h5, h6, h7⟩ := h fuel hf ⟨S, [p], m⟩ [x] (.update 0) evs r m' hhas trivial (by simp [Request.Below]) hfit hrun
  have hv : ∀ e, a = .update e → v = .err e ∧ q = none := by
    rintro e rfl
    unfold answerOf at h3
    split at h3 <;> simp only [Option.some.injEq, Prod.mk.injEq, reduceCtorEq, false_and, Answer.update.injEq] at h3
    obtain ⟨rfl, rfl⟩ := h3
    exact ⟨rfl, rfl⟩
  cases h4 with
  | failed hy =>
    obtain ⟨rfl, rfl⟩ := hv _ rfl
    exact ⟨S', _, x, rfl, h5.deferred, h5.each 0 p x rfl rfl, h6, h7⟩
  | updated hy hl =>
    obtain ⟨rfl, rfl⟩ := hv _ rfl
    cases hy
    exact ⟨S', _, _, rfl, h5.deferred, h5.each 0 p _ rfl rfl, h6, h7⟩

/-- Every run of a statement. -/
theorem demo_step (hhard : ListFits w idna HARD) : ∃ N, ∀ fuel, N ≤ fuel → ∀ t ts (a b : Bool) s S m v e1 c m1, Holds idna s S m v →
    (a = true → v.x.isSome = true) → (b = true → v.err = none) → Runnable w idna a b v.url (t :: ts) → FilesFit w idna e1 →
    XRun (Demo.Stmt.run round CTX fuel s t S) m e1 c m1 → ∃ s1 S1 v1 a' b', c = .ok (s1, S1) ∧ Holds idna s1 S1 m1 v1 ∧
      (a' = true → v1.x.isSome = true) ∧ (b' = true → v1.err = none) ∧
      Runnable w idna a' b' v1.url ts ∧ DStep idna HARD TEXT e1 v t (Spec.printed e1) v1 ∧ Spec.Opened.afterAll {} e1 = some {} := by
  obtain ⟨N1, hN⟩ := demo_new hw hr idna texts isPrint hhard
  obtain ⟨N2, hE⟩ := demo_extract hw hr idna texts isPrint hhard
  obtain ⟨N3, hU⟩ := demo_update hw hr idna texts isPrint hhard
  refine ⟨max (max N1 N2) (max N3 2), fun fuel hf t ts a b s S m v e1 c m1 hv ha hb hrn hf1 h1 => ?_⟩
  obtain ⟨u, x, er, re⟩ := v
  obtain ⟨su, sx, se, sr⟩ := s
  obtain ⟨rfl, rfl, rfl, hd, hx⟩ := hv
  dsimp only at hx ha hb hrn h1
  have hget : ∀ {a' : Bool}, a = a' → a' = true → ∃ p y, sx = some p ∧ x = some y ∧ IsExtractor idna m S.objs p y := by
    intro a' h h'
    have h3 := ha (h.trans h')
    obtain ⟨y, rfl⟩ := Option.isSome_iff_exists.1 h3
    cases sx with
    | none => exact hx.elim
    | some p => exact ⟨p, y, rfl, rfl, hx⟩
  cases t with
  | fontStyle =>
    obtain ⟨rfl, rfl, rfl⟩ := xrun_effOk.1 h1
    exact ⟨_, _, ⟨su, x, se, sr⟩, a, b, rfl, ⟨rfl, rfl, rfl, hd, hx⟩, ha, hb, hrn, .fontStyle, rfl⟩
  | url d u' =>
    obtain ⟨rfl, rfl, rfl⟩ := xrun_effOk.1 h1
    exact ⟨_, _, ⟨u', x, se, sr⟩, a, b, rfl, ⟨rfl, rfl, rfl, hd, hx⟩, ha, hb, hrn, .url, rfl⟩
  | newErr =>
    obtain ⟨c', f1, f2, m2, rfl, g1, g2⟩ := xrun_effBind.1 h1
    obtain ⟨p, S', y, rfl, k1, k2, k3, k4, k5, k6⟩ := hN fuel (by omega) false S m f1 c' m2 hd (fun p text t h => hf1 p text t (by simp [h])) g1
    obtain ⟨rfl, rfl, rfl⟩ := xrun_effOk.1 g2
    rw [List.append_nil]
    refine ⟨_, _, ⟨su, some y, none, sr⟩, true, true, rfl, ⟨rfl, rfl, rfl, k1, k2⟩, fun _ => rfl, fun _ => rfl, hrn, ?_, k5⟩
    rw [k6]
    exact .newErr k3 k4
  | new priv =>
    obtain ⟨c', f1, f2, m2, rfl, g1, g2⟩ := xrun_effBind.1 h1
    obtain ⟨p, S', y, rfl, k1, k2, k3, k4, k5, k6⟩ := hN fuel (by omega) priv S m f1 c' m2 hd (fun p text t h => hf1 p text t (by simp [h])) g1
    obtain ⟨rfl, rfl, rfl⟩ := xrun_effOk.1 g2
    rw [List.append_nil]
    refine ⟨_, _, ⟨su, some y, se, sr⟩, true, b, rfl, ⟨rfl, rfl, rfl, k1, k2⟩, fun _ => rfl, hb, hrn, ?_, k5⟩
    rw [k6]
    exact .new k3 k4
  | fatal =>
    obtain ⟨rfl, hrn⟩ := hrn
    obtain rfl := hb rfl
    obtain ⟨rfl, rfl, rfl⟩ := xrun_effOk.1 h1
    exact ⟨_, _, ⟨su, x, none, sr⟩, a, true, rfl, ⟨rfl, rfl, rfl, hd, hx⟩, ha, hb, hrn, .fatal, rfl⟩
  | extract d f =>
    obtain ⟨h3, hu, hrn⟩ := hrn
    obtain ⟨p, y, rfl, rfl, hy⟩ := hget rfl h3
    obtain ⟨c', f1, f2, m2, rfl, g1, g2⟩ := xrun_effBind.1 h1
    obtain ⟨S', r', er', rfl, k1, k2, k3, k5, k6⟩ := hE fuel (by omega) _ _ S m f1 c' m2 p y rfl hd hy hu (fun p text t h => hf1 p text t (by simp [h])) g1
    obtain ⟨rfl, rfl, rfl⟩ := xrun_effOk.1 g2
    rw [List.append_nil]
    refine ⟨_, _, ⟨su, some y, se, r'⟩, a, b, rfl, ⟨rfl, rfl, rfl, k1, k2⟩, fun _ => rfl, hb, hrn, ?_, k5⟩
    rw [k6]
    exact .extract k3
  | title tt =>
    obtain ⟨l, rfl, g⟩ := xrun_effEffect.1 h1
    obtain ⟨rfl, rfl, rfl⟩ := xrun_effOk.1 g
    exact ⟨_, _, ⟨su, x, se, sr⟩, a, b, rfl, ⟨rfl, rfl, rfl, hd, hx⟩, ha, hb, hrn, .title, rfl⟩
  | plain tt =>
    obtain ⟨l, rfl, g⟩ := xrun_effEffect.1 h1
    obtain ⟨rfl, rfl, rfl⟩ := xrun_effOk.1 g
    exact ⟨_, _, ⟨su, x, se, sr⟩, a, b, rfl, ⟨rfl, rfl, rfl, hd, hx⟩, ha, hb, hrn, .plain, rfl⟩
  | printRes =>
    obtain ⟨c', f1, f2, m2, rfl, g1, g2⟩ := xrun_effBind.1 h1
    obtain ⟨rfl, rfl, rfl⟩ := (C85_printRes hw idna texts isPrint su sr fuel (by omega) m S f1 c' m2).1 g1
    obtain ⟨rfl, rfl, rfl⟩ := xrun_effOk.1 g2
    rw [List.append_nil]
    refine ⟨_, _, ⟨su, x, se, sr⟩, a, b, rfl, ⟨rfl, rfl, rfl, hd, hx⟩, ha, hb, hrn, ?_, afterAll_chunks _⟩
    rw [printed_chunks]
    exact .printRes
  | update =>
    obtain ⟨h3, hrn⟩ := hrn
    obtain ⟨p, y, rfl, rfl, hy⟩ := hget rfl h3
    obtain ⟨c', f1, f2, m2, rfl, g1, g2⟩ := xrun_effBind.1 h1
    obtain ⟨S', e, y', rfl, k1, k2, k5, k6⟩ := hU fuel (by omega) S m f1 c' m2 p y hd hy (fun p text t h => hf1 p text t (by simp [h])) g1
    cases e with
    | none =>
      obtain ⟨rfl, rfl, rfl⟩ := xrun_effOk.1 g2
      rw [List.append_nil]
      refine ⟨_, _, ⟨su, some y', se, sr⟩, a, b, rfl, ⟨rfl, rfl, rfl, k1, k2⟩, fun _ => rfl, hb, hrn, ?_, k5⟩
      rw [k6]
      exact .update
    | some tx =>
      obtain ⟨l, rfl, g⟩ := xrun_effEffect.1 g2
      obtain ⟨rfl, rfl, rfl⟩ := xrun_effOk.1 g
      refine ⟨_, _, ⟨su, some y', se, sr⟩, a, b, rfl, ⟨rfl, rfl, rfl, k1, k2⟩, fun _ => rfl, hb, hrn, ?_, ?_⟩
      · rw [printed_append, k6]
        exact .update
      · rw [Fasttld.afterAll_append, k5]
        rfl
  | extractErr =>
    obtain ⟨h3, hu, hrn⟩ := hrn
    obtain ⟨p, y, rfl, rfl, hy⟩ := hget rfl h3
    obtain ⟨c', f1, f2, m2, rfl, g1, g2⟩ := xrun_effBind.1 h1
    obtain ⟨S', r', er', rfl, k1, k2, k3, k5, k6⟩ := hE fuel (by omega) _ _ S m f1 c' m2 p y rfl hd hy hu (fun p text t h => hf1 p text t (by simp [h])) g1
    cases er' with
    | none =>
      obtain ⟨rfl, rfl, rfl⟩ := xrun_effOk.1 g2
      rw [List.append_nil]
      refine ⟨_, _, ⟨su, some y, none, r'⟩, a, false, rfl, ⟨rfl, rfl, rfl, k1, k2⟩, fun _ => rfl, by simp, hrn, ?_, k5⟩
      rw [k6]
      exact .extractErr (er := none) k3
    | some e =>
      obtain ⟨l, rfl, g⟩ := xrun_effEffect.1 g2
      obtain ⟨l', rfl, g'⟩ := xrun_effEffect.1 g
      obtain ⟨rfl, rfl, rfl⟩ := xrun_effOk.1 g'
      refine ⟨_, _, ⟨su, some y, some (TEXT e), r'⟩, a, false, rfl, ⟨rfl, rfl, rfl, k1, k2⟩, fun _ => rfl, by simp, hrn, ?_, ?_⟩
      · rw [printed_append, k6]
        exact .extractErr (er := some e) k3
      · rw [Fasttld.afterAll_append, k5]
        rfl

/-- Every run of statements. -/
theorem demo_runs (hhard : ListFits w idna HARD) : ∃ N, ∀ fuel, N ≤ fuel → ∀ ts (a b : Bool) s S m v evs r m', Holds idna s S m v →
    (a = true → v.x.isSome = true) → (b = true → v.err = none) → Runnable w idna a b v.url ts → FilesFit w idna evs →
    XRun (Demo.runAll round CTX fuel s ts S) m evs r m' → ∃ s' S' v', r = .ok (s', S') ∧ Holds idna s' S' m' v' ∧
      DSteps idna HARD TEXT evs v ts (Spec.printed evs) v' ∧ Spec.Opened.afterAll {} evs = some {} := by
  obtain ⟨N, hstep⟩ := demo_step hw hr idna texts isPrint hhard
  refine ⟨N, fun fuel hf ts => ?_⟩
  induction ts with
  | nil =>
    intro a b s S m v evs r m' hv _ _ _ _ hrun
    obtain ⟨rfl, rfl, rfl⟩ := xrun_effOk.1 hrun
    exact ⟨s, S, v, rfl, hv, .nil, rfl⟩
  | cons t ts ih =>
    intro a b s S m v evs r m' hv ha hb hrn hfit hrun
    obtain ⟨c, e1, e2, m1, rfl, h1, h2⟩ := xrun_effBind.1 hrun
    have hf1 : FilesFit w idna e1 := fun p text t h => hfit p text t (by simp [h])
    have hf2 : FilesFit w idna e2 := fun p text t h => hfit p text t (by simp [h])
    obtain ⟨s1, S1, v1, a', b', rfl, k1, k2, k3, k4, k5, k6⟩ := hstep fuel hf t ts a b s S m v e1 c m1 hv ha hb hrn hf1 h1
    obtain ⟨s', S', v', rfl, l1, l2, l3⟩ := ih a' b' s1 S1 m1 v1 e2 r m' k1 k2 k3 k4 hf2 h2
    refine ⟨s', S', v', rfl, l1, ?_, ?_⟩
    · rw [printed_append]
      exact .cons (k5.mono fun e he => by simp [he]) (l2.mono fun e he => by simp [he])
    · rw [Fasttld.afterAll_append, k6]
      exact l3

/-! ### Runs exist -/

/-- The events are answers of `env` with these texts of errors, and the lists fit. -/
structure Fair (w : Nat) (idna : Idna) (env : Environment) (text : Event → Bytes) (past : List Event) (evs : List LEvent) : Prop where
  fit : FilesFit w idna evs
  answers : Answers env past ((Spec.calls evs).map Prod.fst)
  texts : ∀ e t, LEvent.sys e t ∈ evs → t = text e

omit hw hr in
theorem fair_append {env : Environment} {text : Event → Bytes} {past : List Event} {a b : List LEvent} (ha : Fair w idna env text past a)
    (hb : Fair w idna env text (past ++ (Spec.calls a).map Prod.fst) b) : Fair w idna env text past (a ++ b) where
  fit := fun p l t h => (List.mem_append.1 h).elim (ha.fit p l t) (hb.fit p l t)
  answers := by rw [calls_append, List.map_append]; exact answers_append ha.answers hb.answers
  texts := fun e t h => (List.mem_append.1 h).elim (ha.texts e t) (hb.texts e t)

omit hw hr in
theorem fair_effects {env : Environment} {text : Event → Bytes} {past : List Event} {a : List LEvent} (h : ∀ e ∈ a, ∃ x, e = .effect x) : Fair w idna env text past a where
  fit := fun p l t hm => by obtain ⟨_, ⟨⟩⟩ := h _ hm
  answers := by
    have : Spec.calls a = [] := by
      induction a with
      | nil => rfl
      | cons e a ih =>
        obtain ⟨x, rfl⟩ := h e (by simp)
        exact ih fun e he => h e (by simp [he])
    rw [this]
    exact .nil _
  texts := fun e t hm => by obtain ⟨_, ⟨⟩⟩ := h _ hm

/-- A computation that only logs or prints, and always ends. -/
def Quiet {α : Type} (p : EffX α) : Prop := ∀ S m, ∃ es b, XRun (p S) m es b m ∧ ∀ e ∈ es, ∃ x, e = .effect x

omit hw hr in
theorem quiet_ok {α : Type} {a : α} : Quiet (EffX.ok a) := fun S m => ⟨[], _, .ret _ _, by simp⟩

omit hw hr in
theorem quiet_lift {α : Type} {a : Comp α} : Quiet (EffX.lift a) := fun S m => ⟨[], _, .ret _ _, by simp⟩

omit hw hr in
theorem quiet_effect {α : Type} {e : Effect} {k : Unit → EffX α} (h : ∀ u, Quiet (k u)) : Quiet ((EffX.effect e).bind k) := fun S m => by
  obtain ⟨es, b, h1, h2⟩ := h () S m
  refine ⟨_, b, xrun_effEffect.2 ⟨es, rfl, h1⟩, ?_⟩
  simpa using h2

/-- There is a run, with the answers of `env`. -/
def Ends {α : Type} (w : Nat) (idna : Idna) (env : Environment) (text : Event → Bytes) (past : List Event) (p : XProg α) (m : Mem) : Prop :=
  ∃ evs c m', XRun p m evs c m' ∧ Fair w idna env text past evs ∧ Free m'

omit hw hr in
theorem ends_quiet {α : Type} {env : Environment} {text : Event → Bytes} {past : List Event} {p : EffX α} {S : Local} {m : Mem} (h : Quiet p) (hm : Free m) :
    Ends w idna env text past (p S) m := by
  obtain ⟨es, b, h1, h2⟩ := h S m
  exact ⟨es, b, m, h1, fair_effects idna h2, hm⟩

omit hw hr in
theorem ends_bind {α β : Type} {env : Environment} {text : Event → Bytes} {past : List Event} {p : EffX α} {k : α → EffX β} {S : Local} {m : Mem}
    (h : Ends w idna env text past (p S) m) (hk : ∀ a, Quiet (k a)) : Ends w idna env text past (p.bind k S) m := by
  obtain ⟨e1, c, m1, h1, h2, h3⟩ := h
  match c with
  | .error t => exact ⟨_, _, m1, xrun_effBind.2 ⟨_, e1, [], m1, rfl, h1, .ret _ _⟩, fair_append idna h2 (fair_effects idna (by simp)), h3⟩
  | .ok (a, S') =>
    obtain ⟨es, b, h4, h5⟩ := hk a S' m1
    exact ⟨_, _, m1, xrun_effBind.2 ⟨_, e1, es, m1, rfl, h1, h4⟩, fair_append idna h2 (fair_effects idna h5), h3⟩

/-- Every statement has a run. -/
theorem demo_stepEnds (hhard : ListFits w idna HARD) (env : Environment) (text : Event → Bytes)
    (henv : ∀ past path list, env (Option Bytes) past (.readFile path) = some list → ListFits w idna list) :
    ∃ N, ∀ fuel, N ≤ fuel → ∀ t ts (a b : Bool) s S m v past, Holds idna s S m v →
    (a = true → v.x.isSome = true) → Runnable w idna a b v.url (t :: ts) → Free m →
    Ends w idna env text past (Demo.Stmt.run round CTX fuel s t S) m := by
  obtain ⟨N, h⟩ := client_exists hw hr idna texts isPrint hhard env text henv
  refine ⟨max N 2, fun fuel hf t ts a b s S m v past hv ha hrn hm => ?_⟩
  have hnew : ∀ priv, Ends w idna env text past (Demo.callNew round CTX fuel priv S) m := by
    intro priv
    obtain ⟨evs, r, m', h1, h2, h3, h4, h5⟩ := h fuel (by omega) ⟨S, [], m⟩ [] (.new ⟨[], priv⟩) past ⟨rfl, by simp, by simp, hv.deferred⟩ trivial trivial hm
    refine ends_bind idna ⟨evs, r, m', h1, ⟨h2, h4, h5⟩, h3⟩ fun a => ?_
    split
    · exact quiet_ok
    · exact quiet_lift
  obtain ⟨u, x, er, re⟩ := v
  obtain ⟨su, sx, se, sr⟩ := s
  obtain ⟨rfl, rfl, rfl, hd, hx⟩ := hv
  dsimp only at hx ha hrn
  have hget : a = true → ∃ p y, sx = some p ∧ x = some y ∧ IsExtractor idna m S.objs p y := by
    intro h
    have h3 := ha h
    obtain ⟨y, rfl⟩ := Option.isSome_iff_exists.1 h3
    cases sx with
    | none => exact hx.elim
    | some p => exact ⟨p, y, rfl, rfl, hx⟩
  have hhas : ∀ {p y}, IsExtractor idna m S.objs p y → Client.Has idna ⟨S, [p], m⟩ [y] := fun {p y} hx => ⟨rfl, by simp, fun k q y hq hy => by
    cases k with
    | zero => cases hq; cases hy; exact hx
    | succ k => simp at hq, hd⟩
  have hext : ∀ f, a = true → UrlFits w idna (Demo.params su f) → Ends w idna env text past (Demo.callExtract round CTX fuel ⟨su, sx, se, sr⟩ (Demo.params su f) S) m := by
    intro f h3 hu
    obtain ⟨p, y, rfl, rfl, hy⟩ := hget h3
    obtain ⟨evs, r, m', h1, h2, h3, h4, h5⟩ := h fuel (by omega) ⟨S, [p], m⟩ [y] (.extract 0 (Demo.params su f)) past (hhas hy) hu (by simp [Request.Below]) hm
    refine ends_bind idna ⟨evs, r, m', h1, ⟨h2, h4, h5⟩, h3⟩ fun a => ?_
    split
    · exact quiet_ok
    · exact quiet_lift
  cases t with
  | fontStyle => exact ends_quiet idna quiet_ok hm
  | url d u' => exact ends_quiet idna quiet_ok hm
  | newErr => exact ends_bind idna (hnew _) fun _ => quiet_ok
  | new priv => exact ends_bind idna (hnew _) fun _ => quiet_ok
  | fatal =>
    refine ends_quiet idna ?_ hm
    cases se with
    | none => exact quiet_ok
    | some _ => exact quiet_lift
  | extract d f => exact ends_bind idna (hext f hrn.1 hrn.2.1) fun _ => quiet_ok
  | title tt => exact ends_quiet idna (quiet_effect fun _ => quiet_ok) hm
  | plain tt => exact ends_quiet idna (quiet_effect fun _ => quiet_ok) hm
  | printRes =>
    refine ends_bind idna ⟨_, _, m, (C85_printRes hw idna texts isPrint su sr fuel (by omega) m S _ _ m).2 ⟨rfl, rfl, rfl⟩, fair_effects idna ?_, hm⟩ fun _ => quiet_ok
    intro e he
    obtain ⟨c, -, rfl⟩ := List.mem_map.1 he
    exact ⟨_, rfl⟩
  | update =>
    obtain ⟨p, y, rfl, rfl, hy⟩ := hget hrn.1
    obtain ⟨evs, r, m', h1, h2, h3, h4, h5⟩ := h fuel (by omega) ⟨S, [p], m⟩ [y] (.update 0) past (hhas hy) trivial (by simp [Request.Below]) hm
    refine ends_bind idna ⟨evs, r, m', h1, ⟨h2, h4, h5⟩, h3⟩ fun a => ?_
    split
    · exact quiet_ok
    · exact quiet_effect fun _ => quiet_ok
    · exact quiet_lift
  | extractErr =>
    refine ends_bind idna (hext none hrn.1 hrn.2.1) fun (r, e) => ?_
    cases e with
    | none => exact quiet_ok
    | some _ => exact quiet_effect fun _ => quiet_effect fun _ => quiet_ok

omit hw hr in
section
variable {idna : Idna} {hard : Bytes} {text : Err → Bytes} {E : List LEvent} {u : Bytes} {x : Option Extractor} {y : Extractor} {e : Option Bytes} {r : ExtractResult}
  {ts : List Demo.Stmt} {o : List Chunk} {v : Seen}

local notation "DS" => DSteps idna hard text E

theorem ds_nil {v' : Seen} (h : DS v' [] o v) : o = [] := by cases h; rfl
theorem ds_fontStyle (h : DS ⟨u, x, e, r⟩ (.fontStyle :: ts) o v) : DS ⟨u, x, e, r⟩ ts o v := by
  rcases h with _ | ⟨⟨⟩, h⟩; exact h
theorem ds_url {d u'} (h : DS ⟨u, x, e, r⟩ (.url d u' :: ts) o v) : DS ⟨u', x, e, r⟩ ts o v := by
  rcases h with _ | ⟨⟨⟩, h⟩; exact h
theorem ds_newErr (h : DS ⟨u, x, e, r⟩ (.newErr :: ts) o v) :
    ∃ y, y.includePrivateSuffix = false ∧ ReadOrBuiltIn hard E y.list ∧ DS ⟨u, some y, none, r⟩ ts o v := by
  rcases h with _ | ⟨⟨⟩, h⟩; exact ⟨_, ‹_›, ‹_›, h⟩
theorem ds_new {p} (h : DS ⟨u, x, e, r⟩ (.new p :: ts) o v) :
    ∃ y, y.includePrivateSuffix = p ∧ ReadOrBuiltIn hard E y.list ∧ DS ⟨u, some y, e, r⟩ ts o v := by
  rcases h with _ | ⟨⟨⟩, h⟩; exact ⟨_, ‹_›, ‹_›, h⟩
theorem ds_fatal (h : DS ⟨u, x, e, r⟩ (.fatal :: ts) o v) : DS ⟨u, x, e, r⟩ ts o v := by
  rcases h with _ | ⟨⟨⟩, h⟩; exact h
theorem ds_extract {d f} (h : DS ⟨u, some y, e, r⟩ (.extract d f :: ts) o v) :
    ∃ r' er, DemoGives idna y (Demo.params u f) r' er ∧ DS ⟨u, some y, e, r'⟩ ts o v := by
  rcases h with _ | ⟨⟨⟩, h⟩; exact ⟨_, _, ‹_›, h⟩
theorem ds_title {t} (h : DS ⟨u, x, e, r⟩ (.title t :: ts) o v) : ∃ o', o = Spec.boldLine t :: o' ∧ DS ⟨u, x, e, r⟩ ts o' v := by
  rcases h with _ | ⟨⟨⟩, h⟩; exact ⟨_, rfl, h⟩
theorem ds_plain {t} (h : DS ⟨u, x, e, r⟩ (.plain t :: ts) o v) : ∃ o', o = ⟨[], t ++ [10]⟩ :: o' ∧ DS ⟨u, x, e, r⟩ ts o' v := by
  rcases h with _ | ⟨⟨⟩, h⟩; exact ⟨_, rfl, h⟩
theorem ds_printRes (h : DS ⟨u, x, e, r⟩ (.printRes :: ts) o v) : ∃ o', o = Spec.shown u r ++ o' ∧ DS ⟨u, x, e, r⟩ ts o' v := by
  rcases h with _ | ⟨⟨⟩, h⟩; exact ⟨_, rfl, h⟩
theorem ds_update (h : DS ⟨u, some y, e, r⟩ (.update :: ts) o v) : ∃ y', DS ⟨u, some y', e, r⟩ ts o v := by
  rcases h with _ | ⟨⟨⟩, h⟩; exact ⟨_, h⟩
theorem ds_extractErr (h : DS ⟨u, some y, e, r⟩ (.extractErr :: ts) o v) :
    ∃ r' er o', DemoGives idna y (Demo.params u none) r' er ∧ o = Spec.shownError (er.map text) ++ o' ∧ DS ⟨u, some y, er.map text, r'⟩ ts o' v := by
  rcases h with _ | ⟨⟨⟩, h⟩; exact ⟨_, _, _, ‹_›, rfl, h⟩

/-- What `main` does. -/
theorem demo_shows {u0 : Bytes} {x0 : Option Extractor} {e0 : Option Bytes} {r0 : ExtractResult} (h : DS ⟨u0, x0, e0, r0⟩ Demo.main o v) :
    DemoShows idna hard text E o := by
  dsimp only [Demo.main] at h
  obtain ⟨y1, p1, l1, h⟩ := ds_newErr (ds_url (ds_fontStyle h))
  obtain ⟨r1, er1, g1, h⟩ := ds_extract (ds_fatal h)
  obtain ⟨_, q1, h⟩ := ds_title h
  obtain ⟨_, q2, h⟩ := ds_printRes h
  obtain ⟨r2, er2, g2, h⟩ := ds_extract (ds_url h)
  obtain ⟨_, q3, h⟩ := ds_title h
  obtain ⟨_, q4, h⟩ := ds_printRes h
  obtain ⟨r3, er3, g3, h⟩ := ds_extract (ds_url h)
  obtain ⟨_, q5, h⟩ := ds_title h
  obtain ⟨_, q6, h⟩ := ds_printRes h
  obtain ⟨r4, er4, g4, h⟩ := ds_extract (ds_url h)
  obtain ⟨_, q7, h⟩ := ds_title h
  obtain ⟨_, q8, h⟩ := ds_printRes h
  obtain ⟨_, h⟩ := ds_update h
  obtain ⟨y2, p2, l2, h⟩ := ds_new (ds_url h)
  obtain ⟨r5, er5, g5, h⟩ := ds_extract h
  obtain ⟨_, q9, h⟩ := ds_title h
  obtain ⟨_, q10, h⟩ := ds_printRes h
  obtain ⟨y3, p3, l3, h⟩ := ds_new h
  obtain ⟨r6, er6, g6, h⟩ := ds_extract h
  obtain ⟨_, q11, h⟩ := ds_title h
  obtain ⟨_, q12, h⟩ := ds_printRes h
  obtain ⟨y4, p4, l4, h⟩ := ds_new (ds_url h)
  obtain ⟨r7, er7, g7, h⟩ := ds_extract h
  obtain ⟨_, q13, h⟩ := ds_title h
  obtain ⟨_, q14, h⟩ := ds_printRes h
  obtain ⟨r8, er8, g8, h⟩ := ds_extract (ds_url h)
  obtain ⟨_, q15, h⟩ := ds_title h
  obtain ⟨_, q16, h⟩ := ds_printRes h
  obtain ⟨r9, er9, g9, h⟩ := ds_extract h
  obtain ⟨_, q17, h⟩ := ds_title h
  obtain ⟨_, q18, h⟩ := ds_printRes h
  obtain ⟨_, q19, h⟩ := ds_title (ds_url h)
  obtain ⟨_, q20, h⟩ := ds_plain h
  obtain ⟨r10, er10, _, g10, q21, h⟩ := ds_extractErr h
  obtain ⟨_, q22, h⟩ := ds_printRes h
  have q0 := ds_nil h
  subst q1 q2 q3 q4 q5 q6 q7 q8 q9 q10 q11 q12 q13 q14 q15 q16 q17 q18 q19 q20 q21 q22 q0
  refine ⟨[y1.list, y2.list, y3.list, y4.list],
    [(r1, er1), (r2, er2), (r3, er3), (r4, er4), (r5, er5), (r6, er6), (r7, er7), (r8, er8), (r9, er9), (r10, er10)], rfl, rfl, ?_, ?_, ?_⟩
  · simp [l1, l2, l3, l4]
  · unfold DemoGives at g1 g2 g3 g4 g5 g6 g7 g8 g9 g10
    rw [p1] at g1 g2 g3 g4
    rw [p2] at g5
    rw [p3] at g6
    rw [p4] at g7 g8 g9 g10
    simp only [demoRows, List.zip_cons_cons, List.zip_nil_right, List.mem_cons, List.not_mem_nil, or_false]
    rintro s (rfl | rfl | rfl | rfl | rfl | rfl | rfl | rfl | rfl | rfl)
    · exact ⟨_, _, rfl, rfl, g1⟩
    · exact ⟨_, _, rfl, rfl, g2⟩
    · exact ⟨_, _, rfl, rfl, g3⟩
    · exact ⟨_, _, rfl, rfl, g4⟩
    · exact ⟨_, _, rfl, rfl, g5⟩
    · exact ⟨_, _, rfl, rfl, g6⟩
    · exact ⟨_, _, rfl, rfl, g7⟩
    · exact ⟨_, _, rfl, rfl, g8⟩
    · exact ⟨_, _, rfl, rfl, g9⟩
    · exact ⟨_, _, rfl, rfl, g10⟩
  · simp only [demoRows, List.zipWith, Spec.DemoRow.shows, List.flatten_cons, List.flatten_nil, List.append_assoc, List.cons_append, List.nil_append,
      List.append_nil, Bool.false_eq_true, if_false, if_true]
end

omit hr hw in
theorem demo_runnable (h : ∀ row ∈ demoRows, UrlFits w idna row.e) : Runnable w idna false true [] Demo.main := by
  simp only [demoRows, List.forall_mem_cons] at h
  obtain ⟨h1, h2, h3, h4, h5, h6, h7, h8, h9, h10, -⟩ := h
  exact ⟨rfl, rfl, h1, rfl, h2, rfl, h3, rfl, h4, rfl, rfl, h5, rfl, h6, rfl, h7, rfl, h8, rfl, h9, rfl, h10, trivial⟩

/-- C90: whatever the operating system answers, `main` ends, without `log.Fatal` and without a panic.  It prints ten results, and nothing
else: each with its heading, its URL as given, and the result of C52 for the list of its extractor, which was read or is the built-in
one; in the tenth, the error too.  In the end nothing is open. -/
theorem C90_demo (hhard : ListFits w idna HARD) (hurl : ∀ row ∈ demoRows, UrlFits w idna row.e) :
    ∃ N, ∀ fuel, N ≤ fuel → ∀ (m : Mem) evs r m', FilesFit w idna evs →
      XRun (Demo.runAll round CTX fuel {} Demo.main ⟨[], [], []⟩) m evs r m' →
      (∃ s S, r = .ok (s, S) ∧ S.deferred = []) ∧ Spec.Opened.afterAll {} evs = some {} ∧ DemoShows idna HARD TEXT evs (Spec.printed evs) := by
  obtain ⟨N, h⟩ := demo_runs hw hr idna texts isPrint hhard
  refine ⟨N, fun fuel hf m evs r m' hfit hrun => ?_⟩
  obtain ⟨s, S, v, rfl, h1, h2, h3⟩ := h fuel hf Demo.main false true {} ⟨[], [], []⟩ m ⟨[], none, none, {}⟩ evs r m' ⟨rfl, rfl, rfl, rfl, trivial⟩
    (by simp) (fun _ => rfl) (demo_runnable idna hurl) hfit hrun
  exact ⟨⟨s, S, rfl, h1.deferred⟩, h3, demo_shows h2⟩

/-- C90: if no list could be read and the list that is built in is that of the repository, what is printed is what README.md shows, under the
conditions of C68 on the IDNA library. -/
theorem C90_readme {f : Bytes → Bytes} (hlist : HARD = hardcodedPSL) (hhard : ListFits w idna HARD) (hurl : ∀ row ∈ demoRows, UrlFits w idna row.e)
    {lines : Bool → List Bytes} (hb : ∀ priv, BuiltIn priv (lines priv))
    (hf : ∀ priv, Spec.ByLabel idna.toASCII f ((lines priv).filter (fun t => decide (Spec.IsRuleLine t))))
    (hu : ∀ s ∈ readmeHosts, idna.toUnicodeErr s = none)
    (hl : idna.lookupASCII (b! "hello.世界.com") = some (b! "hello.xn--rhqv96g.com")) :
    ∃ N, ∀ fuel, N ≤ fuel → ∀ (m : Mem) evs r m', (∀ p l t, LEvent.sys (.readFile p (some l)) t ∉ evs) →
      XRun (Demo.runAll round CTX fuel {} Demo.main ⟨[], [], []⟩) m evs r m' →
      Spec.printed evs = (List.zipWith (fun row x => row.shows TEXT (x.r, x.err)) demoRows readme).flatten := by
  obtain ⟨N, h⟩ := C90_demo hw hr idna texts isPrint hhard hurl
  refine ⟨N, fun fuel hfu m evs r m' hno hrun => ?_⟩
  obtain ⟨-, -, lists, rs, h1, h2, h3, h4, h5⟩ := h fuel hfu m evs r m' (fun p text t h => absurd h (hno p text t)) hrun
  rw [h5]
  have hall : ∀ list ∈ lists, list = hardcodedPSL := fun list hl => (h3 list hl).elim (·.trans hlist) fun ⟨p, t, h⟩ => absurd h (hno p _ t)
  have key : ∀ s ∈ demoRows.zip rs, ∃ priv, demoPrivate[s.1.extractor]? = some priv ∧ extract idna (trieOfText idna priv hardcodedPSL) s.1.e = .ok s.2 := by
    intro s hs
    obtain ⟨list, priv, k1, k2, k3⟩ := h4 s hs
    obtain rfl := hall list (List.mem_of_getElem? k1)
    obtain ⟨ts, before, after, k4, k5, -⟩ := C29_format hardcodedPSL
    exact ⟨priv, k2, (C52_from_text idna k4 k5 priv _ _ _).2 (k3 ts before after k4 k5)⟩
  have hread := C68_readme hb hf hu hl
  have hsame : rs = readme.map fun x => (x.r, x.err) := by
    match rs, h2 with
    | [r1, r2, r3, r4, r5, r6, r7, r8, r9, r10], _ =>
      simp only [demoRows, List.zip_cons_cons, List.zip_nil_right, List.forall_mem_cons, demoPrivate] at key
      simp only [readme, List.forall_mem_cons] at hread
      obtain ⟨a1, a2, a3, a4, a5, a6, a7, a8, a9, a10, -⟩ := hread
      obtain ⟨⟨_, ⟨⟩, k1⟩, ⟨_, ⟨⟩, k2⟩, ⟨_, ⟨⟩, k3⟩, ⟨_, ⟨⟩, k4⟩, ⟨_, ⟨⟩, k5⟩, ⟨_, ⟨⟩, k6⟩, ⟨_, ⟨⟩, k7⟩, ⟨_, ⟨⟩, k8⟩, ⟨_, ⟨⟩, k9⟩, ⟨_, ⟨⟩, k10⟩, -⟩ := key
      have t : ∀ {a : Go (ExtractResult × Option Err)} {b c}, a = .ok b → a = .ok c → b = c := fun h h' => by rw [h] at h'; exact Except.ok.inj h'
      simp only [readme, List.map]
      rw [t k1 a1, t k2 a2, t k3 a3, t k4 a4, t k5 a5, t k6 a6, t k7 a7, t k8 a8, t k9 a9, t k10 a10]
  rw [hsame, List.zipWith_map_right]

/-- C90: and `main` does end, whatever the operating system answers. -/
theorem C90_ends (hhard : ListFits w idna HARD) (hurl : ∀ row ∈ demoRows, UrlFits w idna row.e) (env : Environment) (text : Event → Bytes)
    (henv : ∀ past path list, env (Option Bytes) past (.readFile path) = some list → ListFits w idna list) :
    ∃ N, ∀ fuel, N ≤ fuel → ∀ m : Mem, (∃ N, ∀ r, N ≤ r → m.nodes r = none) → ∃ evs s S m',
      XRun (Demo.runAll round CTX fuel {} Demo.main ⟨[], [], []⟩) m evs (.ok (s, S)) m' ∧ FilesFit w idna evs ∧
      Answers env [] ((Spec.calls evs).map Prod.fst) ∧ ∀ e t, LEvent.sys e t ∈ evs → t = text e := by
  obtain ⟨N, h⟩ := demo_stepEnds hw hr idna texts isPrint hhard env text henv
  obtain ⟨N', h'⟩ := demo_step hw hr idna texts isPrint hhard
  refine ⟨max N N', fun fuel hf m hm => ?_⟩
  suffices key : ∀ ts (a b : Bool) s S m v past, Holds idna s S m v → (a = true → v.x.isSome = true) → (b = true → v.err = none) →
      Runnable w idna a b v.url ts → Free m → ∃ evs s' S' m', XRun (Demo.runAll round CTX fuel s ts S) m evs (.ok (s', S')) m' ∧ Fair w idna env text past evs by
    obtain ⟨evs, s, S, m', h1, h2⟩ := key Demo.main false true {} ⟨[], [], []⟩ m ⟨[], none, none, {}⟩ [] ⟨rfl, rfl, rfl, rfl, trivial⟩
      (by simp) (fun _ => rfl) (demo_runnable idna hurl) hm
    exact ⟨evs, s, S, m', h1, h2.fit, h2.answers, h2.texts⟩
  intro ts
  induction ts with
  | nil => exact fun a b s S m v past _ _ _ _ _ => ⟨[], s, S, m, .ret _ _, fair_effects idna (by simp)⟩
  | cons t ts ih =>
    intro a b s S m v past hv ha hb hrn hm
    obtain ⟨e1, c, m1, h1, h2, h3⟩ := h fuel (by omega) t ts a b s S m v past hv ha hrn hm
    obtain ⟨s1, S1, v1, a', b', rfl, k1, k2, k3, k4, -⟩ := h' fuel (by omega) t ts a b s S m v e1 c m1 hv ha hb hrn h2.fit h1
    obtain ⟨e2, s', S', m', l1, l2⟩ := ih a' b' s1 S1 m1 v1 _ k1 k2 k3 k4 h3
    exact ⟨_, s', S', m', xrun_effBind.2 ⟨_, e1, e2, m1, rfl, h1, l1⟩, fair_append idna h2 l2⟩

end

/-! ## Concrete cases: the text, run in a world -/

/-- What is printed and what is logged, in a world. -/
def demoIn (idna : Idna) (w : World) : Option (List Chunk × List Bytes) :=
  match XProg.runIn exText (Demo.runAll id (idnaCtx idna) 80 {} Demo.main ⟨[], [], []⟩) w freshMem with
  | some (.ok _, _, _, evs) => some (Spec.printed evs, Spec.logged evs)
  | _ => none

/-- A short list, with the rules that the examples need. -/
def demoList : Bytes :=
  b! "// ===BEGIN ICANN DOMAINS===\ncom\nuk\nac.uk\nfk\n*.fk\n// ===END ICANN DOMAINS===\n// ===BEGIN PRIVATE DOMAINS===\nblogspot.com\n// ===END PRIVATE DOMAINS===\n"

/-- IDNA that knows one name. -/
def demoIdna : Idna := { idId with lookupASCII := fun s => if s = b! "hello.世界.com" then some (b! "hello.xn--rhqv96g.com") else some s }

/-- What README.md shows. -/
def readmeShown : List Chunk := (List.zipWith (fun row x => row.shows (Err.text fun _ => true) (x.r, x.err)) demoRows readme).flatten

-- the list is downloaded, read, downloaded again by Update, and read again; what README.md shows is printed
example : demoIn demoIdna { exWorld none with net := fun _ => .status 200 demoList true } =
    some (readmeShown, [b! "Public Suffix List updated.", b! "Public Suffix List updated."]) := by decide +kernel
-- another list, and Update fails: `a%63.uk` is no suffix, and the error is logged
example : (demoIn demoIdna { exWorld (some (.file ⟨listA, 28 * hour, true, true⟩)) with net := fun _ => .failed }).map (fun x => (x.1 == readmeShown, x.1.length, x.2)) =
    some (false, readmeShown.length, [b! "no route to host", b! "no route to host", b! "failed to fetch any Public Suffix List from all mirrors"]) := by decide +kernel
-- the texts that are printed last
example : ((readmeShown.drop 198).take 7).map (·.text) = [b! "Parsing errors\n", b! "The following line should be an error message\n", b! "Error: ",
    b! "invalid characters in hostname\n", b! "              url: ", b! "https://example!.com\n", b! "           scheme: "] := by decide +kernel

end Fasttld.Props
