import Verif.Proofs.SourceSysCli
import Verif.Props.Print
import Verif.Props.SourceSysExtract
import Verif.Model.Files
import Verif.Model.GoLex
import Verif.Spec.Cli

/-!
# C85, C86: PrintRes and the command `fasttld extract`, by the text

The text of PrintRes and of the function `Run` in cmd/fasttld/extract.go (Model/Source.lean), run by the rules of the language with
memory, the operating system, logging, printing and `defer` (Model/GoSys.lean).
-/

namespace Fasttld.Props
open Fasttld Fasttld.GoLang

/-! ## C85: PrintRes -/

theorem lrun_printAll {cs : List Chunk} {evs u} : LRun (printAll cs) evs u ↔ evs = cs.map (fun c => .effect (.print c)) := by
  induction cs generalizing evs with
  | nil => rw [printAll, lrun_pure_iff]; simp
  | cons c cs ih =>
    rw [printAll, lrun_effect_bind_iff]
    constructor
    · rintro ⟨evs', rfl, h⟩; rw [ih.1 h]; rfl
    · rintro rfl; exact ⟨_, rfl, ih.2 rfl⟩

theorem xrun_printAll {α : Type} {cs : List Chunk} {a b : α} {m m' : Mem} {evs} :
    XRun ((toX (printAll cs)).bind fun _ => .ret a) m evs b m' ↔ evs = cs.map (fun c => .effect (.print c)) ∧ b = a ∧ m' = m := by
  induction cs generalizing evs with
  | nil =>
    constructor
    · intro h; cases h; exact ⟨rfl, rfl, rfl⟩
    · rintro ⟨rfl, rfl, rfl⟩; exact .ret _ _
  | cons c cs ih =>
    constructor
    · intro h
      cases h with
      | effect h =>
        obtain ⟨rfl, rfl, rfl⟩ := ih.1 h
        exact ⟨rfl, rfl, rfl⟩
    · rintro ⟨rfl, rfl, rfl⟩
      exact .effect (ih.2 ⟨rfl, rfl, rfl⟩)

section
variable {w : Nat} (hw : 32 ≤ w) {round : Rat → Rat} (idna : Idna) (texts : Lib) (isPrint : Nat → Bool)
include hw

/-- C85: PrintRes has exactly one run.  It prints what is to be shown, asks nothing of the operating system, logs nothing, returns,
and memory and structures are as they were. -/
theorem C85_printRes (url : Bytes) (r : ExtractResult) (fuel : Nat) (hf : 2 ≤ fuel) (m : Mem) (S : Local) (evs v m') :
    XRun (callSys round (sourceCtx w idna texts isPrint) fuel .PrintRes [.str url, .result r] S) m evs v m' ↔
      evs = (Spec.shown url r).map (fun c => .effect (.print c)) ∧ v = .ok (.tuple [], S) ∧ m' = m := by
  rw [sourceCtx_eq (big_of hw) (two31_le hw)]
  obtain ⟨f, rfl⟩ : ∃ f, fuel = f + 2 := ⟨fuel - 2, by omega⟩
  obtain ⟨A, O, D⟩ := S
  rw [callSys_PrintRes, xrun_printAll, Spec.shown, ← C46_chunks]

/-! ## C86: the command -/

omit hw in
/-- New returns no error, and uses a list that was read, or the built-in one. -/
theorem newL_list {hard : Bytes} {n : SuffixListParams} {tx : IdnaTexts} {evs : List LEvent} {x : FastTLD} {err : Option TextErr} (h : LRun (newL idna tx hard n) evs (x, err)) :
    err = none ∧ x.includePrivateSuffix = n.includePrivateSuffix ∧ ∃ list, ListUsed hard evs x.cacheFilePath list ∧ Spec.Serves idna x list := by
  obtain ⟨h8, h9, h10⟩ := C36_new idna _ n ((C72_same idna tx hard).1 n evs x err h)
  refine ⟨Option.map_eq_none_iff.1 h8, h9, ?_⟩
  rcases h10 with ⟨h9, h10⟩ | ⟨c, h9, h10, -⟩
  · exact ⟨_, .inl ⟨h9, rfl⟩, h10⟩
  · refine ⟨c, .inr ?_, h10⟩
    have key : ∀ evs : List LEvent, Event.readFile x.cacheFilePath (some c) ∈ (Spec.calls evs).map Prod.fst →
        ∃ t, LEvent.sys (.readFile x.cacheFilePath (some c)) t ∈ evs := by
      intro evs
      induction evs with
      | nil => intro h; cases h
      | cons a l ih =>
        intro h
        cases a with
        | sys e t =>
          rcases List.mem_cons.1 h with rfl | h
          · exact ⟨t, by simp⟩
          · exact (ih h).imp fun t h => by simp [h]
        | effect e => exact (ih h).imp fun t h => by simp [h]
    exact key evs h9

omit hw in
/-- There is a run for all answers, and all texts of errors. -/
theorem lrun_exists {α : Type} (p : LProg α) (env : Environment) (text : Event → Bytes) (past : List Event) :
    ∃ evs a, LRun p evs a ∧ Answers env past ((Spec.calls evs).map Prod.fst) ∧
      ∀ e t, LEvent.sys e t ∈ evs → t = text e ∧ ∃ (β : Type) (o : Op β) (past : List Event), e = o.event (env β past o) := by
  induction p generalizing past with
  | ret a => exact ⟨[], a, .ret a, .nil past, fun _ _ h => by cases h⟩
  | @call β o k ih =>
    obtain ⟨evs, a, h, h', h''⟩ := ih (env _ past o) (text (o.event (env _ past o))) (past ++ [o.event (env _ past o)])
    refine ⟨_, a, .call h, .cons h', fun e t he => ?_⟩
    rcases List.mem_cons.1 he with he | he
    · cases he
      exact ⟨rfl, β, o, past, rfl⟩
    · exact h'' e t he
  | effect e k ih =>
    obtain ⟨evs, a, h, h', h''⟩ := ih past
    refine ⟨_, a, .effect h, h', fun e t he => ?_⟩
    rcases List.mem_cons.1 he with he | he
    · cases he
    · exact h'' e t he

/-- Nothing is printed. -/
def Silent {α : Type} : LProg α → Prop
  | .ret _ => True
  | .call _ k => ∀ b t, Silent (k b t)
  | .effect e k => (∀ c, e ≠ .print c) ∧ Silent k

omit hw in
theorem Silent.bind {α β : Type} {p : LProg α} {f : α → LProg β} (hp : Silent p) (hf : ∀ a, Silent (f a)) : Silent (p >>= f) := by
  show Silent (p.bind f)
  induction p with
  | ret a => exact hf a
  | call o k ih => exact fun b t => ih b t (hp b t)
  | effect e k ih => exact ⟨hp.1, ih hp.2⟩

omit hw in
theorem Silent.printed {α : Type} {p : LProg α} (hp : Silent p) {evs a} (h : LRun p evs a) : Spec.printed evs = [] := by
  induction h with
  | ret => rfl
  | call _ ih => exact ih (hp _ _)
  | @effect e _ _ _ _ ih =>
    cases e with
    | print c => exact absurd rfl (hp.1 c)
    | _ => exact ih hp.2

omit hw in
theorem silent_parts (tx : IdnaTexts) (hard : Bytes) (n : SuffixListParams) :
    Silent (newL idna tx hard n) ∧ ∀ x : FastTLD, Silent (x.updateL idna tx hard) := by
  have hret : ∀ {α : Type} (a : α), Silent (pure a : LProg α) := fun _ => trivial
  have hask : ∀ {α : Type} (o : Op α), Silent o.askL := fun _ _ _ => trivial
  have heff : ∀ (e : Effect), (∀ c, e ≠ .print c) → Silent e.run := fun _ h => ⟨h, trivial⟩
  have hlog : ∀ ls, Silent (logAll ls) := by
    intro ls
    induction ls with
    | nil => trivial
    | cons l ls ih => exact .bind (heff _ (by simp)) fun _ => ih
  have hget : ∀ p, Silent (getPublicSuffixListL idna tx p) := by
    intro p
    unfold getPublicSuffixListL
    refine .bind (hask _) fun r => ?_
    rcases r with ⟨_ | b, t⟩
    · exact .bind (heff _ (by simp)) fun _ => hret _
    · exact .bind (hlog _) fun _ => hret _
  have hhard : Silent (getHardcodedPublicSuffixListL idna tx hard) := .bind (hlog _) fun _ => hret _
  have htrie : ∀ incl p, Silent (trieConstructL idna tx hard incl p) := by
    intro incl p
    unfold trieConstructL
    have key : ∀ (q : LProg (Suffixes × Option TextErr)) (k : Suffixes × Option TextErr → LProg (Trie × Option TextErr)), Silent q → (∀ r, Silent (k r)) → Silent (q >>= k) :=
      fun _ _ => Silent.bind
    dsimp only
    split <;> refine key _ _ (by first | exact hget _ | exact hhard) fun r => ?_
    all_goals
      rcases r with ⟨s, _ | e⟩
      · exact hret _
      · exact .bind (heff _ (by simp)) fun _ => hret _
  have hnew : ∀ err, Silent (newHardcodedPSLL idna tx hard err n) := fun err =>
    .bind (heff _ (by simp)) fun _ => .bind (htrie _ _) fun _ => hret _
  have hdown : ∀ u, Silent (downloadFileL u) := by
    intro u
    refine .bind (hask _) fun r => ?_
    rcases r with ⟨_ | ⟨code, body, complete⟩, t⟩
    · exact hret _
    · refine .bind (heff _ (by simp)) fun _ => ?_
      split <;> exact hret _
  have hupd : ∀ f us, Silent (Fasttld.updateL f us) := by
    intro f us
    induction us with
    | nil => exact hret _
    | cons u us ih =>
      refine .bind (hdown u) fun r => ?_
      rcases r with t | body
      · exact .bind (heff _ (by simp)) fun _ => ih
      · simp only
        split
        · exact ih
        refine .bind (hask _) fun r => ?_
        split
        · exact .bind (heff _ (by simp)) fun _ => ih
        refine .bind (hask _) fun r => ?_
        split
        · exact .bind (heff _ (by simp)) fun _ => ih
        · exact .bind (heff _ (by simp)) fun _ => hret _
  have hcheck : ∀ p, Silent (checkCacheFileL p) := by
    intro p
    unfold checkCacheFileL
    refine .bind (hask _) fun r => .bind (hask _) fun r => .bind ?_ fun _ => .bind (hask _) fun _ => hret _
    split
    · exact .bind (hask _) fun _ => hret _
    · exact hret _
  have hUpdate : ∀ x : FastTLD, Silent (x.updateL idna tx hard) := by
    intro x
    refine .bind (hask _) fun r => ?_
    simp only
    split
    · exact hret _
    refine .bind (hask _) fun r => ?_
    rcases r with ⟨_ | file, t⟩
    · exact hret _
    refine .bind (hupd _ _) fun r => ?_
    split
    · exact .bind (heff _ (by simp)) fun _ => hret _
    refine .bind (htrie _ _) fun r => .bind (heff _ (by simp)) fun _ => ?_
    split <;> exact hret _
  have hfin : ∀ x, Silent (finishNewL idna tx hard n x) := by
    intro x
    refine .bind (htrie _ _) fun r => ?_
    rcases r with ⟨s, _ | e⟩
    · exact hret _
    · exact hnew _
  refine ⟨.bind (hcheck _) fun r => ?_, hUpdate⟩
  simp only
  split
  · exact hfin _
  refine .bind (hask _) fun r => .bind (hask _) fun r => ?_
  split
  · exact hnew _
  refine .bind (hcheck _) fun r => ?_
  split
  · refine .bind (hUpdate _) fun r => ?_
    split
    · exact .bind (hnew _) fun _ => .bind (heff _ (by simp)) fun _ => hret _
    · exact .bind (heff _ (by simp)) fun _ => hret _
  · exact .bind (hfin _) fun _ => .bind (heff _ (by simp)) fun _ => hret _

omit hw in
theorem silent_newL (tx : IdnaTexts) (hard : Bytes) (n : SuffixListParams) : Silent (newL idna tx hard n) := (silent_parts idna tx hard n).1

omit hw in
theorem silent_updateL (tx : IdnaTexts) (hard : Bytes) (x : FastTLD) : Silent (x.updateL idna tx hard) := (silent_parts idna tx hard ⟨[], false⟩).2 x

variable (hr : Spec.IsRounding round)
include hr

/-- C86: with one argument, the text of the command does what the model of it does: it may do nothing else, and all of it. -/
theorem C86_same (hhard : ListFits w idna texts.hardcodedPSL) (p i t : Bool) (arg : Bytes) (hurl : UrlFits w idna ⟨arg, i, t⟩) :
    ∃ N, ∀ fuel, N ≤ fuel → ∀ m : Mem,
      (∀ evs v m', FilesFit w idna evs →
        XRun (runCommand round (sourceCtx w idna texts isPrint) fuel p i t [arg] ⟨[], [], []⟩) m evs v m' →
        ∃ r, LRun (cliL idna texts.toIdnaTexts texts.hardcodedPSL (Err.text isPrint) p ⟨arg, i, t⟩) evs r ∧
          (r.2.isSome → ∃ A O, v = .ok (.tuple [], ⟨A, O, []⟩))) ∧
      ((∃ N, ∀ r, N ≤ r → m.nodes r = none) → ∀ evs r, FilesFit w idna evs →
        LRun (cliL idna texts.toIdnaTexts texts.hardcodedPSL (Err.text isPrint) p ⟨arg, i, t⟩) evs r →
        ∃ v m', XRun (runCommand round (sourceCtx w idna texts isPrint) fuel p i t [arg] ⟨[], [], []⟩) m evs v m') := by
  rw [sourceCtx_eq (big_of hw) (two31_le hw)]
  refine ⟨2 ^ (w - 1) + 16, fun fuel h m => ?_⟩
  obtain ⟨f, rfl⟩ : ∃ f, fuel = f + 6 := ⟨fuel - 6, (Nat.sub_add_cancel (Nat.le_trans (Nat.le_trans (by decide) (Nat.le_add_left 16 _)) h)).symm⟩
  have hf10 : 2 ^ (w - 1) + 10 ≤ f := Nat.le_of_add_le_add_right (b := 6) (by rw [Nat.add_assoc]; exact h)
  have hf : 2 ^ (w - 1) ≤ f := Nat.le_trans (Nat.le_add_right _ _) hf10
  have hM : ∀ v : Bytes, v.length ≤ arg.length → (formatAsPunycode idna v).length ≤ ((2 : Int) ^ (w - 1) - 5).toNat := by
    intro v hv
    unfold formatAsPunycode
    split
    · next a ha => have := hurl.2 v a hv ha; omega
    · simp
  have hu := hurl.1
  have h31 := two31_le hw
  have h2 : ((2 : Int) ^ (w - 1)).toNat = 2 ^ (w - 1) := by
    rw [show (2 : Int) ^ (w - 1) = ((2 ^ (w - 1) : Nat) : Int) by push_cast; rfl]; rfl
  have I := impl_command (round := round) (isPrint := isPrint) (texts := texts) (idna := idna) f p i t arg [] (big_of hw) h31 hr
    (M := ((2 : Int) ^ (w - 1) - 5).toNat) (by simp only at hu; omega) (by omega) (by omega) hM (short_of idna hf hhard) (fits_event idna hf) m [] [] []
  constructor
  · intro evs v m' hfit hrun
    obtain ⟨r, h1, h2⟩ := I.forward hrun fun e he p text t h => hfit p text t (h ▸ he)
    exact ⟨r, h1, h2⟩
  · intro hm evs r hfit hrun
    obtain ⟨v, m', h1, -⟩ := I.backward hm hrun fun e he p text t h => hfit p text t (h ▸ he)
    exact ⟨v, m', h1⟩

/-- C86: whatever the operating system answers to it, the command with one argument ends, without `log.Fatal` and without a panic.
First New does what it does, and prints nothing; then come the lines that Extract logs; then, if Extract returned an error, its text
is printed, and in any case what is to be shown of the argument, as given, and of the result.  Error and result are those of the
specification of C52, for the lines of a list that New has read, or of the built-in one.  In the end nothing is open. -/
theorem C86_command (hhard : ListFits w idna texts.hardcodedPSL) (p i t : Bool) (arg : Bytes) (hurl : UrlFits w idna ⟨arg, i, t⟩) :
    ∃ N, ∀ fuel, N ≤ fuel → ∀ (m : Mem) evs v m', FilesFit w idna evs →
      XRun (runCommand round (sourceCtx w idna texts isPrint) fuel p i t [arg] ⟨[], [], []⟩) m evs v m' →
      (∃ A O, v = .ok (.tuple [], ⟨A, O, []⟩)) ∧ Spec.Opened.afterAll {} evs = some {} ∧
      ∃ evs1 path list r er,
        evs = evs1 ++ (extractLog idna texts.toIdnaTexts ⟨arg, i, t⟩).map (fun l => .effect (.log l)) ++
          (Spec.shownError (er.map (Err.text isPrint)) ++ Spec.shown arg r).map (fun c => .effect (.print c)) ∧
        Spec.printed evs1 = [] ∧ ListUsed texts.hardcodedPSL evs1 path list ∧
        ∀ ts before after, Spec.StrippedLines list ts → Spec.Sections ts before after →
          Spec.Extracts idna (Spec.rulesOf idna.toASCII (if p then ts else before)) ⟨arg, i, t⟩ r er := by
  obtain ⟨N, h⟩ := C86_same hw idna texts isPrint hr hhard p i t arg hurl
  refine ⟨N, fun fuel hf m evs v m' hfit hrun => ?_⟩
  obtain ⟨⟨x, r⟩, h1, h2⟩ := (h fuel hf m).1 evs v m' hfit hrun
  obtain ⟨⟨x', err⟩, evs1, evs2, rfl, h3, h4⟩ := lrun_bind_iff.1 h1
  obtain ⟨rfl, h5, list, h6, h7⟩ := newL_list idna h3
  obtain ⟨r', evs3, evs4, rfl, h8, h9⟩ := lrun_bind_iff.1 h4
  obtain ⟨rfl, h9⟩ := lrun_ret_iff.1 h9
  cases h9
  obtain ⟨r, er, hx⟩ := C01_extract_returns idna x.tldTrie ⟨arg, i, t⟩
  rw [cliAfterNew_eq, hx] at h8
  obtain ⟨_, evs5, evs6, rfl, h10, h11⟩ := lrun_bind_iff.1 h8
  obtain ⟨_, evs7, evs8, rfl, h12, h13⟩ := lrun_bind_iff.1 h10
  obtain ⟨rfl, rfl⟩ := lrun_ret_iff.1 h13
  obtain ⟨_, evs9, evs10, rfl, h14, h15⟩ := lrun_bind_iff.1 h11
  obtain ⟨rfl, rfl⟩ := lrun_ret_iff.1 h15
  rw [lrun_logAll] at h12
  rw [lrun_printAll] at h14
  subst h12 h14
  refine ⟨h2 rfl, ?_, evs1, x.cacheFilePath, list, r, er, ?_, (silent_newL idna texts.toIdnaTexts texts.hardcodedPSL _).printed h3, h6, fun ts before after hts hse => ?_⟩
  · have key : ∀ l : List LEvent, (∀ e ∈ l, (∃ t, e = .effect (.log t)) ∨ ∃ c, e = .effect (.print c)) → Spec.Opened.afterAll {} l = some {} := by
      intro l
      induction l with
      | nil => intro _; rfl
      | cons e l ih =>
        intro h
        rcases h e (by simp) with ⟨t, rfl⟩ | ⟨t, rfl⟩ <;> exact ih fun e he => h e (by simp [he])
    rw [afterAll_append, (C74_closed idna texts.toIdnaTexts texts.hardcodedPSL).1 _ _ _ h3]
    refine key _ fun e he => ?_
    simp only [List.append_nil, List.mem_append, List.mem_map] at he
    rcases he with ⟨l, -, rfl⟩ | ⟨l, -, rfl⟩
    · exact .inl ⟨_, rfl⟩
    · exact .inr ⟨_, rfl⟩
  · simp only [List.append_nil, List.append_assoc]
    congr 3
    rw [Spec.shown, ← C46_chunks]
    cases er <;> rfl
  · rw [← C52_from_text idna hts hse, show p = x.includePrivateSuffix from h5.symm, ← (show x.tldTrie = _ from h7)]
    exact hx

/-- C86: and it does end, whatever the answers and the texts of the errors are, if there are addresses left in memory. -/
theorem C86_ends (hhard : ListFits w idna texts.hardcodedPSL) (p i t : Bool) (arg : Bytes) (hurl : UrlFits w idna ⟨arg, i, t⟩)
    (env : Environment) (text : Event → Bytes) (henv : ∀ past path list, env (Option Bytes) past (.readFile path) = some list → ListFits w idna list) :
    ∃ N, ∀ fuel, N ≤ fuel → ∀ m : Mem, (∃ N, ∀ r, N ≤ r → m.nodes r = none) → ∃ evs A O m',
      XRun (runCommand round (sourceCtx w idna texts isPrint) fuel p i t [arg] ⟨[], [], []⟩) m evs (.ok (.tuple [], ⟨A, O, []⟩)) m' ∧
      Answers env [] ((Spec.calls evs).map Prod.fst) ∧ ∀ e t, LEvent.sys e t ∈ evs → t = text e := by
  obtain ⟨N, h⟩ := C86_same hw idna texts isPrint hr hhard p i t arg hurl
  obtain ⟨N', h'⟩ := C86_command hw idna texts isPrint hr hhard p i t arg hurl
  obtain ⟨evs, r, h1, h2, h3⟩ := lrun_exists (cliL idna texts.toIdnaTexts texts.hardcodedPSL (Err.text isPrint) p ⟨arg, i, t⟩) env text []
  have hfit : FilesFit w idna evs := by
    intro path list t ht
    obtain ⟨-, β, o, past, he⟩ := h3 _ _ ht
    cases o <;> simp only [Op.event, reduceCtorEq, Event.readFile.injEq] at he
    · obtain ⟨rfl, he⟩ := he
      exact henv past _ _ he.symm
  refine ⟨max N N', fun fuel hf m hm => ?_⟩
  obtain ⟨v, m', h4⟩ := (h fuel (by omega) m).2 hm evs r hfit h1
  obtain ⟨⟨A, O, rfl⟩, -⟩ := h' fuel (by omega) m evs v m' hfit h4
  exact ⟨evs, A, O, m', h4, h2, fun e t he => (h3 e t he).1⟩
omit hw hr
end

/-! ## The text is that of the file -/

/-- C86: cmd/fasttld/extract.go declares the variables of the flags in line 11, and the command's `Run` in lines 25 to 36; split into
tokens this is what is run, and every variable is the one that its name means in its block. -/
theorem C86_text :
    lexLines ((Files.extractGo.drop 10).take 1) = some [.id "var", .id "includePrivateSuffix", .op ",", .id "ignoreSubDomains", .op ",",
      .id "toPunyCode", .id "bool", .op ";"] ∧
    lexLines ((Files.extractGo.drop 24).take 12) = some ([.id "Run", .op ":"] ++ Source.Run_func.litToks ++ [.op ","]) ∧
    Source.Run_func.scoped = true := by
  refine ⟨by decide +kernel, by decide +kernel, Source.Run_scoped⟩

/-! ## Concrete cases: the text, run in a world -/

/-- Running PrintRes: what is printed, as one text. -/
def printResText (url : Bytes) (r : ExtractResult) : Option Bytes :=
  match XProg.runIn exText (callSys id (idnaCtx idId) 10 .PrintRes [.str url, .result r] ⟨[], [], []⟩) (exWorld none) freshMem with
  | some (.ok (.tuple [], _), _, _, evs) => some (Spec.textOf (Spec.printed evs))
  | _ => none

example : printResText (b! "u") { scheme := b! "s://", subDomain := b! "w", domain := b! "d", suffix := b! "com", registeredDomain := b! "d.com", hostType := .hostName } =
    some (b! "              url: u\n           scheme: s://\n         userinfo: \n        subdomain: w\n           domain: d\n           suffix: com\nregistered domain: d.com\n             port: \n             path: \n        host type: hostname\n\n") := by
  decide +kernel
example : printResText [] { userInfo := b! "me", domain := b! "1.1.1.1", port := b! "80", path := b! "/p", hostType := .iPv4 } =
    some (b! "              url: \n           scheme: \n         userinfo: me\n        subdomain: \n           domain: 1.1.1.1\n           suffix: \nregistered domain: \n             port: 80\n             path: /p\n        host type: ipv4 address\n\n") := by
  decide +kernel

/-- Running PrintRes: the colours of what is printed. -/
def printResAttrs (url : Bytes) (r : ExtractResult) : Option (List (List Attr)) :=
  match XProg.runIn exText (callSys id (idnaCtx idId) 10 .PrintRes [.str url, .result r] ⟨[], [], []⟩) (exWorld none) freshMem with
  | some (.ok (.tuple [], _), _, _, evs) => some ((Spec.printed evs).map Chunk.attrs)
  | _ => none

-- all components; none
example : printResAttrs (b! "u") ⟨b! "s://", b! "i", b! "w", b! "d", b! "c", b! "d.c", b! "1", b! "/", .iPv6⟩ =
    some ((List.replicate 9 [[Attr.fgHiYellow, .bold], [.fgHiWhite]]).flatten ++ [[.fgHiBlue, .bold], [.fgHiWhite], []]) := by decide +kernel
example : printResAttrs [] {} = some ((List.replicate 10 [[Attr.fgHiBlack], [.fgHiWhite]]).flatten ++ [[]]) := by decide +kernel
-- one component only: its name, and no other, has the colour of a component that is there
example : [printResAttrs (b! "u") {}, printResAttrs [] { scheme := b! "s://" }, printResAttrs [] { userInfo := b! "i" },
      printResAttrs [] { subDomain := b! "w" }, printResAttrs [] { domain := b! "d" }, printResAttrs [] { suffix := b! "c" },
      printResAttrs [] { registeredDomain := b! "d.c" }, printResAttrs [] { port := b! "1" }, printResAttrs [] { path := b! "/" }] =
    (List.range 9).map fun i => some ((List.replicate i [[Attr.fgHiBlack], [.fgHiWhite]]).flatten ++
      [[Attr.fgHiYellow, .bold], [.fgHiWhite]] ++ (List.replicate (9 - i) [[Attr.fgHiBlack], [.fgHiWhite]]).flatten ++ [[]]) := by decide +kernel
example : printResText [] { hostType := .iPv6 } =
    some (b! "              url: \n           scheme: \n         userinfo: \n        subdomain: \n           domain: \n           suffix: \nregistered domain: \n             port: \n             path: \n        host type: ipv6 address\n\n") ∧
    printResText [] {} =
    some (b! "              url: \n           scheme: \n         userinfo: \n        subdomain: \n           domain: \n           suffix: \nregistered domain: \n             port: \n             path: \n        host type: \n\n") := by
  decide +kernel

/-- Running the command: what is logged, what is printed before the component `domain`, as one text, and that component. -/
def commandText (idna : Idna) (w : World) (p i t : Bool) (args : List Bytes) : Option (List Bytes × Bytes × Bytes) :=
  match XProg.runIn exText (runCommand id (idnaCtx idna) 60 p i t args ⟨[], [], []⟩) w freshMem with
  | some (.ok (.tuple [], _), _, _, evs) =>
    let out := Spec.printed evs
    let k := out.findIdx (fun c => c.text = b! "           domain: ")
    some (Spec.logged evs, Spec.textOf (out.take (k - 8)), Spec.textOf ((out.drop (k - 8)).take 2) ++ Spec.textOf ((out.drop (k - 2)).take 6))
  | _ => none

set_option synthInstance.maxSize 1000

-- with and without the private section, without subdomains; a list from a mirror and the built-in one
example : commandText idId (exWorld none) true false false [b! "a.b.org/x"] =
      some ([b! "no route to host", b! "Public Suffix List updated."], [],
        b! "              url: a.b.org/x\n        subdomain: \n           domain: a\n           suffix: b.org\n") ∧
    commandText idId (exWorld none) false false false [b! "a.b.org/x"] =
      some ([b! "no route to host", b! "Public Suffix List updated."], [],
        b! "              url: a.b.org/x\n        subdomain: a\n           domain: b\n           suffix: org\n") ∧
    commandText idId (exWorld none) false true false [b! "a.b.org/x"] =
      some ([b! "no route to host", b! "Public Suffix List updated."], [],
        b! "              url: a.b.org/x\n        subdomain: \n           domain: b\n           suffix: org\n") ∧
    commandText idId { exWorld none with canOpenDir := fun _ => false } false false false [b! "a.b.org"] =
      some ([b! "no such folder Fallback to hardcoded Public Suffix List"], [],
        b! "              url: a.b.org\n        subdomain: a.b\n           domain: org\n           suffix: \n") := by decide +kernel
-- an error: shown before the result, which is empty
example : commandText idId (exWorld none) true false false [b! "a:x"] =
      some ([b! "no route to host", b! "Public Suffix List updated."], b! "Error: invalid port\n",
        b! "              url: a:x\n        subdomain: \n           domain: \n           suffix: \n") ∧
    commandText (refusing (b! "no")) (exWorld none) true false true [b! "a.org"] =
      some ([b! "no route to host", b! "Public Suffix List updated.", b! "idna: invalid label"], b! "Error: empty domain\n",
        b! "              url: a.org\n        subdomain: \n           domain: \n           suffix: \n") := by decide +kernel

/-- So there are runs of the text of the command, for every way of rounding. -/
example {round : Rat → Rat} (hr : Spec.IsRounding round) : ∃ fuel evs A O m',
    XRun (runCommand round (idnaCtx idId) fuel true false false [b! "a.b.org"] ⟨[], [], []⟩) ⟨fun _ => none, 0⟩ evs (.ok (.tuple [], ⟨A, O, []⟩)) m' ∧
      (Spec.printed evs).length = 21 := by
  have hfit : ∀ text ∈ [builtin, listB], ListFits 64 idId text := by
    intro text ht incl s hs
    have h : ([builtin, listB].all fun text => (rulesOf idId true text ++ rulesOf idId false text).all fun s => decide ((s.length : Int) + 1 < 2 ^ 63)) = true := by
      decide +kernel
    have h1 := List.all_eq_true.1 (List.all_eq_true.1 h text ht) s (by cases incl <;> simp [hs])
    exact of_decide_eq_true h1
  have hurl : UrlFits 64 idId ⟨b! "a.b.org", false, false⟩ := by
    refine ⟨by decide, fun v a hv ha => ?_⟩
    cases ha
    have : (b! "a.b.org").length = 7 := rfl
    simp only [this] at hv
    simp only [Nat.reduceSub]
    omega
  let q := cliL idId exTexts builtin (Err.text fun _ => true) true ⟨b! "a.b.org", false, false⟩
  obtain ⟨N, h⟩ := C86_same (w := 64) (by decide) idId ⟨exTexts, builtin, fun _ => .error []⟩ (fun _ => true) hr (hfit _ (by simp)) true false false _ hurl
  have hev : ((LProg.execL exText q (exWorld none)).2.2.all fun e => match e with
      | .sys (.readFile _ (some text)) _ => decide (text = listB)
      | _ => true) = true ∧ (Spec.printed (LProg.execL exText q (exWorld none)).2.2).length = 21 := by decide +kernel
  have hff : FilesFit 64 idId (LProg.execL exText q (exWorld none)).2.2 := fun p text t ht => by
    have h3 := List.all_eq_true.1 hev.1 _ ht
    exact hfit text (by simp at h3; simp [h3])
  obtain ⟨N', h'⟩ := C86_command (w := 64) (by decide) idId ⟨exTexts, builtin, fun _ => .error []⟩ (fun _ => true) hr (hfit _ (by simp)) true false false _ hurl
  obtain ⟨v, m', h1⟩ := (h (max N N') (Nat.le_max_left _ _) ⟨fun _ => none, 0⟩).2 ⟨0, fun _ _ => rfl⟩ _ _ hff (execL_run exText q (exWorld none))
  obtain ⟨⟨A, O, rfl⟩, -⟩ := h' _ (Nat.le_max_right _ _) _ _ _ _ hff h1
  exact ⟨_, _, A, O, m', h1, hev.2⟩

end Fasttld.Props
