import Verif.Proofs.Log
import Verif.Props.System

/-!
# C72: what is logged; C73: whether the log says why the built-in list is used; C74: everything is closed
-/

namespace Fasttld.Props
open Fasttld Spec

/-! ## C72 -/

/-- C72: New and Update of Model/Log.lean make the same calls and have the same results as those of Model/System.lean,
and whatever these do, those do with any texts. -/
theorem C72_same (idna : Idna) (tx : IdnaTexts) (hard : Bytes) :
    (∀ n evs x err, LRun (newL idna tx hard n) evs (x, err) →
      Run (new idna hard n) ((calls evs).map Prod.fst) (x, err.map Prod.fst)) ∧
    (∀ n evs x err texts, Run (new idna hard n) evs (x, err) → texts.length = evs.length →
      ∃ levs er, LRun (newL idna tx hard n) levs (x, er) ∧ er.map Prod.fst = err ∧ calls levs = evs.zip texts) ∧
    (∀ (f : FastTLD) evs x err, LRun (f.updateL idna tx hard) evs (x, err) →
      Run (f.update idna hard) ((calls evs).map Prod.fst) (x, err.map Prod.fst)) ∧
    (∀ (f : FastTLD) evs x err texts, Run (f.update idna hard) evs (x, err) → texts.length = evs.length →
      ∃ levs er, LRun (f.updateL idna tx hard) levs (x, er) ∧ er.map Prod.fst = err ∧ calls levs = evs.zip texts) := by
  refine ⟨fun n evs x err h => forgets_run (forgets_new idna tx hard n) h, fun n evs x err texts h hl => ?_,
    fun f evs x err h => forgets_run (forgets_update idna tx hard f) h, fun f evs x err texts h hl => ?_⟩
  · obtain ⟨levs, ⟨y, er⟩, h1, h2, h3⟩ := forgets_run_exists (forgets_new idna tx hard n) h texts hl
    cases h2
    exact ⟨levs, er, h1, rfl, h3⟩
  · obtain ⟨levs, ⟨y, er⟩, h1, h2, h3⟩ := forgets_run_exists (forgets_update idna tx hard f) h texts hl
    cases h2
    exact ⟨levs, er, h1, rfl, h3⟩

/-- C72: Update logs what is expected of its calls, nothing else, and these are the texts of its errors. -/
theorem C72_update (idna : Idna) (tx : IdnaTexts) (hard : Bytes) (f : FastTLD) {bad : Bytes → List Bytes}
    (hbad : ∀ text, Complaints idna.toASCII tx.toASCII text (bad text)) {evs f' err}
    (h : LRun (f.updateL idna tx hard) evs (f', err)) :
    logged evs = expectedLog bad (calls evs) ∧
    ∀ e t, err = some (e, t) →
      (e = .noOp → t = b! "No-op. Only default Public Suffix list file can be updated") ∧
      (e = .allMirrors → t = b! "failed to fetch any Public Suffix List from all mirrors") ∧
      (e = .openFile → ∃ a p, calls evs = a ++ [(.openWrite p none, t)]) ∧
      (e = .readFile → ∃ a p, calls evs = a ++ [(.readFile p none, t)]) := by
  obtain rfl : bad = parseLog idna tx := funext fun text => (complaints_iff idna tx text _).1 (hbad text)
  obtain ⟨h1, h2, -⟩ := fine_update (o := {}) rfl rfl h
  refine ⟨(fine_lines h1).symm, ?_⟩
  rintro e t rfl
  have h3 := h2 _ rfl
  refine ⟨?_, ?_, ?_, ?_⟩
  · rintro rfl; exact h3.1
  · rintro rfl; exact h3
  · rintro rfl; exact h3
  · rintro rfl; exact h3

/-- C72: New logs what is expected of its calls.  If it ends with the built-in list it then says so, unless that is what
was asked for; with `<nil>` if Update was tried, with the text of the error otherwise. -/
theorem C72_new (idna : Idna) (tx : IdnaTexts) (hard : Bytes) (n : SuffixListParams) {bad : Bytes → List Bytes}
    (hbad : ∀ text, Complaints idna.toASCII tx.toASCII text (bad text)) {evs x err}
    (h : LRun (newL idna tx hard n) evs (x, err)) :
    err = none ∧
    logged evs = expectedLog bad (calls evs) ++
      (if x.cacheFilePath = [] then
        (if n.cacheFilePath = [] ∧ tempDirs (calls evs) = 0 then []
         else [(if tempDirs (calls evs) = 2 then b! "<nil>" else lastText (calls evs)) ++
          b! " Fallback to hardcoded Public Suffix List"]) ++ bad hard
       else []) := by
  obtain rfl : bad = parseLog idna tx := funext fun text => (complaints_iff idna tx text _).1 (hbad text)
  obtain ⟨h1, h2, -⟩ := run_newL h
  exact ⟨h1, h2⟩

/-- For every list there is just one thing to be logged. -/
theorem C72_complaints (idna : Idna) (tx : IdnaTexts) : ∃ bad : Bytes → List Bytes,
    ∀ text ls, Complaints idna.toASCII tx.toASCII text ls ↔ ls = bad text :=
  ⟨parseLog idna tx, fun text ls => complaints_iff idna tx text ls⟩

/-- What Extract logs belongs to what Extract does. -/
theorem C72_extract_same (idna : Idna) (tr : Trie) (e : URLParams) :
    extractM idna tr e = (beforeIdna e) >>= fun r =>
      match r.2 with
      | none => .ok (r.1, none)
      | some host => (stageIdna idna e host r.1) >>= fun netloc => stageHost tr e netloc r.1 := extractM_before idna tr e

/-- What Extract returns. -/
def returned : M (ExtractResult × Option Err) → Go (ExtractResult × Option Err)
  | .ok r => .ok r
  | .error (.ret u er) => .ok (u, er)
  | .error (.fault f) => .error f

theorem extract_returned (idna : Idna) (tr : Trie) (e : URLParams) : extract idna tr e = returned (extractM idna tr e) := by
  unfold extract returned
  split <;> simp_all

/-- C72: Extract logs at most one line, and only if it returns an error; the line is the text of an error of the IDNA
library up to the first `idna: invalid label`. -/
theorem C72_extract (idna : Idna) (tx : IdnaTexts) (tr : Trie) (e : URLParams) :
    extractLog idna tx e = [] ∨ ∃ line text r err, extractLog idna tx e = [line] ∧
      UpToFirst (b! "idna: invalid label") text line ∧ extract idna tr e = .ok (r, some err) ∧
      (err = .idna text ∧ e.convertURLToPunyCode = false ∨
       err = .emptyDomain ∧ e.convertURLToPunyCode = true ∧ ∃ host, text = tx.lookupASCII host ∧ idna.lookupASCII host = none) := by
  unfold extractLog
  rw [extract_returned, extractM_before]
  cases hb : beforeIdna e with
  | error s => exact .inl rfl
  | ok r =>
    obtain ⟨u, _ | host⟩ := r
    · exact .inl rfl
    · have hd := beforeIdna_domain hb
      show stageIdnaLog idna tx e host = [] ∨ ∃ line text r err, stageIdnaLog idna tx e host = [line] ∧ _ ∧
        returned ((stageIdna idna e host u) >>= fun netloc => stageHost tr e netloc u) = _ ∧ _
      unfold stageIdnaLog stageIdna
      cases queryUnescape host with
      | error x => exact .inl rfl
      | ok un =>
        dsimp only
        by_cases hc : e.convertURLToPunyCode = true
        · simp only [hc, if_true]
          cases hl : idna.lookupASCII un with
          | some a => exact .inl rfl
          | none =>
            right
            obtain ⟨r, hr⟩ := stageHost_nil tr e u hd
            refine ⟨_, tx.lookupASCII un, r, .emptyDomain, rfl, splitAfterFirst_spec (by decide) _, ?_,
              .inr ⟨rfl, trivial, un, rfl, hl⟩⟩
            have hf : formatAsPunycode idna un = [] := by unfold formatAsPunycode; rw [hl]
            rw [hf]
            show returned (stageHost tr e [] u) = _
            rw [hr]
            rfl
        · simp only [hc, if_false, Bool.false_eq_true]
          cases hl : idna.toUnicodeErr un with
          | none => exact .inl rfl
          | some msg => exact .inr ⟨_, msg, u, .idna msg, rfl, splitAfterFirst_spec (by decide) _, rfl, .inl ⟨rfl, trivial⟩⟩

/-- C72: an error of the IDNA library that Extract returns is logged. -/
theorem C72_extract_logged (idna : Idna) (tx : IdnaTexts) (tr : Trie) (e : URLParams) {r text}
    (h : extract idna tr e = .ok (r, some (.idna text))) :
    ∃ line, extractLog idna tx e = [line] ∧ UpToFirst (b! "idna: invalid label") text line := by
  rw [extract_returned, extractM_before] at h
  unfold extractLog
  cases hb : beforeIdna e with
  | error s =>
    rw [hb] at h
    cases s with
    | fault f => cases h
    | ret r' er =>
      cases h
      exact absurd hb (beforeIdna_notIdna e _ _)
  | ok p =>
    obtain ⟨u, _ | host⟩ := p
    · rw [hb] at h; cases h
    · rw [hb] at h
      replace h : returned ((stageIdna idna e host u) >>= fun netloc => stageHost tr e netloc u) = _ := h
      show ∃ line, stageIdnaLog idna tx e host = [line] ∧ _
      have key : ∀ netloc, returned (stageHost tr e netloc u) ≠
          (.ok (r, some (.idna text)) : Go (ExtractResult × Option Err)) := by
        intro netloc hn
        obtain ⟨h1, h2⟩ := stageHost_clean tr e netloc u
        cases hs : stageHost tr e netloc u with
        | ok q =>
          rw [hs] at hn
          cases hn
          exact absurd (h2 _ _ hs) (by simp)
        | error s =>
          rw [hs] at hn
          cases s with
          | fault f => cases hn
          | ret r' er => cases hn; exact h1 _ _ hs
      unfold stageIdna at h
      unfold stageIdnaLog
      cases hq : queryUnescape host with
      | error x => rw [hq] at h; cases h
      | ok un =>
        rw [hq] at h
        dsimp only at h ⊢
        split at h
        · exact absurd h (key _)
        · rename_i hc
          simp only [hc, if_false, Bool.false_eq_true]
          cases hl : idna.toUnicodeErr un with
          | none => rw [hl] at h; exact absurd h (key _)
          | some msg =>
            rw [hl] at h
            cases h
            exact ⟨_, rfl, splitAfterFirst_spec (by decide) _⟩

/-- C72: of a text that begins with `idna: invalid label` that is all that is logged: the label is not. -/
theorem C72_label {text line rest : Bytes} (ht : text = b! "idna: invalid label" ++ rest)
    (h : UpToFirst (b! "idna: invalid label") text line) : line = b! "idna: invalid label" := by
  subst ht
  rcases h with ⟨h1, -⟩ | ⟨A, B, h1, rfl, h3⟩
  · exact absurd (List.prefix_append _ _).isInfix h1
  · cases A with
    | nil => rfl
    | cons c A =>
      exfalso
      apply h3
      have hlen : (b! "idna: invalid label").length ≤ (((c :: A) ++ b! "idna: invalid label").dropLast).length := by simp
      refine (List.prefix_of_prefix_length_le (List.prefix_append _ rest) ?_ hlen).isInfix
      rw [h1]
      exact (List.dropLast_prefix _).trans (List.prefix_append _ _)

/-! ## C74 -/

/-- C74: whatever happens, New and Update open nothing twice, use only what is open, and leave nothing open. -/
theorem C74_closed (idna : Idna) (tx : IdnaTexts) (hard : Bytes) :
    (∀ n evs r, LRun (newL idna tx hard n) evs r → Opened.afterAll {} evs = some {}) ∧
    ∀ (f : FastTLD) evs r, LRun (f.updateL idna tx hard) evs r → Opened.afterAll {} evs = some {} :=
  ⟨fun _ _ _ h => (run_newL h).2.2, fun _ _ _ h => (fine_update (o := {}) rfl rfl h).1.opened⟩

/-! ## Examples -/

/-- Runs a program in a world, with these texts of errors. -/
def LProg.execL {α : Type} (text : Event → Bytes) : LProg α → World → α × World × List LEvent
  | .ret a, w => (a, w, [])
  | .call o k, w =>
    let r := o.answer w
    let s := LProg.execL text (k r.1 (text (o.event r.1))) r.2
    (s.1, s.2.1, .sys (o.event r.1) (text (o.event r.1)) :: s.2.2)
  | .effect e k, w =>
    let s := LProg.execL text k w
    (s.1, s.2.1, .effect e :: s.2.2)

theorem execL_run {α : Type} (text : Event → Bytes) (p : LProg α) (w : World) :
    LRun p (LProg.execL text p w).2.2 (LProg.execL text p w).1 := by
  induction p generalizing w with
  | ret a => exact .ret a
  | call o k ih => exact .call (ih _ _ _)
  | effect e k ih => exact .effect (ih _)

/-- Texts of errors. -/
def exText : Event → Bytes
  | .openWrite _ none => b! "permission denied"
  | .openDir _ false => b! "no such folder"
  | .httpGet _ .failed => b! "no route to host"
  | .httpGet _ (.status _ _ false) => b! "unexpected EOF"
  | .readFile _ none => b! "no such file"
  | .seek _ false => b! "illegal seek"
  | .write _ _ false => b! "no space left on device"
  | _ => []

/-- `com` has no ASCII form. -/
def noCom : Idna := { idId with toASCII := fun s => if s = b! "com" then none else some s }

def exTexts : IdnaTexts := ⟨fun _ => b! "bad", fun s => b! "idna: invalid label " ++ s⟩

/-- The lines that New logs in a world. -/
def newLog (idna : Idna) (n : SuffixListParams) (w : World) : List Bytes :=
  logged (LProg.execL exText (newL idna exTexts builtin n) w).2.2

/-- C72: the first source fails, the second has a list, in which `com` is not accepted. -/
theorem C72_new_example :
    newLog idId ⟨[], false⟩ (exWorld none) = [b! "no route to host", b! "Public Suffix List updated."] ∧
    newLog noCom ⟨[], false⟩ (exWorld none) = [b! "no route to host", b! "Public Suffix List updated.", b! "com 124 bad"] ∧
    newLog noCom ⟨b! "/x", false⟩ (exWorld none) = [b! "com 124 bad"] ∧
    newLog idId ⟨b! "/x", false⟩ (exWorld none) = [] ∧
    newLog noCom ⟨[], false⟩ { exWorld none with canOpenDir := fun _ => false } =
      [b! "no such folder Fallback to hardcoded Public Suffix List", b! "com 124 bad"] ∧
    newLog idId ⟨[], false⟩ { exWorld none with net := fun _ => .status 404 listB true } =
      [b! "Download failed, HTTP status code : 404", b! "Download failed, HTTP status code : 404",
       b! "<nil> Fallback to hardcoded Public Suffix List"] ∧
    newLog idId ⟨[], false⟩ { exWorld none with net := fun _ => .status 200 listB false } =
      [b! "unexpected EOF", b! "unexpected EOF", b! "<nil> Fallback to hardcoded Public Suffix List"] ∧
    newLog idId ⟨[], false⟩ { exWorld none with seekWorks := false } =
      [b! "no route to host", b! "illegal seek", b! "<nil> Fallback to hardcoded Public Suffix List"] ∧
    newLog idId ⟨[], false⟩ { exWorld none with writeStops := fun _ => some 3 } =
      [b! "no route to host", b! "no space left on device", b! "<nil> Fallback to hardcoded Public Suffix List"] ∧
    newLog idId ⟨[], false⟩ { exWorld none with net := fun _ => .status 200 (b! "com") true } =
      [b! "<nil> Fallback to hardcoded Public Suffix List"] := by decide +kernel

/-- The error of Update in a world, and what it logs. -/
def updateLog (idna : Idna) (f : FastTLD) (w : World) : Option TextErr × List Bytes :=
  let r := LProg.execL exText (f.updateL idna exTexts builtin) w
  (r.1.2, logged r.2.2)

theorem C72_update_example :
    updateLog idId ⟨b! "/x", .node false [], false⟩ (exWorld none) =
      (some (.noOp, b! "No-op. Only default Public Suffix list file can be updated"), []) ∧
    updateLog idId ⟨b! "/tmp/public_suffix_list.dat", .node false [], false⟩ { exWorld none with canCreate := fun _ => false } =
      (some (.openFile, b! "permission denied"), []) ∧
    updateLog idId ⟨b! "/tmp/public_suffix_list.dat", .node false [], false⟩ { exWorld none with net := fun _ => .failed } =
      (some (.allMirrors, b! "failed to fetch any Public Suffix List from all mirrors"), [b! "no route to host", b! "no route to host"]) ∧
    updateLog noCom ⟨b! "/tmp/public_suffix_list.dat", .node false [], false⟩ (exWorld none) =
      (none, [b! "no route to host", b! "Public Suffix List updated.", b! "com 124 bad"]) := by decide +kernel

/-- C72: a file that is there when it is checked and gone when it is read. -/
theorem C72_gone_example :
    let r := LProg.execL exText (finishNewL idId exTexts builtin ⟨b! "/nothing", false⟩ ⟨b! "/nothing", .node false [], false⟩) (exWorld none)
    logged r.2.2 = [b! "no such file", b! "no such file", b! "no such file Fallback to hardcoded Public Suffix List"] ∧
      r.1.2 = none ∧ r.1.1.cacheFilePath = [] := by decide +kernel

/-- Refuses every name, with this text. -/
def refusing (text : Bytes) : Idna := { toASCII := some, lookupASCII := fun _ => none, toUnicodeErr := fun _ => some text }

/-- C72: the label at fault is in the error but not in the log. -/
theorem C72_extract_example :
    extractLog (refusing (b! "idna: invalid label \"x\"")) exTexts ⟨b! "http://a.com", false, false⟩ = [b! "idna: invalid label"] ∧
    extractLog (refusing (b! "no")) exTexts ⟨b! "http://a.com", false, false⟩ = [b! "no"] ∧
    extractLog (refusing (b! "idna: invalid label \"x\"")) exTexts ⟨b! "http://a.com", false, true⟩ = [b! "idna: invalid label"] ∧
    extractLog (refusing (b! "no")) ⟨fun _ => [], fun _ => b! "bad"⟩ ⟨b! "http://a.com", false, true⟩ = [b! "bad"] ∧
    extractLog (refusing (b! "no")) exTexts ⟨b! "http://[::1]", false, false⟩ = [] ∧
    extractLog (refusing (b! "no")) exTexts ⟨b! "http://a%zz.com", false, false⟩ = [] ∧
    extractLog idId exTexts ⟨b! "http://a.com", false, true⟩ = [] ∧
    extractLog idId exTexts ⟨b! "http://a..com", false, false⟩ = [] := by decide +kernel

/-! ## C73 -/

/-- C73 in full: whatever fails in New, its text is in the log. -/
def SaysWhatFailed (idna : Idna) (tx : IdnaTexts) (hard : Bytes) : Prop :=
  ∀ n evs r, LRun (newL idna tx hard n) evs r → ∀ t, FailedWith (calls evs) t → ∃ l ∈ logged evs, t <:+: l

/-- What failed has a line, apart from opening a folder or a file. -/
theorem failed_line {cs : List (Event × Bytes)} {t : Bytes} {bad : Bytes → List Bytes} (h : FailedWith cs t)
    (hw : ∀ p, (.openWrite p none, t) ∉ cs) (hd : ∀ p, (.openDir p false, t) ∉ cs) : t ∈ expectedLog bad cs := by
  rcases h with ⟨e, he, hf⟩ | ⟨a, p, b, rfl, ha⟩
  · obtain ⟨a, b, rfl⟩ := List.append_of_mem he
    refine expectedLog_mem ?_ a (.inl ?_)
    · unfold Failure at hf
      split at hf
      · exact absurd he (hd _)
      · exact absurd he (hw _)
      · simp [linesFor]
      · obtain ⟨rfl, rfl⟩ := hf
        simp [linesFor]
      · simp [linesFor]
      · simp [linesFor]
      · cases hf
    · rintro p r rfl
      exact hf
  · exact expectedLog_mem (by simp [linesFor]) a (.inr ha)

/-- C73 unless the cache file cannot be opened for writing. -/
theorem C73_failures_partial (idna : Idna) (tx : IdnaTexts) (hard : Bytes) {n evs r} (h : LRun (newL idna tx hard n) evs r)
    {t : Bytes} (ht : FailedWith (calls evs) t) (hw : ∀ p, (.openWrite p none, t) ∉ calls evs) :
    ∃ l ∈ logged evs, t <:+: l := by
  obtain ⟨h1, h2, -⟩ := run_newL h
  rw [h2]
  by_cases hd : ∃ p, (.openDir p false, t) ∈ calls evs
  · obtain ⟨p, hd⟩ := hd
    obtain ⟨g1, g2, g3⟩ := openDir_tail (forgets_run (forgets_new idna tx hard n) h) hd
    replace g1 : r.1.cacheFilePath = [] := g1
    refine ⟨t ++ b! " Fallback to hardcoded Public Suffix List", ?_, (List.prefix_append _ _).isInfix⟩
    unfold newTail
    rw [if_pos g1, if_neg (by omega), if_neg (by omega), g3]
    simp
  · exact ⟨t, List.mem_append_left _ (failed_line ht hw fun p hp => hd ⟨p, hp⟩), List.infix_refl _⟩

/-- C73: if it cannot be, all that is logged is this line and what there is to say about the built-in list, whatever failed. -/
theorem C73_lost (idna : Idna) (tx : IdnaTexts) (hard : Bytes) {bad : Bytes → List Bytes}
    (hbad : ∀ text, Complaints idna.toASCII tx.toASCII text (bad text)) {n evs r} (h : LRun (newL idna tx hard n) evs r)
    {p t : Bytes} (ht : (.openWrite p none, t) ∈ calls evs) :
    logged evs = b! "<nil> Fallback to hardcoded Public Suffix List" :: bad hard := by
  obtain rfl : bad = parseLog idna tx := funext fun text => (complaints_iff idna tx text _).1 (hbad text)
  obtain ⟨g1, g2, g3⟩ := openWrite_tail (bad := parseLog idna tx) (forgets_run (forgets_new idna tx hard n) h) ht
  replace g1 : r.1.cacheFilePath = [] := g1
  rw [(run_newL h).2.1, g3]
  unfold newTail
  rw [if_pos g1, if_neg (by omega), if_pos g2]
  rfl

/-- C73 for Update: what fails is in the log or returned. -/
theorem C73_update (idna : Idna) (tx : IdnaTexts) (hard : Bytes) {f : FastTLD} {evs f' err}
    (h : LRun (f.updateL idna tx hard) evs (f', err)) {t : Bytes} (ht : FailedWith (calls evs) t) :
    (∃ l ∈ logged evs, t <:+: l) ∨ err = some (.openFile, t) := by
  obtain ⟨h1, h2, -⟩ := fine_update (o := {}) rfl rfl h
  have hr := forgets_run (forgets_update idna tx hard f) h
  have hd : ∀ p, (.openDir p false, t) ∉ calls evs :=
    fun p hp => (update_mem hr (List.mem_map.2 ⟨_, hp, rfl⟩)).1 p false rfl
  by_cases hw : ∃ p, (.openWrite p none, t) ∈ calls evs
  · right
    obtain ⟨p, hp⟩ := hw
    obtain ⟨he, tmp, hc⟩ := (update_mem hr (List.mem_map.2 ⟨_, hp, rfl⟩)).2 p rfl
    cases err with
    | none => cases he
    | some er =>
      obtain ⟨e, t'⟩ := er
      replace he : some e = some SysErr.openFile := he
      cases he
      obtain ⟨a, p', h3⟩ := h2 _ rfl
      rw [h3] at hc hp
      match a, hc with
      | [], hc => simp at hc
      | [(e1, t1)], hc =>
        simp only [List.map, List.cons_append, List.nil_append, List.cons.injEq, and_true] at hc
        obtain ⟨rfl, hc⟩ := hc
        simp at hp
        rw [hp.2]
      | _ :: _ :: _, hc => simp at hc
  · exact .inl ⟨t, by rw [← fine_lines h1]; exact failed_line ht (fun p hp => hw ⟨p, hp⟩) hd, List.infix_refl _⟩

/-- C73 in full is false: nothing is said of why the file cannot be opened. -/
theorem C73_counterexample : ¬ SaysWhatFailed idId exTexts builtin := by
  intro h
  have h1 := h ⟨[], false⟩ _ _ (execL_run exText _ { exWorld none with canCreate := fun _ => false }) (b! "permission denied")
    (.inl ⟨.openWrite (b! "/tmp/public_suffix_list.dat") none, by decide +kernel, trivial⟩)
  revert h1
  decide +kernel

/-- C72: a comment or an empty line is not complained about, whatever the library would say; other lines are. -/
theorem C72_comment_example :
    parseLog { idId with toASCII := fun _ => none } exTexts (b! "// com\n\n//\n \n") = [] ∧
    parseLog { idId with toASCII := fun _ => none } exTexts (b! "/ com\n") = [b! "/ com 124 bad"] := by decide +kernel

/-- C73: in the same world, all that is logged. -/
theorem C73_example :
    newLog idId ⟨[], false⟩ { exWorld none with canCreate := fun _ => false } =
      [b! "<nil> Fallback to hardcoded Public Suffix List"] ∧
    newLog noCom ⟨b! "/nothing", false⟩ { exWorld none with canCreate := fun _ => false } =
      [b! "<nil> Fallback to hardcoded Public Suffix List", b! "com 124 bad"] := by decide +kernel

/-- C73: other failures are in the log. -/
theorem C73_logged_example :
    (newLog idId ⟨[], false⟩ { exWorld none with canOpenDir := fun _ => false }).any (b! "no such folder").isPrefixOf = true ∧
    b! "no route to host" ∈ newLog idId ⟨[], false⟩ (exWorld none) ∧
    b! "unexpected EOF" ∈ newLog idId ⟨[], false⟩ { exWorld none with net := fun _ => .status 200 listB false } ∧
    b! "illegal seek" ∈ newLog idId ⟨[], false⟩ { exWorld none with seekWorks := false } ∧
    b! "no space left on device" ∈ newLog idId ⟨[], false⟩ { exWorld none with writeStops := fun _ => some 3 } := by
  decide +kernel

/-! ## C74 examples -/

/-- What New leaves open in a world: `none` if something is closed or used without being open. -/
def leftOpen (n : SuffixListParams) (w : World) : Option Opened :=
  Opened.afterAll {} (LProg.execL exText (newL idId exTexts builtin n) w).2.2

/-- How many files, folders and responses are opened. -/
def openings (n : SuffixListParams) (w : World) : Nat :=
  ((calls (LProg.execL exText (newL idId exTexts builtin n) w).2.2).filter (fun c => match c.1 with
    | .openDir _ true => true
    | .openWrite _ (some _) => true
    | .httpGet _ (.status ..) => true
    | _ => false)).length

/-- C74: a folder, a file and a response are opened and closed; a program that leaves one open is found out. -/
theorem C74_example :
    leftOpen ⟨[], false⟩ (exWorld none) = some {} ∧ openings ⟨[], false⟩ (exWorld none) = 3 ∧
    leftOpen ⟨[], false⟩ { exWorld none with net := fun _ => .status 404 listB true } = some {} ∧
    openings ⟨[], false⟩ { exWorld none with net := fun _ => .status 404 listB true } = 4 ∧
    leftOpen ⟨[], false⟩ { exWorld none with net := fun _ => .status 200 listB false } = some {} ∧
    leftOpen ⟨[], false⟩ { exWorld none with canCreate := fun _ => false } = some {} ∧
    leftOpen ⟨[], false⟩ { exWorld none with canOpenDir := fun _ => false } = some {} ∧
    leftOpen ⟨[], false⟩ { exWorld none with writeStops := fun _ => some 3 } = some {} ∧
    leftOpen ⟨[], false⟩ (exWorld (some (.file ⟨listA, 99 * hour, true, true⟩))) = some {} ∧
    openings ⟨[], false⟩ (exWorld (some (.file ⟨listA, 99 * hour, true, true⟩))) = 1 ∧
    Opened.afterAll {} [.sys (.openDir (b! "/tmp/") true) []] = some { dir := true } ∧
    Opened.afterAll {} [.sys (.openDir (b! "/tmp/") true) [], .effect .closeDir, .effect .closeDir] = none ∧
    Opened.afterAll {} [.sys (.openWrite (b! "/x") (some 1)) [], .effect (.closeFile 1), .sys (.seek 1 true) []] = none := by
  decide +kernel

end Fasttld.Props
