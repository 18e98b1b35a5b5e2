import Verif.Spec.Log
import Verif.Proofs.System

/-!
# Runs of New and Update with what they log and close
-/

set_option linter.unusedSimpArgs false

namespace Fasttld
open Spec

/-! ## Sequencing -/

@[simp] theorem lrun_ret_iff {α : Type} {a b : α} {evs} : LRun (LProg.ret a) evs b ↔ evs = [] ∧ b = a := by
  constructor
  · intro h; cases h; exact ⟨rfl, rfl⟩
  · rintro ⟨rfl, rfl⟩; exact .ret _

@[simp] theorem lrun_pure_iff {α : Type} {a b : α} {evs} : LRun (pure a : LProg α) evs b ↔ evs = [] ∧ b = a := lrun_ret_iff

theorem lrun_call_iff {α β : Type} {o : Op β} {k : β → Bytes → LProg α} {evs a} :
    LRun (LProg.call o k) evs a ↔ ∃ b t evs', evs = .sys (o.event b) t :: evs' ∧ LRun (k b t) evs' a := by
  constructor
  · intro h; cases h with
    | call h => exact ⟨_, _, _, rfl, h⟩
  · rintro ⟨b, t, evs', rfl, h⟩; exact .call h

theorem lrun_effect_iff {α : Type} {e : Effect} {k : LProg α} {evs a} :
    LRun (LProg.effect e k) evs a ↔ ∃ evs', evs = .effect e :: evs' ∧ LRun k evs' a := by
  constructor
  · intro h; cases h with
    | effect h => exact ⟨_, rfl, h⟩
  · rintro ⟨evs', rfl, h⟩; exact .effect h

theorem lrun_bind_iff {α γ : Type} {p : LProg α} {f : α → LProg γ} {evs c} :
    LRun (p >>= f) evs c ↔ ∃ b e1 e2, evs = e1 ++ e2 ∧ LRun p e1 b ∧ LRun (f b) e2 c := by
  show LRun (p.bind f) evs c ↔ _
  induction p generalizing evs with
  | ret a =>
    simp only [LProg.bind, lrun_ret_iff]
    constructor
    · intro h; exact ⟨a, [], evs, rfl, ⟨rfl, rfl⟩, h⟩
    · rintro ⟨b, e1, e2, rfl, ⟨rfl, rfl⟩, h⟩; exact h
  | call o k ih =>
    simp only [LProg.bind, lrun_call_iff, ih]
    constructor
    · rintro ⟨b, t, _, rfl, x, e1, e2, rfl, h1, h2⟩
      exact ⟨x, .sys (o.event b) t :: e1, e2, rfl, ⟨b, t, e1, rfl, h1⟩, h2⟩
    · rintro ⟨x, _, e2, rfl, ⟨b, t, e1, rfl, h1⟩, h2⟩
      exact ⟨b, t, e1 ++ e2, rfl, x, e1, e2, rfl, h1, h2⟩
  | effect e k ih =>
    simp only [LProg.bind, lrun_effect_iff, ih]
    constructor
    · rintro ⟨_, rfl, x, e1, e2, rfl, h1, h2⟩
      exact ⟨x, .effect e :: e1, e2, rfl, ⟨e1, rfl, h1⟩, h2⟩
    · rintro ⟨x, _, e2, rfl, ⟨e1, rfl, h1⟩, h2⟩
      exact ⟨e1 ++ e2, rfl, x, e1, e2, rfl, h1, h2⟩

theorem lrun_ask_bind_iff {β γ : Type} {o : Op β} {f : β × Bytes → LProg γ} {evs c} :
    LRun (o.askL >>= f) evs c ↔ ∃ b t evs', evs = .sys (o.event b) t :: evs' ∧ LRun (f (b, t)) evs' c := by
  show LRun ((LProg.call o _).bind f) evs c ↔ _
  simp only [LProg.bind, lrun_call_iff]

theorem lrun_effect_bind_iff {γ : Type} {e : Effect} {f : Unit → LProg γ} {evs c} :
    LRun (e.run >>= f) evs c ↔ ∃ evs', evs = .effect e :: evs' ∧ LRun (f ()) evs' c := by
  show LRun ((LProg.effect e _).bind f) evs c ↔ _
  simp only [LProg.bind, lrun_effect_iff]

theorem lrun_logAll {ls : List Bytes} {evs u} : LRun (logAll ls) evs u ↔ evs = ls.map (fun l => .effect (.log l)) := by
  induction ls generalizing evs with
  | nil => simp [logAll]
  | cons l ls ih =>
    simp only [logAll, lrun_effect_bind_iff, ih, List.map_cons]
    constructor
    · rintro ⟨_, rfl, rfl⟩; rfl
    · rintro rfl; exact ⟨_, rfl, rfl⟩

/-! ## The same program without logging and closing -/

/-- `q` is `p` without texts and effects; results are changed by `f`. -/
inductive Forgets {α γ : Type} (f : α → γ) : LProg α → Prog γ → Prop
  | ret (a : α) : Forgets f (.ret a) (.ret (f a))
  | call {β : Type} (o : Op β) {k : β → Bytes → LProg α} {k' : β → Prog γ} (h : ∀ b t, Forgets f (k b t) (k' b)) :
      Forgets f (.call o k) (.call o k')
  | effect (e : Effect) {k : LProg α} {q : Prog γ} (h : Forgets f k q) : Forgets f (.effect e k) q

theorem forgets_bind {α γ δ ε : Type} {f : α → γ} {g : δ → ε} {p : LProg α} {q : Prog γ} {k : α → LProg δ} {k' : γ → Prog ε}
    (h : Forgets f p q) (hk : ∀ a, Forgets g (k a) (k' (f a))) : Forgets g (p >>= k) (q >>= k') := by
  show Forgets g (p.bind k) (q.bind k')
  induction h with
  | ret a => exact hk a
  | call o _ ih => exact .call o (fun b t => ih b t)
  | effect e _ ih => exact .effect e ih

theorem forgets_ask {β δ ε : Type} {g : δ → ε} {o : Op β} {k : β × Bytes → LProg δ} {k' : β → Prog ε}
    (hk : ∀ b t, Forgets g (k (b, t)) (k' b)) : Forgets g (o.askL >>= k) (o.ask >>= k') := .call o hk

theorem forgets_effect {δ ε : Type} {g : δ → ε} {e : Effect} {k : Unit → LProg δ} {q : Prog ε}
    (h : Forgets g (k ()) q) : Forgets g (e.run >>= k) q := .effect e h

theorem forgets_logAll {δ ε : Type} {g : δ → ε} {ls : List Bytes} {k : Unit → LProg δ} {q : Prog ε}
    (h : Forgets g (k ()) q) : Forgets g (logAll ls >>= k) q := by
  induction ls with
  | nil => exact h
  | cons l ls ih => exact .effect _ ih

theorem forgets_ret {α γ : Type} {f : α → γ} (a : α) (c : γ) (h : f a = c) : Forgets f (pure a) (pure c) := by
  subst h; exact .ret a

/-- A result without the text of the error. -/
def noText {α : Type} (r : α × Option TextErr) : α × Option SysErr := (r.1, r.2.map Prod.fst)

theorem forgets_get (idna : Idna) (tx : IdnaTexts) (p : Bytes) :
    Forgets noText (getPublicSuffixListL idna tx p) (getPublicSuffixList idna p) := by
  unfold getPublicSuffixListL getPublicSuffixList
  refine forgets_ask ?_
  rintro (_ | b) t
  · exact forgets_effect (forgets_ret _ _ rfl)
  · exact forgets_logAll (forgets_ret _ _ rfl)

theorem forgets_hard (idna : Idna) (tx : IdnaTexts) (hard : Bytes) :
    Forgets noText (getHardcodedPublicSuffixListL idna tx hard) (pure (getHardcodedPublicSuffixList idna hard)) := by
  unfold getHardcodedPublicSuffixListL
  exact forgets_logAll (forgets_ret _ _ rfl)

theorem forgets_trieConstruct (idna : Idna) (tx : IdnaTexts) (hard : Bytes) (priv : Bool) (p : Bytes) :
    Forgets noText (trieConstructL idna tx hard priv p) (trieConstruct idna hard priv p) := by
  unfold trieConstructL trieConstruct
  dsimp only
  split
  · refine forgets_bind (forgets_get idna tx p) ?_
    rintro ⟨l, _ | ⟨e, t⟩⟩
    · exact forgets_ret _ _ rfl
    · exact forgets_effect (forgets_ret _ _ rfl)
  · refine forgets_bind (forgets_hard idna tx hard) ?_
    rintro ⟨l, _ | ⟨e, t⟩⟩
    · exact forgets_ret _ _ rfl
    · exact forgets_effect (forgets_ret _ _ rfl)

theorem forgets_newHardcoded (idna : Idna) (tx : IdnaTexts) (hard : Bytes) (err : Option Bytes) (n : SuffixListParams) :
    Forgets noText (newHardcodedPSLL idna tx hard err n) (newHardcodedPSL idna hard n) := by
  unfold newHardcodedPSLL newHardcodedPSL
  refine forgets_effect (forgets_bind (forgets_trieConstruct idna tx hard _ _) ?_)
  rintro ⟨t, e⟩
  exact forgets_ret _ _ rfl

/-- A download without the text of the error. -/
def noText' : Except Bytes Bytes → Option Bytes
  | .ok b => some b
  | .error _ => none

theorem forgets_download (url : Bytes) : Forgets noText' (downloadFileL url) (downloadFile url) := by
  unfold downloadFileL downloadFile
  refine forgets_ask ?_
  rintro (_ | ⟨c, body, complete⟩) t
  · exact forgets_ret _ _ rfl
  · refine forgets_effect ?_
    show Forgets _ (if c = 200 then _ else _) (if c = 200 then _ else _)
    split
    · cases complete
      · exact forgets_ret _ _ rfl
      · exact forgets_ret _ _ rfl
    · exact forgets_ret _ _ rfl

theorem forgets_updateLoop (file : Nat) (sources : List Bytes) : Forgets id (updateL file sources) (update file sources) := by
  induction sources with
  | nil => exact forgets_ret _ _ rfl
  | cons s rest ih =>
    unfold updateL update
    refine forgets_bind (forgets_download s) ?_
    rintro (t | body)
    · exact forgets_effect ih
    · show Forgets _ (if (!validPSLDelimiters body) = true then _ else _) (if (!validPSLDelimiters body) = true then _ else _)
      split
      · exact ih
      · refine forgets_ask ?_
        rintro (_ | _) t
        · exact forgets_effect ih
        · refine forgets_ask ?_
          rintro (_ | _) t
          · exact forgets_effect ih
          · exact forgets_effect (forgets_ret _ _ rfl)

theorem forgets_check (p : Bytes) : Forgets id (checkCacheFileL p) (checkCacheFile p) := by
  unfold checkCacheFileL checkCacheFile
  refine forgets_ask ?_
  rintro ⟨q, ok⟩ t
  refine forgets_ask ?_
  rintro (_ | info) t
  · refine forgets_bind (f := id) (forgets_ret _ _ rfl) ?_
    intro a
    refine forgets_ask ?_
    intro c t
    exact forgets_ret _ _ rfl
  · refine forgets_bind (f := id) ?_ ?_
    · unfold fileLastModified
      refine forgets_ask ?_
      intro c t
      exact forgets_ret _ _ rfl
    · intro a
      refine forgets_ask ?_
      intro c t
      exact forgets_ret _ _ rfl

theorem forgets_update (idna : Idna) (tx : IdnaTexts) (hard : Bytes) (f : FastTLD) :
    Forgets noText (f.updateL idna tx hard) (f.update idna hard) := by
  unfold FastTLD.updateL FastTLD.update
  refine forgets_ask ?_
  intro tmp t
  show Forgets _ (if f.cacheFilePath ≠ tmp ++ defaultPSLFileName then _ else _)
    (if f.cacheFilePath ≠ tmp ++ defaultPSLFileName then _ else _)
  split
  · exact forgets_ret _ _ rfl
  · refine forgets_ask ?_
    rintro (_ | file) t
    · exact forgets_ret _ _ rfl
    · refine forgets_bind (forgets_updateLoop _ _) ?_
      rintro (_ | _)
      · exact forgets_effect (forgets_ret _ _ rfl)
      · refine forgets_bind (forgets_trieConstruct idna tx hard _ _) ?_
        rintro ⟨tr, _ | ⟨e, t⟩⟩
        · exact forgets_effect (forgets_ret _ _ rfl)
        · exact forgets_effect (forgets_ret _ _ rfl)

theorem forgets_finish (idna : Idna) (tx : IdnaTexts) (hard : Bytes) (n : SuffixListParams) (x : FastTLD) :
    Forgets noText (finishNewL idna tx hard n x) (finishNew idna hard n x) := by
  unfold finishNewL finishNew
  refine forgets_bind (forgets_trieConstruct idna tx hard _ _) ?_
  rintro ⟨tr, _ | ⟨e, t⟩⟩
  · exact forgets_ret _ _ rfl
  · exact forgets_newHardcoded idna tx hard _ n

/-- `q >>= pure` is `q`. -/
theorem prog_bind_pure {α : Type} (q : Prog α) : (q >>= fun r => pure r) = q := by
  show q.bind Prog.ret = q
  induction q with
  | ret a => rfl
  | call o k ih => simp only [Prog.bind, ih]

theorem forgets_close {α γ : Type} {f : α → γ} {p : LProg α} {q : Prog γ} (e : Effect) (h : Forgets f p q) :
    Forgets f (p >>= fun r => e.run >>= fun _ => pure r) q := by
  have := forgets_bind (g := f) (k := fun r => e.run >>= fun _ => pure r) (k' := fun r => pure r) h
    (fun a => forgets_effect (forgets_ret _ _ rfl))
  rwa [prog_bind_pure] at this

theorem forgets_new (idna : Idna) (tx : IdnaTexts) (hard : Bytes) (n : SuffixListParams) :
    Forgets noText (newL idna tx hard n) (new idna hard n) := by
  unfold newL new
  refine forgets_bind (forgets_check _) ?_
  rintro ⟨valid, age⟩
  show Forgets _ (if valid = true then _ else _) (if valid = true then _ else _)
  split
  · exact forgets_finish idna tx hard n _
  · refine forgets_ask ?_
    intro tmp t
    refine forgets_ask ?_
    rintro (_ | _) t
    · exact forgets_newHardcoded idna tx hard _ n
    · refine forgets_bind (forgets_check _) ?_
      rintro ⟨valid, age⟩
      show Forgets _ (if (!valid || decide (age > pslMaxAge)) = true then _ else _)
        (if (!valid || decide (age > pslMaxAge)) = true then _ else _)
      split
      · refine forgets_bind (forgets_update idna tx hard _) ?_
        rintro ⟨y, _ | ⟨e, t⟩⟩
        · exact forgets_effect (forgets_ret _ _ rfl)
        · exact forgets_close _ (forgets_newHardcoded idna tx hard _ n)
      · exact forgets_close _ (forgets_finish idna tx hard n _)

/-- Without texts and effects a run is a run of the program without them. -/
theorem forgets_run {α γ : Type} {f : α → γ} {p : LProg α} {q : Prog γ} (h : Forgets f p q) {evs : List LEvent} {a : α}
    (hr : LRun p evs a) : Run q ((calls evs).map Prod.fst) (f a) := by
  induction hr generalizing q with
  | ret a => cases h; exact .ret _
  | call hr ih => cases h with
    | call o hk => exact .call (ih (hk _ _))
  | effect hr ih => cases h with
    | effect e hk => exact ih hk

/-- For every run there is one with texts and effects, whatever the texts. -/
theorem forgets_run_exists {α γ : Type} {f : α → γ} {p : LProg α} {q : Prog γ} (h : Forgets f p q) {evs : List Event} {c : γ}
    (hr : Run q evs c) (texts : List Bytes) (hl : texts.length = evs.length) :
    ∃ levs a, LRun p levs a ∧ f a = c ∧ calls levs = evs.zip texts := by
  induction h generalizing evs texts c with
  | ret a =>
    obtain ⟨rfl, rfl⟩ := run_ret_iff.1 hr
    exact ⟨[], a, .ret a, rfl, rfl⟩
  | call o hk ih =>
    obtain ⟨b, evs', rfl, h'⟩ := run_call_iff.1 hr
    cases texts with
    | nil => simp at hl
    | cons t texts =>
      obtain ⟨levs, a, h1, h2, h3⟩ := ih b t h' texts (by simpa using hl)
      exact ⟨_, a, .call h1, h2, by simp [calls, h3]⟩
  | effect e hk ih =>
    obtain ⟨levs, a, h1, h2, h3⟩ := ih hr texts hl
    exact ⟨_, a, .effect h1, h2, h3⟩

/-! ## What is said about a list -/

theorem isRuleLine_iff' (t : Bytes) : ¬ (t.length = 0 ∨ (b! "//").isPrefixOf t = true) ↔ IsRuleLine t := by
  unfold IsRuleLine IsComment
  rw [List.isPrefixOf_iff_prefix, not_or, List.length_eq_zero_iff]

theorem parseLog_eq (idna : Idna) (tx : IdnaTexts) (text : Bytes) :
    parseLog idna tx text = (((splitByte 10 text).map trimSpace).filter
      (fun t => decide (IsRuleLine t) && (idna.toASCII t).isNone)).map (fun t => t ++ b! " 124 " ++ tx.toASCII t) := by
  unfold parseLog
  induction splitByte 10 text with
  | nil => rfl
  | cons l ls ih =>
    rw [List.flatMap_cons, ih, List.map_cons, List.filter_cons]
    unfold processLineLog
    dsimp only
    by_cases h : IsRuleLine (trimSpace l)
    · rw [if_neg ((isRuleLine_iff' _).2 h)]
      cases ha : idna.toASCII (trimSpace l) with
      | none => simp [h]
      | some a => simp [h]
    · rw [if_pos (Classical.not_not.1 (fun h' => h ((isRuleLine_iff' _).1 h')))]
      simp [h]

theorem complaints_iff (idna : Idna) (tx : IdnaTexts) (text : Bytes) (ls : List Bytes) :
    Complaints idna.toASCII tx.toASCII text ls ↔ ls = parseLog idna tx text := by
  unfold Complaints
  rw [parseLog_eq]
  constructor
  · rintro ⟨ts, h, rfl⟩
    obtain rfl := strippedLines_iff.1 h
    rfl
  · rintro rfl
    exact ⟨_, strippedLines_iff.2 rfl, rfl⟩

theorem digitChar_byte (k : Nat) (h : k < 10) : UInt8.ofNat (Nat.digitChar k).toNat = UInt8.ofNat (48 + k) := by
  have : ∀ k < 10, UInt8.ofNat (Nat.digitChar k).toNat = UInt8.ofNat (48 + k) := by decide +kernel
  exact this k h

theorem decimalLoop_eq (fuel n : Nat) (ds : List Char) :
    decimalLoop fuel n (ds.map (fun c => UInt8.ofNat c.toNat)) =
      (Nat.toDigitsCore 10 fuel n ds).map (fun c => UInt8.ofNat c.toNat) := by
  induction fuel generalizing n ds with
  | zero => rfl
  | succ fuel ih =>
    unfold decimalLoop Nat.toDigitsCore
    dsimp only
    have hc := digitChar_byte (n % 10) (Nat.mod_lt _ (by omega))
    have hif : (n / 10 = 0) ↔ n < 10 := by omega
    by_cases h : n < 10
    · rw [if_pos h, if_pos (hif.2 h), List.map_cons, hc]
    · rw [if_neg h, if_neg (fun h' => h (hif.1 h')), ← ih, List.map_cons, hc]

theorem decimalText_eq (n : Nat) : decimalText n = decimalDigits n := decimalLoop_eq (n + 1) n []

/-! ## Traces -/

theorem calls_append (a b : List LEvent) : calls (a ++ b) = calls a ++ calls b := by
  induction a with
  | nil => rfl
  | cons x a ih => cases x <;> simp [calls, ih]

theorem logged_append (a b : List LEvent) : logged (a ++ b) = logged a ++ logged b := by
  induction a with
  | nil => rfl
  | cons x a ih =>
    cases x with
    | sys e t => simpa [logged] using ih
    | effect e => cases e <;> simp [logged, ih]

theorem calls_logs (ls : List Bytes) : calls (ls.map (fun l => LEvent.effect (.log l))) = [] := by
  induction ls with
  | nil => rfl
  | cons l ls ih => simpa [calls] using ih

theorem logged_logs (ls : List Bytes) : logged (ls.map (fun l => LEvent.effect (.log l))) = ls := by
  induction ls with
  | nil => rfl
  | cons l ls ih => simpa [logged] using ih

theorem tempDirs_append (a b : List (Event × Bytes)) : tempDirs (a ++ b) = tempDirs a + tempDirs b := by
  induction a with
  | nil => simp [tempDirs]
  | cons x a ih =>
    obtain ⟨e, t⟩ := x
    cases e <;> simp [tempDirs, ih] <;> omega

theorem lastText_append (a b : List (Event × Bytes)) (h : b ≠ []) : lastText (a ++ b) = lastText b := by
  induction a with
  | nil => rfl
  | cons x a ih =>
    cases hab : a ++ b with
    | nil => simp at hab; exact absurd hab.2 h
    | cons y l => rw [List.cons_append, hab, lastText, ← hab, ih]; simp

theorem afterAll_append (o : Opened) (a b : List LEvent) :
    o.afterAll (a ++ b) = (o.afterAll a).bind (fun o => o.afterAll b) := by
  induction a generalizing o with
  | nil => rfl
  | cons x a ih =>
    simp only [List.cons_append, Opened.afterAll]
    cases o.after x with
    | none => rfl
    | some o' => simp [ih]

theorem afterAll_logs (o : Opened) (ls : List Bytes) : o.afterAll (ls.map (fun l => LEvent.effect (.log l))) = some o := by
  induction ls with
  | nil => rfl
  | cons l ls ih => simpa [Opened.afterAll, Opened.after] using ih

/-- The lines are those expected, whatever comes later; what is open is `o` before and `o'` afterwards; and the temporary
folder is asked for `k` times. -/
structure Fine (bad : Bytes → List Bytes) (o o' : Opened) (k : Nat) (evs : List LEvent) : Prop where
  lines : ∀ rest, expectedLog bad (calls evs ++ rest) = logged evs ++ expectedLog bad rest
  opened : o.afterAll evs = some o'
  temp : tempDirs (calls evs) = k

theorem Fine.append {bad o o' o'' k k' a b} (ha : Fine bad o o' k a) (hb : Fine bad o' o'' k' b) :
    Fine bad o o'' (k + k') (a ++ b) where
  lines rest := by rw [calls_append, List.append_assoc, ha.lines, hb.lines, logged_append, List.append_assoc]
  opened := by rw [afterAll_append, ha.opened]; exact hb.opened
  temp := by rw [calls_append, tempDirs_append, ha.temp, hb.temp]

theorem fine_nil {bad o} : Fine bad o o 0 [] := ⟨fun _ => rfl, rfl, rfl⟩

section
variable {idna : Idna} {tx : IdnaTexts} {hard : Bytes} {o : Opened}

theorem fine_check {bad} {p : Bytes} {evs r} (h : LRun (checkCacheFileL p) evs r) : Fine bad o o 0 evs := by
  unfold checkCacheFileL at h
  obtain ⟨⟨q, ok⟩, t1, _, rfl, h_1⟩ := lrun_ask_bind_iff.1 h
  replace h := h_1
  obtain ⟨st, t2, _, rfl, h_2⟩ := lrun_ask_bind_iff.1 h
  replace h := h_2
  obtain ⟨a, e1, e2, rfl, h1, h_3⟩ := lrun_bind_iff.1 h
  replace h := h_3
  obtain ⟨c, t3, _, rfl, h_4⟩ := lrun_ask_bind_iff.1 h
  replace h := h_4
  obtain ⟨rfl, -⟩ := lrun_pure_iff.1 h
  cases st with
  | none =>
    obtain ⟨rfl, -⟩ := lrun_pure_iff.1 h1
    exact ⟨fun rest => rfl, rfl, rfl⟩
  | some info =>
    obtain ⟨now, t4, _, rfl, h1_5⟩ := lrun_ask_bind_iff.1 h1
    replace h1 := h1_5
    obtain ⟨rfl, -⟩ := lrun_pure_iff.1 h1
    exact ⟨fun rest => rfl, rfl, rfl⟩

theorem run_trieL_hard {priv : Bool} {evs tr err} (h : LRun (trieConstructL idna tx hard priv []) evs (tr, err)) :
    evs = (parseLog idna tx hard).map (fun l => .effect (.log l)) ∧ err = none := by
  unfold trieConstructL at h
  dsimp only at h
  rw [if_neg (by simp)] at h
  obtain ⟨r, e1, e2, rfl, h1, h_6⟩ := lrun_bind_iff.1 h
  replace h := h_6
  unfold getHardcodedPublicSuffixListL at h1
  obtain ⟨_, e3, e4, rfl, h2, h3⟩ := lrun_bind_iff.1 h1
  obtain rfl := lrun_logAll.1 h2
  obtain ⟨rfl, rfl⟩ := lrun_pure_iff.1 h3
  obtain ⟨rfl, h_7⟩ := lrun_pure_iff.1 h
  replace h := h_7
  cases h
  simp

theorem run_trieL_file {priv : Bool} {p : Bytes} (hp : p ≠ []) {evs tr err} (h : LRun (trieConstructL idna tx hard priv p) evs (tr, err)) :
    (∃ t, evs = [.sys (.readFile p none) t, .effect (.log t), .effect (.log t)] ∧ err = some (.readFile, t)) ∨
    ∃ c t, evs = .sys (.readFile p (some c)) t :: (parseLog idna tx c).map (fun l => .effect (.log l)) ∧ err = none := by
  unfold trieConstructL at h
  dsimp only at h
  rw [if_pos hp] at h
  obtain ⟨r, e1, e2, rfl, h1, h_8⟩ := lrun_bind_iff.1 h
  replace h := h_8
  unfold getPublicSuffixListL at h1
  obtain ⟨c, t, e3, rfl, h1_9⟩ := lrun_ask_bind_iff.1 h1
  replace h1 := h1_9
  cases c with
  | none =>
    obtain ⟨_, rfl, h1_10⟩ := lrun_effect_bind_iff.1 h1
    replace h1 := h1_10
    obtain ⟨rfl, rfl⟩ := lrun_pure_iff.1 h1
    obtain ⟨_, rfl, h_11⟩ := lrun_effect_bind_iff.1 h
    replace h := h_11
    obtain ⟨rfl, h_12⟩ := lrun_pure_iff.1 h
    replace h := h_12
    cases h
    exact .inl ⟨t, rfl, rfl⟩
  | some c =>
    obtain ⟨_, e4, e5, rfl, h2, h1_13⟩ := lrun_bind_iff.1 h1
    replace h1 := h1_13
    obtain rfl := lrun_logAll.1 h2
    obtain ⟨rfl, rfl⟩ := lrun_pure_iff.1 h1
    obtain ⟨rfl, h_14⟩ := lrun_pure_iff.1 h
    replace h := h_14
    cases h
    exact .inr ⟨c, t, by simp, rfl⟩

theorem fine_trieL {priv : Bool} {p : Bytes} (hp : p ≠ []) {evs tr err} (h : LRun (trieConstructL idna tx hard priv p) evs (tr, err)) :
    Fine (parseLog idna tx) o o 0 evs := by
  rcases run_trieL_file hp h with ⟨t, rfl, -⟩ | ⟨c, t, rfl, -⟩
  · exact ⟨fun rest => rfl, rfl, rfl⟩
  · refine ⟨fun rest => ?_, ?_, ?_⟩
    · simp [calls, logged, calls_logs, logged_logs, expectedLog, linesFor]
    · simpa [Opened.afterAll, Opened.after] using afterAll_logs o _
    · simp [calls, calls_logs, tempDirs]

theorem run_newHardL {err : Option Bytes} {n : SuffixListParams} {evs r} (h : LRun (newHardcodedPSLL idna tx hard err n) evs r) :
    evs = (.effect (.log (errText err ++ b! " Fallback to hardcoded Public Suffix List"))) ::
      (parseLog idna tx hard).map (fun l => .effect (.log l)) ∧ r.1.cacheFilePath = [] ∧ r.2 = none := by
  unfold newHardcodedPSLL at h
  obtain ⟨_, rfl, h_15⟩ := lrun_effect_bind_iff.1 h
  replace h := h_15
  obtain ⟨⟨tr, e⟩, e1, e2, rfl, h1, h_16⟩ := lrun_bind_iff.1 h
  replace h := h_16
  obtain ⟨rfl, rfl⟩ := run_trieL_hard h1
  obtain ⟨rfl, rfl⟩ := lrun_pure_iff.1 h
  simp

theorem fine_download {bad} {url : Bytes} (hb : o.body = false) {evs r} (h : LRun (downloadFileL url) evs r) :
    (∃ body, r = .ok body ∧ Fine bad o o 0 evs) ∨ ∃ t, r = .error t ∧ Fine bad o o 0 (evs ++ [.effect (.log t)]) := by
  unfold downloadFileL at h
  obtain ⟨c, t, _, rfl, h_17⟩ := lrun_ask_bind_iff.1 h
  replace h := h_17
  cases c with
  | failed =>
    obtain ⟨rfl, rfl⟩ := lrun_pure_iff.1 h
    exact .inr ⟨t, rfl, fun rest => rfl, rfl, rfl⟩
  | status code body complete =>
    obtain ⟨_, rfl, h_18⟩ := lrun_effect_bind_iff.1 h
    replace h := h_18
    have ho : o.afterAll [.sys (.httpGet url (.status code body complete)) t, .effect .closeBody] = some o := by
      cases o; simp at hb; subst hb; simp [Opened.afterAll, Opened.after]
    by_cases hc : code = 200
    · rw [if_pos hc] at h
      obtain ⟨rfl, rfl⟩ := lrun_pure_iff.1 h
      cases complete with
      | true => exact .inl ⟨body, rfl, fun rest => by simp [calls, logged, expectedLog, linesFor, hc], ho, rfl⟩
      | false =>
        refine .inr ⟨t, rfl, fun rest => by simp [calls, logged, expectedLog, linesFor, hc], ?_, rfl⟩
        rw [afterAll_append]
        exact (congrArg (fun x => Option.bind x _) ho).trans rfl
    · rw [if_neg hc] at h
      obtain ⟨rfl, rfl⟩ := lrun_pure_iff.1 h
      refine .inr ⟨_, rfl, fun rest => ?_, ?_, rfl⟩
      · simp [calls, logged, expectedLog, linesFor, hc, decimalText_eq]
      · rw [afterAll_append]
        exact (congrArg (fun x => Option.bind x _) ho).trans rfl

theorem fine_updateLoop {bad} {file : Nat} {sources : List Bytes} (hb : o.body = false) (hf : o.file = some file) {evs r}
    (h : LRun (updateL file sources) evs r) : Fine bad o o 0 evs := by
  induction sources generalizing evs with
  | nil =>
    obtain ⟨rfl, -⟩ := lrun_pure_iff.1 h
    exact fine_nil
  | cons s rest ih =>
    unfold updateL at h
    obtain ⟨d, e1, e2, rfl, h1, h_19⟩ := lrun_bind_iff.1 h
    replace h := h_19
    rcases fine_download (bad := bad) hb h1 with ⟨body, rfl, hf1⟩ | ⟨t, rfl, hf1⟩
    · dsimp only at h
      refine Fine.append (k := 0) (k' := 0) hf1 ?_
      split at h
      · exact ih h
      · obtain ⟨ok, t, _, rfl, h_20⟩ := lrun_ask_bind_iff.1 h
        replace h := h_20
        cases ok with
        | false =>
          obtain ⟨_, rfl, h_21⟩ := lrun_effect_bind_iff.1 h
          replace h := h_21
          refine Fine.append (k := 0) (k' := 0) (a := [_, _]) ⟨fun rest => rfl, ?_, rfl⟩ (ih h)
          simp [Opened.afterAll, Opened.after, hf]
        | true =>
          obtain ⟨ok, t', _, rfl, h_22⟩ := lrun_ask_bind_iff.1 h
          replace h := h_22
          cases ok with
          | false =>
            obtain ⟨_, rfl, h_23⟩ := lrun_effect_bind_iff.1 h
            replace h := h_23
            refine Fine.append (k := 0) (k' := 0) (a := [_, _, _]) ⟨fun rest => rfl, ?_, rfl⟩ (ih h)
            simp [Opened.afterAll, Opened.after, hf]
          | true =>
            obtain ⟨_, rfl, h_24⟩ := lrun_effect_bind_iff.1 h
            replace h := h_24
            obtain ⟨rfl, -⟩ := lrun_pure_iff.1 h
            refine ⟨fun rest => rfl, ?_, rfl⟩
            simp [Opened.afterAll, Opened.after, hf]
    · obtain ⟨_, rfl, h_25⟩ := lrun_effect_bind_iff.1 h
      replace h := h_25
      have := Fine.append (k := 0) (k' := 0) hf1 (ih h)
      simpa using this

/-- The text of an error of Update. -/
def UpdateText (evs : List (Event × Bytes)) : TextErr → Prop
  | (.noOp, t) => t = b! "No-op. Only default Public Suffix list file can be updated" ∧ ∃ d x, evs = [(.tempDir d, x)]
  | (.allMirrors, t) => t = b! "failed to fetch any Public Suffix List from all mirrors"
  | (.openFile, t) => ∃ a p, evs = a ++ [(.openWrite p none, t)]
  | (.readFile, t) => ∃ a p, evs = a ++ [(.readFile p none, t)]

theorem fine_update {f : FastTLD} (hb : o.body = false) (hf : o.file = none) {evs f' err}
    (h : LRun (f.updateL idna tx hard) evs (f', err)) :
    Fine (parseLog idna tx) o o 1 evs ∧ (∀ e, err = some e → UpdateText (calls evs) e) ∧
      (f' = f ∨ f'.cacheFilePath = f.cacheFilePath) := by
  unfold FastTLD.updateL at h
  obtain ⟨tmp, t, e0, rfl, h_26⟩ := lrun_ask_bind_iff.1 h
  replace h := h_26
  have hne : tmp ++ defaultPSLFileName ≠ [] := by simp [defaultPSLFileName]
  have h1 : ∀ {l}, Fine (parseLog idna tx) o o 0 l →
      Fine (parseLog idna tx) o o 1 (.sys (Op.tempDir.event tmp) t :: l) := fun hl =>
    Fine.append (k := 1) (k' := 0) (a := [_]) ⟨fun rest => rfl, rfl, rfl⟩ hl
  dsimp only at h
  split at h
  · obtain ⟨rfl, h_27⟩ := lrun_pure_iff.1 h
    replace h := h_27
    cases h
    refine ⟨h1 fine_nil, ?_, .inl rfl⟩
    rintro e ⟨⟩
    exact ⟨rfl, _, _, rfl⟩
  · next hd =>
    obtain ⟨fh, t2, e1, rfl, h_28⟩ := lrun_ask_bind_iff.1 h
    replace h := h_28
    cases fh with
    | none =>
      obtain ⟨rfl, h_29⟩ := lrun_pure_iff.1 h
      replace h := h_29
      cases h
      refine ⟨h1 ⟨fun rest => rfl, rfl, rfl⟩, ?_, .inl rfl⟩
      rintro e ⟨⟩
      exact ⟨[(.tempDir tmp, t)], _, rfl⟩
    | some file =>
      obtain ⟨ok, e2, e3, rfl, h2, h_30⟩ := lrun_bind_iff.1 h
      replace h := h_30
      have h3 : Fine (parseLog idna tx) o { o with file := some file } 0
          [.sys ((Op.openWrite (tmp ++ defaultPSLFileName)).event (some file)) t2] :=
        ⟨fun rest => rfl, by simp [Opened.afterAll, Opened.after, hf], rfl⟩
      have h4 := h3.append (fine_updateLoop (bad := parseLog idna tx) (o := { o with file := some file }) hb rfl h2)
      have h5 : Fine (parseLog idna tx) { o with file := some file } o 0 [.effect (.closeFile file)] := by
        refine ⟨fun rest => rfl, ?_, rfl⟩
        cases o; simp at hf; subst hf; simp [Opened.afterAll, Opened.after]
      cases ok with
      | false =>
        obtain ⟨_, rfl, h_31⟩ := lrun_effect_bind_iff.1 h
        replace h := h_31
        obtain ⟨rfl, h_32⟩ := lrun_pure_iff.1 h
        replace h := h_32
        cases h
        refine ⟨h1 (by simpa using h4.append h5), ?_, .inl rfl⟩
        rintro e ⟨⟩
        rfl
      | true =>
        obtain ⟨⟨tr, er⟩, e4, e5, rfl, h6, h_33⟩ := lrun_bind_iff.1 h
        replace h := h_33
        obtain ⟨_, rfl, h_34⟩ := lrun_effect_bind_iff.1 h
        replace h := h_34
        have h7 := h1 ((h4.append (fine_trieL hne h6)).append h5)
        cases er with
        | none =>
          obtain ⟨rfl, h_35⟩ := lrun_pure_iff.1 h
          replace h := h_35
          cases h
          exact ⟨by simpa using h7, nofun, .inr (by simpa using (Classical.not_not.1 hd).symm)⟩
        | some er =>
          obtain ⟨rfl, h_36⟩ := lrun_pure_iff.1 h
          replace h := h_36
          cases h
          refine ⟨by simpa using h7, ?_, .inl rfl⟩
          rintro e ⟨⟩
          rcases run_trieL_file hne h6 with ⟨t', rfl, he⟩ | ⟨c, t', rfl, he⟩
          · cases he
            refine ⟨(.tempDir tmp, t) :: (.openWrite (tmp ++ defaultPSLFileName) (some file), t2) :: calls e2, tmp ++ defaultPSLFileName, ?_⟩
            simp [calls, calls_append]
          · cases he

/-- How New ends: an extractor with a file, or with the built-in list. -/
theorem run_finishL {n : SuffixListParams} {x : FastTLD} {evs r} (h : LRun (finishNewL idna tx hard n x) evs r) :
    r.2 = none ∧
    ((x.cacheFilePath ≠ [] ∧ r.1.cacheFilePath = x.cacheFilePath ∧ Fine (parseLog idna tx) o o 0 evs) ∨
     (x.cacheFilePath = [] ∧ r.1.cacheFilePath = [] ∧ evs = (parseLog idna tx hard).map (fun l => .effect (.log l))) ∨
     (x.cacheFilePath ≠ [] ∧ r.1.cacheFilePath = [] ∧ ∃ a t, evs = a ++ .effect (.log (t ++ b! " Fallback to hardcoded Public Suffix List")) ::
        (parseLog idna tx hard).map (fun l => .effect (.log l)) ∧ Fine (parseLog idna tx) o o 0 a ∧
        calls a = [(.readFile x.cacheFilePath none, t)])) := by
  unfold finishNewL at h
  obtain ⟨⟨tr, er⟩, e1, e2, rfl, h1, h'⟩ := lrun_bind_iff.1 h
  clear h
  by_cases hx : x.cacheFilePath = []
  · rw [hx] at h1
    obtain ⟨rfl, rfl⟩ := run_trieL_hard h1
    obtain ⟨rfl, rfl⟩ := lrun_pure_iff.1 h'
    exact ⟨rfl, .inr (.inl ⟨hx, hx, by simp⟩)⟩
  · have hf := fine_trieL (o := o) hx h1
    rcases run_trieL_file hx h1 with ⟨t, rfl, rfl⟩ | ⟨c, t, rfl, rfl⟩
    · obtain ⟨rfl, h2, h3⟩ := run_newHardL h'
      exact ⟨h3, .inr (.inr ⟨hx, h2, _, t, rfl, hf, rfl⟩)⟩
    · obtain ⟨rfl, rfl⟩ := lrun_pure_iff.1 h'
      exact ⟨rfl, .inl ⟨hx, rfl, by simpa using hf⟩⟩

/-- What New logs after what is expected of its calls. -/
def newTail (idna : Idna) (tx : IdnaTexts) (hard : Bytes) (n : SuffixListParams) (x : FastTLD) (cs : List (Event × Bytes)) : List Bytes :=
  if x.cacheFilePath = [] then
    (if n.cacheFilePath = [] ∧ tempDirs cs = 0 then []
     else [(if tempDirs cs = 2 then b! "<nil>" else lastText cs) ++ b! " Fallback to hardcoded Public Suffix List"]) ++
    parseLog idna tx hard
  else []

theorem fine_lines {bad o o' k evs} (h : Fine bad o o' k evs) : expectedLog bad (calls evs) = logged evs := by
  have := h.lines []
  simpa [expectedLog] using this

theorem with_tail {bad o k pre T tl} (f : Fine bad {} o k pre) (hc : calls T = []) (hl : logged T = tl)
    (ho : o.afterAll T = some {}) : logged (pre ++ T) = expectedLog bad (calls (pre ++ T)) ++ tl ∧
      Opened.afterAll {} (pre ++ T) = some {} ∧ calls (pre ++ T) = calls pre := by
  have h : calls (pre ++ T) = calls pre := by rw [calls_append, hc, List.append_nil]
  refine ⟨?_, ?_, h⟩
  · rw [h, fine_lines f, logged_append, hl]
  · rw [afterAll_append, f.opened]; exact ho

theorem run_newL {n : SuffixListParams} {evs r} (h : LRun (newL idna tx hard n) evs r) :
    r.2 = none ∧ logged evs = expectedLog (parseLog idna tx) (calls evs) ++ newTail idna tx hard n r.1 (calls evs) ∧
      Opened.afterAll {} evs = some {} := by
  unfold newL at h
  obtain ⟨⟨valid, age⟩, e1, e2, rfl, h1, h'⟩ := lrun_bind_iff.1 h
  clear h
  have f1 : Fine (parseLog idna tx) {} {} 0 e1 := fine_check h1
  dsimp only at h'
  split at h'
  · obtain ⟨h2, h3⟩ := run_finishL (o := {}) h'
    refine ⟨h2, ?_⟩
    rcases h3 with ⟨ha, hb, hf⟩ | ⟨ha, hb, rfl⟩ | ⟨ha, hb, a, t, rfl, hf, hc⟩
    · have f2 := f1.append hf
      refine ⟨?_, f2.opened⟩
      unfold newTail
      rw [fine_lines f2, hb, if_neg ha, List.append_nil]
    · dsimp only at ha
      constructor
      · rw [calls_append, logged_append, calls_logs, logged_logs, List.append_nil, fine_lines f1]
        unfold newTail
        rw [if_pos hb, if_pos ⟨ha, f1.temp⟩, List.nil_append]
      · rw [afterAll_append, f1.opened]
        exact afterAll_logs _ _
    · dsimp only at ha hc
      have f2 := f1.append hf
      rw [← List.append_assoc]
      constructor
      · rw [calls_append, logged_append]
        simp only [calls, logged, calls_logs, logged_logs, List.append_nil, fine_lines f2]
        unfold newTail
        rw [if_pos hb, if_neg (fun hh => ha hh.1), f2.temp, if_neg (by omega), calls_append, hc, lastText_append _ _ (by simp)]
        rfl
      · rw [afterAll_append, f2.opened]
        simpa [Opened.afterAll, Opened.after] using afterAll_logs {} _
  · obtain ⟨tmp, t1, e3, rfl, h⟩ := lrun_ask_bind_iff.1 h'
    clear h'
    obtain ⟨opened, t2, e4, rfl, h'⟩ := lrun_ask_bind_iff.1 h
    clear h
    have f2 : Fine (parseLog idna tx) {} {} 1 (e1 ++ [.sys (.tempDir tmp) t1]) :=
      f1.append (k' := 1) ⟨fun rest => rfl, rfl, rfl⟩
    cases opened with
    | false =>
      obtain ⟨rfl, h2, h3⟩ := run_newHardL h'
      have f3 : Fine (parseLog idna tx) {} {} 1 ((e1 ++ [.sys (.tempDir tmp) t1]) ++ [.sys (.openDir tmp false) t2]) :=
        f2.append (k' := 0) ⟨fun rest => rfl, rfl, rfl⟩
      refine ⟨h3, ?_, ?_⟩
      · have hl := fine_lines f3
        have hc : calls (((e1 ++ [.sys (.tempDir tmp) t1]) ++ [.sys (.openDir tmp false) t2])) =
            calls (e1 ++ [.sys (.tempDir tmp) t1]) ++ [(.openDir tmp false, t2)] := by simp [calls_append, calls]
        rw [show e1 ++ LEvent.sys (Op.tempDir.event tmp) t1 :: LEvent.sys ((Op.openDir tmp).event false) t2 ::
            LEvent.effect (.log (errText (some t2) ++ b! " Fallback to hardcoded Public Suffix List")) ::
              (parseLog idna tx hard).map (fun l => .effect (.log l)) =
            ((e1 ++ [.sys (.tempDir tmp) t1]) ++ [.sys (.openDir tmp false) t2]) ++
            LEvent.effect (.log (errText (some t2) ++ b! " Fallback to hardcoded Public Suffix List")) ::
              (parseLog idna tx hard).map (fun l => .effect (.log l)) by simp]
        rw [calls_append, logged_append]
        simp only [calls, logged, calls_logs, logged_logs, List.append_nil]
        rw [hl]
        unfold newTail
        rw [if_pos h2, f3.temp, if_neg (by omega), if_neg (by omega), hc, lastText_append _ _ (by simp)]
        rfl
      · have := f3.opened
        rw [show e1 ++ LEvent.sys (Op.tempDir.event tmp) t1 :: LEvent.sys ((Op.openDir tmp).event false) t2 ::
            LEvent.effect (.log (errText (some t2) ++ b! " Fallback to hardcoded Public Suffix List")) ::
              (parseLog idna tx hard).map (fun l => .effect (.log l)) =
            ((e1 ++ [.sys (.tempDir tmp) t1]) ++ [.sys (.openDir tmp false) t2]) ++
            LEvent.effect (.log (errText (some t2) ++ b! " Fallback to hardcoded Public Suffix List")) ::
              (parseLog idna tx hard).map (fun l => .effect (.log l)) by simp]
        rw [afterAll_append, this]
        simpa [Opened.afterAll, Opened.after] using afterAll_logs {} _
    | true =>
      obtain ⟨⟨valid2, age2⟩, e5, e6, rfl, h2, h⟩ := lrun_bind_iff.1 h'
      clear h'
      have f3 : Fine (parseLog idna tx) {} { dir := true } 1
          (((e1 ++ [.sys (.tempDir tmp) t1]) ++ [.sys (.openDir tmp true) t2]) ++ e5) :=
        (f2.append (k' := 0) (o'' := { dir := true }) ⟨fun rest => rfl, rfl, rfl⟩).append (k' := 0) (fine_check h2)
      have hev : ∀ l, e1 ++ LEvent.sys (Op.tempDir.event tmp) t1 :: LEvent.sys ((Op.openDir tmp).event true) t2 :: (e5 ++ l) =
          (((e1 ++ [.sys (.tempDir tmp) t1]) ++ [.sys (.openDir tmp true) t2]) ++ e5) ++ l := by simp
      rw [hev]
      have hne : tmp ++ defaultPSLFileName ≠ [] := by simp [defaultPSLFileName]
      generalize (((e1 ++ [LEvent.sys (.tempDir tmp) t1]) ++ [.sys (.openDir tmp true) t2]) ++ e5) = pre at f3 ⊢
      have hclose : Opened.afterAll { dir := true } [LEvent.effect .closeDir] = some {} := rfl
      have htail : ∀ s : Bytes, Opened.afterAll { dir := true }
          ((LEvent.effect (.log s) :: (parseLog idna tx hard).map (fun l => .effect (.log l))) ++ [.effect .closeDir]) = some {} := by
        intro s
        rw [afterAll_append]
        simp only [Opened.afterAll, Opened.after, Option.bind_some, afterAll_logs]
        rfl
      have hcalls : ∀ s : Bytes,
          calls ((LEvent.effect (.log s) :: (parseLog idna tx hard).map (fun l => .effect (.log l))) ++ [.effect .closeDir]) = [] := by
        intro s
        simp [calls_append, calls, calls_logs]
      have hlogged : ∀ s : Bytes,
          logged ((LEvent.effect (.log s) :: (parseLog idna tx hard).map (fun l => .effect (.log l))) ++ [.effect .closeDir]) =
            s :: parseLog idna tx hard := by
        intro s
        simp [logged_append, logged, logged_logs]
      dsimp only at h
      split at h
      · obtain ⟨⟨y, er⟩, e7, e8, rfl, h3, h'⟩ := lrun_bind_iff.1 h
        clear h
        obtain ⟨f4, -, hy⟩ := fine_update (o := { dir := true }) rfl rfl h3
        have f5 := f3.append f4
        rw [← List.append_assoc]
        cases er with
        | none =>
          obtain ⟨_, rfl, h⟩ := lrun_effect_bind_iff.1 h'
          clear h'
          obtain ⟨rfl, rfl⟩ := lrun_pure_iff.1 h
          obtain ⟨g1, g2, g3⟩ := with_tail f5 (T := [.effect .closeDir]) (tl := []) rfl rfl hclose
          have hy' : y.cacheFilePath = tmp ++ defaultPSLFileName := by
            rcases hy with rfl | hy
            · rfl
            · exact hy
          refine ⟨rfl, ?_, g2⟩
          rw [g1]
          unfold newTail
          rw [hy', if_neg hne]
        | some er =>
          obtain ⟨r', e9, e10, rfl, h4, h⟩ := lrun_bind_iff.1 h'
          clear h'
          obtain ⟨_, rfl, h'⟩ := lrun_effect_bind_iff.1 h
          clear h
          obtain ⟨rfl, rfl⟩ := lrun_pure_iff.1 h'
          obtain ⟨rfl, h5, h6⟩ := run_newHardL h4
          obtain ⟨g1, g2, g3⟩ := with_tail f5 (hcalls _) (hlogged _) (htail _)
          refine ⟨h6, ?_, g2⟩
          rw [g1]
          unfold newTail
          rw [if_pos h5, g3, f5.temp, if_neg (by omega), if_pos (by omega)]
          rfl
      · obtain ⟨r', e9, e10, rfl, h4, h'⟩ := lrun_bind_iff.1 h
        clear h
        obtain ⟨_, rfl, h⟩ := lrun_effect_bind_iff.1 h'
        clear h'
        obtain ⟨rfl, rfl⟩ := lrun_pure_iff.1 h
        obtain ⟨h5, h6⟩ := run_finishL (o := { dir := true }) h4
        refine ⟨h5, ?_⟩
        rcases h6 with ⟨ha, hb, hf⟩ | ⟨ha, -⟩ | ⟨ha, hb, a, t, rfl, hf, hc⟩
        · have f5 := f3.append hf
          rw [← List.append_assoc]
          obtain ⟨g1, g2, g3⟩ := with_tail f5 (T := [.effect .closeDir]) (tl := []) rfl rfl hclose
          refine ⟨?_, g2⟩
          rw [g1]
          unfold newTail
          rw [hb, if_neg ha]
        · exact absurd ha hne
        · have f5 := f3.append hf
          rw [List.append_assoc, ← List.append_assoc pre]
          obtain ⟨g1, g2, g3⟩ := with_tail f5 (hcalls _) (hlogged _) (htail _)
          refine ⟨?_, g2⟩
          rw [g1]
          unfold newTail
          rw [if_pos hb, g3, f5.temp, if_neg (by omega), if_neg (by omega), calls_append, hc, lastText_append _ _ (by simp)]
          rfl

end

/-! ## What failed -/

theorem expectedLog_head {bad : Bytes → List Bytes} {e : Event} {t : Bytes} {b : List (Event × Bytes)} {l : Bytes}
    (h : l ∈ linesFor bad e t) : l ∈ expectedLog bad ((e, t) :: b) := by
  unfold expectedLog
  split
  · next heq => cases heq; simp [linesFor] at h
  · next heq => cases heq; simp [linesFor] at h
  · next heq => cases heq; exact List.mem_append_left _ h
  · next heq => cases heq

theorem expectedLog_mem {bad : Bytes → List Bytes} {e : Event} {t : Bytes} {b : List (Event × Bytes)} {l : Bytes}
    (h : l ∈ linesFor bad e t) (a : List (Event × Bytes))
    (ha : (∀ p r, e ≠ .readFile p r) ∨ ∀ c ∈ a.getLast?, (∀ q i, c.1 ≠ .stat q i) ∧ ∀ i, c.1 ≠ .now i) :
    l ∈ expectedLog bad (a ++ (e, t) :: b) := by
  match a with
  | [] => exact expectedLog_head h
  | [c] =>
    obtain ⟨e', t'⟩ := c
    show l ∈ expectedLog bad ((e', t') :: (e, t) :: b)
    unfold expectedLog
    split
    · next q i _ p r t' rest heq =>
      cases heq
      rcases ha with ha | ha
      · exact absurd rfl (ha _ _)
      · exact absurd rfl ((ha _ rfl).1 q i)
    · next i _ p r t' rest heq =>
      cases heq
      rcases ha with ha | ha
      · exact absurd rfl (ha _ _)
      · exact absurd rfl ((ha _ rfl).2 i)
    · next heq => cases heq; exact List.mem_append_right _ (expectedLog_head h)
    · next heq => cases heq
  | c :: d :: a =>
    have h1 : l ∈ expectedLog bad (a ++ (e, t) :: b) := by
      refine expectedLog_mem h a (ha.imp id fun ha c' hc' => ha c' ?_)
      cases a with
      | nil => cases hc'
      | cons x a => simpa [List.getLast?_cons] using hc'
    have h2 : l ∈ expectedLog bad (d :: a ++ (e, t) :: b) := by
      refine expectedLog_mem h (d :: a) (ha.imp id fun ha c' hc' => ha c' ?_)
      simpa [List.getLast?_cons] using hc'
    show l ∈ expectedLog bad (c :: d :: (a ++ (e, t) :: b))
    obtain ⟨e', t'⟩ := c
    unfold expectedLog
    split
    · next heq => cases heq; exact h1
    · next heq => cases heq; exact h1
    · next heq => cases heq; exact List.mem_append_right _ h2
    · next heq => cases heq
termination_by a.length

theorem check_quiet {bad : Bytes → List Bytes} {p : Bytes} {evs r} (h : Run (checkCacheFile p) evs r) {cs : List (Event × Bytes)}
    (hc : cs.map Prod.fst = evs) (rest : List (Event × Bytes)) : expectedLog bad (cs ++ rest) = expectedLog bad rest := by
  obtain ⟨q, ok, st, t, c, rfl, -⟩ := run_checkCacheFile.1 h
  cases st with
  | none =>
    match cs, hc with
    | [(e1, t1), (e2, t2), (e3, t3)], hc =>
      simp only [List.map, Option.isSome, Bool.false_eq_true, if_false, List.nil_append, List.cons.injEq, and_true] at hc
      obtain ⟨rfl, rfl, rfl⟩ := hc
      rfl
  | some i =>
    match cs, hc with
    | [(e1, t1), (e2, t2), (e3, t3), (e4, t4)], hc =>
      simp only [List.map, Option.isSome, if_true, List.cons_append, List.nil_append, List.cons.injEq, and_true] at hc
      obtain ⟨rfl, rfl, rfl, rfl⟩ := hc
      rfl

/-- Not one of the calls that New makes itself. -/
def Minor (e : Event) : Prop := (∀ q b, e ≠ .openDir q b) ∧ (∀ q b, e ≠ .openWrite q b) ∧ ∀ q, e ≠ .tempDir q

theorem check_mem {p : Bytes} {evs r e} (h : Run (checkCacheFile p) evs r) (he : e ∈ evs) : Minor e := by
  obtain ⟨q, ok, st, t, c, rfl, -⟩ := run_checkCacheFile.1 h
  cases st <;> simp at he <;> rcases he with rfl | rfl | rfl | rfl <;> simp [Minor]

theorem finish_mem {idna : Idna} {hard n x evs r e} (h : Run (finishNew idna hard n x) evs r) (he : e ∈ evs) : Minor e := by
  rcases run_finishNew.1 h with ⟨-, rfl, -⟩ | ⟨-, ⟨rfl, -⟩ | ⟨c, rfl, -⟩⟩
  · cases he
  · simp at he; subst he; simp [Minor]
  · simp at he; subst he; simp [Minor]

theorem attempt_mem {file url evs ok e} (h : Attempt file url evs ok) (he : e ∈ evs) : Minor e := by
  cases h <;> simp at he <;> rcases he with rfl | rfl | rfl <;> simp [Minor]

theorem attempts_mem {file sources evs ok e} (h : Attempts file sources evs ok) (he : e ∈ evs) : Minor e := by
  induction h with
  | exhausted => cases he
  | stop h => exact attempt_mem h he
  | next h h' ih =>
    rcases List.mem_append.1 he with he | he
    · exact attempt_mem h he
    · exact ih he

theorem update_mem {idna : Idna} {hard} {f : FastTLD} {evs r e} (h : Run (f.update idna hard) evs r) (he : e ∈ evs) :
    (∀ q b, e ≠ .openDir q b) ∧ ∀ q, e = .openWrite q none → r.2 = some .openFile ∧ ∃ tmp, evs = [.tempDir tmp, .openWrite q none] := by
  have key : ∀ {e : Event}, Minor e → (∀ q b, e ≠ .openDir q b) ∧
      ∀ q, e = .openWrite q none → r.2 = some .openFile ∧ ∃ tmp, evs = [.tempDir tmp, .openWrite q none] :=
    fun hm => ⟨hm.1, fun q hq => absurd hq (hm.2.1 q none)⟩
  obtain ⟨tmp, ⟨-, rfl, -⟩ | ⟨-, ⟨rfl, rfl⟩ | ⟨hh, e', ok, h1, ⟨-, rfl, -⟩ | ⟨-, c, rfl, -⟩⟩⟩⟩ := run_update.1 h
  · simp at he; subst he; simp
  · simp at he
    rcases he with rfl | rfl
    · simp
    · refine ⟨by simp, ?_⟩
      rintro q heq
      cases heq
      exact ⟨by simp, tmp, rfl⟩
  · rcases List.mem_cons.1 he with rfl | he
    · simp
    rcases List.mem_cons.1 he with rfl | he
    · simp
    · exact key (attempts_mem (run_update_loop.1 h1) he)
  · rcases List.mem_cons.1 he with rfl | he
    · simp
    rcases List.mem_cons.1 he with rfl | he
    · simp
    rcases List.mem_append.1 he with he | he
    · exact key (attempts_mem (run_update_loop.1 h1) he)
    · simp at he; subst he; simp

theorem openDir_last {idna : Idna} {hard n evs r q} (h : Run (new idna hard n) evs r) (he : .openDir q false ∈ evs) :
    r.1.cacheFilePath = [] ∧ ∃ a tmp, evs = a ++ [.tempDir tmp, .openDir q false] ∧ ∀ e ∈ a, Minor e := by
  obtain ⟨e1, v, a, h1, ⟨-, e2, rfl, h2⟩ | ⟨-, tmp, ⟨rfl, rfl⟩ | ⟨e3, v', a', h3, ⟨-, e4, x, err, h4, rfl, -⟩ | ⟨-, -, e4, rfl, h4⟩⟩⟩⟩ :=
    run_new.1 h
  · rcases List.mem_append.1 he with he | he
    · exact absurd rfl ((check_mem h1 he).1 _ _)
    · exact absurd rfl ((finish_mem h2 he).1 _ _)
  · rcases List.mem_append.1 he with he | he
    · exact absurd rfl ((check_mem h1 he).1 _ _)
    · simp at he
      subst he
      exact ⟨rfl, e1, _, rfl, fun e he => check_mem h1 he⟩
  · simp only [List.mem_append, List.mem_cons, reduceCtorEq, Event.openDir.injEq, Bool.false_eq_true, and_false, false_or] at he
    rcases he with he | he | he
    · exact absurd rfl ((check_mem h1 he).1 _ _)
    · exact absurd rfl ((check_mem h3 he).1 _ _)
    · exact absurd rfl ((update_mem h4 he).1 _ _)
  · simp only [List.mem_append, List.mem_cons, reduceCtorEq, Event.openDir.injEq, Bool.false_eq_true, and_false, false_or] at he
    rcases he with he | he | he
    · exact absurd rfl ((check_mem h1 he).1 _ _)
    · exact absurd rfl ((check_mem h3 he).1 _ _)
    · exact absurd rfl ((finish_mem h4 he).1 _ _)

theorem openWrite_last {idna : Idna} {hard n evs r q} (h : Run (new idna hard n) evs r) (he : .openWrite q none ∈ evs) :
    r.1.cacheFilePath = [] ∧ ∃ e1 p1 r1 tmp e3 p3 r3 tmp', Run (checkCacheFile p1) e1 r1 ∧ Run (checkCacheFile p3) e3 r3 ∧
      evs = e1 ++ .tempDir tmp :: .openDir tmp true :: (e3 ++ [.tempDir tmp', .openWrite q none]) := by
  obtain ⟨e1, v, a, h1, ⟨-, e2, rfl, h2⟩ | ⟨-, tmp, ⟨rfl, rfl⟩ | ⟨e3, v', a', h3, ⟨-, e4, x, err, h4, rfl, h5⟩ | ⟨-, -, e4, rfl, h4⟩⟩⟩⟩ :=
    run_new.1 h
  · rcases List.mem_append.1 he with he | he
    · exact absurd rfl ((check_mem h1 he).2.1 _ _)
    · exact absurd rfl ((finish_mem h2 he).2.1 _ _)
  · rcases List.mem_append.1 he with he | he
    · exact absurd rfl ((check_mem h1 he).2.1 _ _)
    · simp at he
  · simp only [List.mem_append, List.mem_cons, reduceCtorEq, false_or] at he
    rcases he with he | he | he
    · exact absurd rfl ((check_mem h1 he).2.1 _ _)
    · exact absurd rfl ((check_mem h3 he).2.1 _ _)
    · obtain ⟨hn, tmp', rfl⟩ := (update_mem h4 he).2 q rfl
      rcases h5 with ⟨h5, -⟩ | ⟨-, rfl⟩
      · rw [h5] at hn; cases hn
      · exact ⟨rfl, e1, _, _, tmp, e3, _, _, tmp', h1, h3, rfl⟩
  · simp only [List.mem_append, List.mem_cons, reduceCtorEq, false_or] at he
    rcases he with he | he | he
    · exact absurd rfl ((check_mem h1 he).2.1 _ _)
    · exact absurd rfl ((check_mem h3 he).2.1 _ _)
    · exact absurd rfl ((finish_mem h4 he).2.1 _ _)

theorem tempDirs_minor {cs : List (Event × Bytes)} (h : ∀ c ∈ cs, Minor c.1) : tempDirs cs = 0 := by
  induction cs with
  | nil => rfl
  | cons c cs ih =>
    obtain ⟨e, t⟩ := c
    have h1 := (h _ List.mem_cons_self).2.2
    have h2 := ih fun c hc => h c (List.mem_cons_of_mem _ hc)
    cases e <;> first | exact absurd rfl (h1 _) | exact h2

/-- If the folder cannot be opened: the texts. -/
theorem openDir_tail {idna : Idna} {hard n r q} {cs : List (Event × Bytes)} {t : Bytes}
    (h : Run (new idna hard n) (cs.map Prod.fst) r) (he : (.openDir q false, t) ∈ cs) :
    r.1.cacheFilePath = [] ∧ tempDirs cs = 1 ∧ lastText cs = t := by
  obtain ⟨h1, a, tmp, h2, h3⟩ := openDir_last h (List.mem_map.2 ⟨_, he, rfl⟩)
  refine ⟨h1, ?_⟩
  obtain ⟨ca, cb, rfl, hca, hcb⟩ := List.map_eq_append_iff.1 h2
  match cb, hcb with
  | [(e1, t1), (e2, t2)], hcb =>
    simp only [List.map, List.cons.injEq, and_true] at hcb
    obtain ⟨rfl, rfl⟩ := hcb
    have hm : ∀ c ∈ ca, Minor c.1 := fun c hc => h3 _ (by rw [← hca]; exact List.mem_map_of_mem hc)
    have ht : t = t2 := by
      rcases List.mem_append.1 he with he | he
      · exact absurd rfl ((hm _ he).1 _ _)
      · simpa using he
    refine ⟨?_, ?_⟩
    · rw [tempDirs_append, tempDirs_minor hm]; rfl
    · rw [lastText_append _ _ (by simp), ht]; rfl

/-- If the file cannot be opened for writing. -/
theorem openWrite_tail {idna : Idna} {hard n r q} {cs : List (Event × Bytes)} {t : Bytes} {bad : Bytes → List Bytes}
    (h : Run (new idna hard n) (cs.map Prod.fst) r) (he : (.openWrite q none, t) ∈ cs) :
    r.1.cacheFilePath = [] ∧ tempDirs cs = 2 ∧ expectedLog bad cs = [] := by
  obtain ⟨h1, e1, p1, r1, tmp, e3, p3, r3, tmp', h2, h3, h4⟩ := openWrite_last h (List.mem_map.2 ⟨_, he, rfl⟩)
  refine ⟨h1, ?_⟩
  obtain ⟨ca, cb, rfl, hca, hcb⟩ := List.map_eq_append_iff.1 h4
  match cb, hcb with
  | (f1, t1) :: (f2, t2) :: cc, hcb =>
    simp only [List.map_cons, List.cons.injEq] at hcb
    obtain ⟨rfl, rfl, hcb⟩ := hcb
    obtain ⟨cd, ce, rfl, hcd, hce⟩ := List.map_eq_append_iff.1 hcb
    match ce, hce with
    | [(f3, t3), (f4, t4)], hce =>
      simp only [List.map, List.cons.injEq, and_true] at hce
      obtain ⟨rfl, rfl⟩ := hce
      have hm : ∀ c ∈ ca, Minor c.1 := fun c hc => check_mem h2 (by rw [← hca]; exact List.mem_map_of_mem hc)
      have hm' : ∀ c ∈ cd, Minor c.1 := fun c hc => check_mem h3 (by rw [← hcd]; exact List.mem_map_of_mem hc)
      constructor
      · rw [tempDirs_append, tempDirs_minor hm]
        show 0 + (tempDirs (cd ++ _) + 1) = 2
        rw [tempDirs_append, tempDirs_minor hm']
        rfl
      · rw [check_quiet h2 hca]
        show expectedLog bad (cd ++ _) = []
        rw [check_quiet h3 hcd]
        rfl

/-! ## Extract -/

theorem extractM_before (idna : Idna) (tr : Trie) (e : URLParams) :
    extractM idna tr e = (beforeIdna e) >>= fun r =>
      match r.2 with
      | none => .ok (r.1, none)
      | some host => (stageIdna idna e host r.1) >>= fun netloc => stageHost tr e netloc r.1 := by
  unfold extractM beforeIdna
  cases liftGo (fastTrim e.url whitespaceRuneSet .trimBoth) with
  | error x => rfl
  | ok netloc =>
    show (liftGo (stageScheme netloc {}) >>= _) = ((liftGo (stageScheme netloc {}) >>= _) >>= _)
    cases liftGo (stageScheme netloc {}) with
    | error x => rfl
    | ok r =>
      show (liftGo (stageUserInfo r.2 r.1) >>= _) = ((liftGo (stageUserInfo r.2 r.1) >>= _) >>= _)
      cases liftGo (stageUserInfo r.2 r.1) with
      | error x => rfl
      | ok r =>
        show (match scanLoop r.2.length r.2 0 (-1) (-1) with | .err er => _ | .done opening closing hostEnd => _) =
          ((match scanLoop r.2.length r.2 0 (-1) (-1) with | .err er => _ | .done opening closing hostEnd => _) >>= _)
        cases scanLoop r.2.length r.2 0 (-1) (-1) with
        | err x => rfl
        | done o c h =>
          show (stageIPv6 r.2 o c (adjustHostEnd r.2.length c h) r.1 >>= _) =
            ((stageIPv6 r.2 o c (adjustHostEnd r.2.length c h) r.1 >>= _) >>= _)
          cases stageIPv6 r.2 o c (adjustHostEnd r.2.length c h) r.1 with
          | error x => rfl
          | ok u =>
            show (liftGo (stageSplit r.2 (adjustHostEnd r.2.length c h)) >>= _) =
              ((liftGo (stageSplit r.2 (adjustHostEnd r.2.length c h)) >>= _) >>= _)
            cases liftGo (stageSplit r.2 (adjustHostEnd r.2.length c h)) with
            | error x => rfl
            | ok hs =>
              show (stagePortPath hs.2 u >>= _) = ((stagePortPath hs.2 u >>= _) >>= _)
              cases stagePortPath hs.2 u with
              | error x => rfl
              | ok u =>
                show (if u.hostType = .iPv6 then _ else _) = ((if u.hostType = .iPv6 then _ else _) >>= _)
                split <;> rfl

theorem walkLoop_nil (tr : Trie) (u : ExtractResult) :
    ∃ hs st sp, walkLoop [] u 2 tr false { hasSuffix := false, previousSepIdx := 0, sepIdx := 0, suffixStartIdx := 0, suffixEndIdx := 0 } =
      .ok { hasSuffix := hs, previousSepIdx := 0, sepIdx := sp, suffixStartIdx := st, suffixEndIdx := 0 } ∧
      (sp = -1 ∨ sp = 0 ∧ st = 0) := by
  unfold walkLoop
  have h1 : liftGo (slice [] 0 0) = .ok [] := rfl
  have h2 : liftGo (lastIndexAny [] labelSeparatorsRuneSet) = .ok (-1) := rfl
  show ∃ hs st sp, (walkLabel [] tr [] true { hasSuffix := false, previousSepIdx := 0, sepIdx := -1, suffixStartIdx := 0, suffixEndIdx := 0 }
    (fun _ w => .ok w)) = _ ∧ _
  unfold walkLabel
  dsimp only
  split
  · split
    · exact ⟨_, _, _, rfl, .inr ⟨rfl, rfl⟩⟩
    · exact ⟨_, _, _, rfl, .inl rfl⟩
  · split
    · next val hv =>
      cases val.isEnd <;> (simp only [Bool.not_false, Bool.and_false, Bool.and_true]; split) <;>
        first
          | exact ⟨_, _, _, rfl, .inl rfl⟩
          | (refine ⟨_, _, _, rfl, .inl rfl⟩)
    · exact ⟨_, _, _, rfl, .inl rfl⟩

theorem stageHost_nil (tr : Trie) (e : URLParams) (u : ExtractResult) (hu : u.domain = []) :
    ∃ r, stageHost tr e [] u = .error (.ret r (some .emptyDomain)) := by
  unfold stageHost
  obtain ⟨hs, st, sp, h, h'⟩ := walkLoop_nil tr u
  dsimp only [List.length_nil]
  rw [show ((0 : Nat) : Int) = 0 from rfl, show 0 + 2 = 2 from rfl, h]
  obtain ⟨url, ig, pc⟩ := e
  obtain ⟨sch, ui, sd, dom, suf, reg, port, path, ht⟩ := u
  obtain rfl : dom = [] := hu
  have hc : hasInvalidChars [] = false := by decide +kernel
  have hl : lastIndexAny [] labelSeparatorsRuneSet = .ok (-1) := by decide +kernel
  have hs0 : slice [] 0 0 = .ok [] := by decide +kernel
  rcases h' with rfl | ⟨rfl, rfl⟩ <;> cases hs <;> cases ig <;>
    simp [bind, Except.bind, stageIPv4, liftGo, stageCheckChars, stageNames, stageSubDomain, hc, hl, hs0, fail]

theorem liftGo_eq {α : Type} {x : Go α} {a : α} (h : liftGo x = .ok a) : x = .ok a := by
  cases x with
  | ok b => cases h; rfl
  | error e => cases h

theorem bind_isOk {α β : Type} {x : M α} {f : α → M β} {b : β} (h : (x >>= f) = .ok b) : ∃ a, x = .ok a ∧ f a = .ok b := by
  cases x with
  | ok a => exact ⟨a, rfl, h⟩
  | error e => cases h

theorem stageScheme_domain {s : Bytes} {u : ExtractResult} {r} (h : stageScheme s u = .ok r) :
    r.1.domain = u.domain ∧ r.1.hostType = u.hostType := by
  unfold stageScheme at h
  dsimp only at h
  split at h
  · cases h1 : slice s 0 (getSchemeEndIndex s) with
    | error x => rw [h1] at h; cases h
    | ok a =>
      cases h2 : slice s (getSchemeEndIndex s) s.length with
      | error x => rw [h1, h2] at h; cases h
      | ok b => rw [h1, h2] at h; cases h; exact ⟨rfl, rfl⟩
  · cases h; exact ⟨rfl, rfl⟩

theorem stageUserInfo_domain {s : Bytes} {u : ExtractResult} {r} (h : stageUserInfo s u = .ok r) :
    r.1.domain = u.domain ∧ r.1.hostType = u.hostType := by
  unfold stageUserInfo at h
  cases h0 : indexLastByteBefore s 64 invalidUserInfoCharsSet with
  | error x => rw [h0] at h; cases h
  | ok i =>
    rw [h0] at h
    replace h : (if i ≠ -1 then _ else _) = _ := h
    split at h
    · cases h1 : slice s 0 i with
      | error x => rw [h1] at h; cases h
      | ok a =>
        cases h2 : slice s (i + 1) s.length with
        | error x => rw [h1, h2] at h; cases h
        | ok b => rw [h1, h2] at h; cases h; exact ⟨rfl, rfl⟩
    · cases h; exact ⟨rfl, rfl⟩

theorem stageIPv6_domain {s : Bytes} {o c he : Int} {u v : ExtractResult} (h : stageIPv6 s o c he u = .ok v) :
    v = u ∨ v.hostType = .iPv6 := by
  unfold stageIPv6 at h
  split at h
  · cases h1 : liftGo (slice s 1 c) with
    | error x => rw [h1] at h; cases h
    | ok a =>
      rw [h1] at h
      cases h2 : liftGo (isIPv6 a) with
      | error x =>
        replace h : (liftGo (isIPv6 a) >>= _) = _ := h
        rw [h2] at h; cases h
      | ok b =>
        replace h : (liftGo (isIPv6 a) >>= _) = _ := h
        rw [h2] at h
        replace h : (if (!b) = true then _ else _) = _ := h
        split at h
        · cases h
        · split at h
          · cases h3 : liftGo (slice s he s.length) with
            | error x => rw [h3] at h; cases h
            | ok d =>
              rw [h3] at h
              replace h : ((if indexAnyASCII d endOfHostDelimitersSet ≠ 0 then _ else _) >>= _) = _ := h
              split at h
              · cases h
              · cases h; exact .inr rfl
          · cases h; exact .inr rfl
  · cases h; exact .inl rfl

theorem stagePortPath_domain {s : Bytes} {u v : ExtractResult} (h : stagePortPath s u = .ok v) :
    v.domain = u.domain ∧ v.hostType = u.hostType := by
  unfold stagePortPath at h
  split at h
  · dsimp only at h
    obtain ⟨c0, -, h⟩ := bind_isOk h
    obtain ⟨w, h1, h⟩ := bind_isOk h
    have hw : w.domain = u.domain ∧ w.hostType = u.hostType := by
      split at h1
      · obtain ⟨mp, -, h1⟩ := bind_isOk h1
        split at h1
        · cases h1; exact ⟨rfl, rfl⟩
        · cases h1
      · cases h1; exact ⟨rfl, rfl⟩
    split at h
    · obtain ⟨p, -, h⟩ := bind_isOk h
      cases h; exact hw
    · cases h; exact hw
  · cases h; exact ⟨rfl, rfl⟩

theorem beforeIdna_domain {e : URLParams} {u host} (h : beforeIdna e = .ok (u, some host)) : u.domain = [] := by
  unfold beforeIdna at h
  obtain ⟨s, -, h⟩ := bind_isOk h
  obtain ⟨r1, h1, h⟩ := bind_isOk h
  obtain ⟨r2, h2, h⟩ := bind_isOk h
  have d1 := stageScheme_domain (liftGo_eq h1)
  have d2 := stageUserInfo_domain (liftGo_eq h2)
  split at h
  · cases h
  · obtain ⟨u3, h3, h⟩ := bind_isOk h
    obtain ⟨hs, -, h⟩ := bind_isOk h
    obtain ⟨u4, h4, h⟩ := bind_isOk h
    have d4 := stagePortPath_domain h4
    split at h
    · cases h
    · next hne =>
      cases h
      rcases stageIPv6_domain h3 with rfl | h5
      · rw [d4.1, d2.1, d1.1]
      · exact absurd (d4.2.trans h5) hne

theorem splitAfterFirst_spec {sep : Bytes} (hsep : sep ≠ []) (s : Bytes) : UpToFirst sep s (splitAfterFirst sep s) := by
  induction s with
  | nil =>
    refine .inl ⟨?_, rfl⟩
    intro h
    exact hsep (List.infix_nil.1 h)
  | cons c rest ih =>
    unfold splitAfterFirst
    split
    · next h =>
      obtain ⟨B, hB⟩ := List.isPrefixOf_iff_prefix.1 h
      refine .inr ⟨[], B, hB.symm, rfl, ?_⟩
      intro h'
      have h1 := h'.length_le
      have h2 : 0 < sep.length := List.length_pos_iff.2 hsep
      simp at h1
      omega
    · next h =>
      have hp : ¬ sep <+: c :: rest := fun h' => h (List.isPrefixOf_iff_prefix.2 h')
      rcases ih with ⟨h1, h2⟩ | ⟨A, B, h1, h2, h3⟩
      · refine .inl ⟨?_, by rw [h2]⟩
        intro h'
        rcases List.infix_cons_iff.1 h' with h' | h'
        · exact hp h'
        · exact h1 h'
      · refine .inr ⟨c :: A, B, by rw [h1]; simp, by rw [h2]; rfl, ?_⟩
        intro h'
        have hne : A ++ sep ≠ [] := by simp [hsep]
        rw [List.cons_append, List.dropLast_cons_of_ne_nil hne] at h'
        rcases List.infix_cons_iff.1 h' with h' | h'
        · refine hp (h'.trans ?_)
          rw [h1]
          exact (List.cons_prefix_cons.2 ⟨rfl, (List.dropLast_prefix _).trans (List.prefix_append _ _)⟩)
        · exact h3 h'

/-- It does not end with an error of the IDNA library. -/
def NotIdna {α : Type} (x : M α) : Prop := ∀ r m, x ≠ .error (.ret r (some (.idna m)))

theorem notIdna_ok {α : Type} (a : α) : NotIdna (.ok a : M α) := by intro r m h; cases h
theorem notIdna_go {α : Type} (x : Go α) : NotIdna (liftGo x) := by cases x <;> (intro r m h; cases h)
theorem notIdna_fail {α : Type} {u : ExtractResult} {e : Err} (h : ∀ m, e ≠ .idna m) : NotIdna (fail u e : M α) := by
  intro r m h'
  cases h'
  exact h m rfl
theorem notIdna_bind {α β : Type} {x : M α} {f : α → M β} (hx : NotIdna x) (hf : ∀ a, NotIdna (f a)) : NotIdna (x >>= f) := by
  cases x with
  | ok a => exact hf a
  | error s => intro r m h; cases h; exact hx r m rfl

theorem scanLoop_notIdna {n : Nat} {s : Bytes} {i : Nat} {o c : Int} {e : Err} (h : scanLoop n s i o c = .err e) (m : Bytes) :
    e ≠ .idna m := by
  induction s generalizing i o c with
  | nil => cases h
  | cons r rest ih =>
    unfold scanLoop at h
    dsimp only at h
    generalize (if r = 91 then (i : Int) else o) = o' at h
    generalize (if r = 93 then (i : Int) else c) = c' at h
    repeat' split at h
    all_goals first | exact ih h | (cases h; done) | (cases h; intro h'; cases h'; done)

theorem stageIPv6_notIdna (s : Bytes) (o c he : Int) (u : ExtractResult) : NotIdna (stageIPv6 s o c he u) := by
  unfold stageIPv6
  split
  · refine notIdna_bind (notIdna_go _) fun a => notIdna_bind (notIdna_go _) fun b => ?_
    split
    · exact notIdna_fail (by simp)
    · refine notIdna_bind ?_ fun _ => notIdna_ok _
      split
      · refine notIdna_bind (notIdna_go _) fun d => ?_
        split
        · exact notIdna_fail (by simp)
        · exact notIdna_ok _
      · exact notIdna_ok _
  · exact notIdna_ok _

theorem stagePortPath_notIdna (s : Bytes) (u : ExtractResult) : NotIdna (stagePortPath s u) := by
  unfold stagePortPath
  split
  · dsimp only
    refine notIdna_bind (notIdna_go _) fun c0 => notIdna_bind ?_ fun w => ?_
    · split
      · refine notIdna_bind ?_ fun mp => ?_
        · split <;> exact notIdna_go _
        · split
          · exact notIdna_ok _
          · exact notIdna_fail (by simp)
      · exact notIdna_ok _
    · split
      · exact notIdna_bind (notIdna_go _) fun p => notIdna_ok _
      · exact notIdna_ok _
  · exact notIdna_ok _

theorem beforeIdna_notIdna (e : URLParams) : NotIdna (beforeIdna e) := by
  unfold beforeIdna
  refine notIdna_bind (notIdna_go _) fun s => notIdna_bind (notIdna_go _) fun r1 => notIdna_bind (notIdna_go _) fun r2 => ?_
  split
  · next er h => exact notIdna_fail (scanLoop_notIdna h)
  · refine notIdna_bind (stageIPv6_notIdna _ _ _ _ _) fun u => notIdna_bind (notIdna_go _) fun hs =>
      notIdna_bind (stagePortPath_notIdna _ _) fun u => ?_
    split <;> exact notIdna_ok _

theorem walkLabel_notIdna {netloc node label isLast w k} (hk : ∀ n w, NotIdna (k n w)) :
    NotIdna (walkLabel netloc node label isLast w k) := by
  unfold walkLabel
  dsimp only
  repeat' split
  all_goals first | exact notIdna_ok _ | exact hk _ _

theorem walkLoop_notIdna (netloc : Bytes) (u : ExtractResult) (fuel : Nat) (node : Trie) (b : Bool) (w : Walk) :
    NotIdna (walkLoop netloc u fuel node b w) := by
  induction fuel generalizing node b w with
  | zero => intro r m h; cases h
  | succ fuel ih =>
    unfold walkLoop
    refine notIdna_bind (notIdna_go _) fun pre => notIdna_bind (notIdna_go _) fun sep => ?_
    split
    · refine notIdna_bind (notIdna_go _) fun c => notIdna_bind (notIdna_go _) fun label => ?_
      split
      · split
        · exact ih _ _ _
        · exact notIdna_fail (by simp)
      · exact walkLabel_notIdna fun _ _ => ih _ _ _
    · exact notIdna_bind (notIdna_go _) fun label => walkLabel_notIdna fun _ _ => notIdna_ok _

/-- It ends with no error of the IDNA library, and if it returns at its end, with no error at all. -/
def Clean (x : M (ExtractResult × Option Err)) : Prop := NotIdna x ∧ ∀ r er, x = .ok (r, er) → er = none

theorem clean_ok (u : ExtractResult) : Clean (.ok (u, none)) := ⟨notIdna_ok _, by rintro r er h; cases h; rfl⟩
theorem clean_bind {α : Type} {x : M α} {f : α → M (ExtractResult × Option Err)} (hx : NotIdna x) (hf : ∀ a, Clean (f a)) :
    Clean (x >>= f) := by
  refine ⟨notIdna_bind hx fun a => (hf a).1, fun r er h => ?_⟩
  cases x with
  | ok a => exact (hf a).2 r er h
  | error s => cases h

theorem stageHost_clean (tr : Trie) (e : URLParams) (netloc : Bytes) (u : ExtractResult) : Clean (stageHost tr e netloc u) := by
  unfold stageHost
  refine clean_bind (walkLoop_notIdna _ _ _ _ _ _) fun w => clean_bind (notIdna_go _) fun ip4 => ?_
  split
  · exact clean_ok _
  · refine clean_bind ?_ fun w => clean_bind (notIdna_go _) fun r => clean_bind (notIdna_go _) fun u => ?_
    · unfold stageCheckChars
      dsimp only
      refine notIdna_bind (notIdna_go _) fun c => ?_
      split
      · exact notIdna_fail (by simp)
      · exact notIdna_ok _
    · split
      · exact ⟨notIdna_fail (by simp), by rintro r er h; cases h⟩
      · exact clean_ok _

end Fasttld
