import Verif.Spec.System
import Verif.Proofs.Psl

/-!
# Runs of New and Update
-/

set_option linter.unusedSimpArgs false

namespace Fasttld
open Spec

/-! ## Sequencing -/

@[simp] theorem run_ret_iff {α : Type} {a b : α} {evs} : Run (Prog.ret a) evs b ↔ evs = [] ∧ b = a := by
  constructor
  · intro h; cases h; exact ⟨rfl, rfl⟩
  · rintro ⟨rfl, rfl⟩; exact .ret _

@[simp] theorem run_pure_iff {α : Type} {a b : α} {evs} : Run (pure a : Prog α) evs b ↔ evs = [] ∧ b = a := run_ret_iff

theorem run_call_iff {α β : Type} {o : Op β} {k : β → Prog α} {evs a} :
    Run (Prog.call o k) evs a ↔ ∃ b evs', evs = o.event b :: evs' ∧ Run (k b) evs' a := by
  constructor
  · intro h; cases h with
    | call h => exact ⟨_, _, rfl, h⟩
  · rintro ⟨b, evs', rfl, h⟩; exact .call h

@[simp] theorem event_tempDir (b) : Op.tempDir.event b = .tempDir b := rfl
@[simp] theorem event_abs (p b) : (Op.abs p).event b = .abs p b := rfl
@[simp] theorem event_stat (p b) : (Op.stat p).event b = .stat p b := rfl
@[simp] theorem event_now (b) : Op.now.event b = .now b := rfl
@[simp] theorem event_readFile (p b) : (Op.readFile p).event b = .readFile p b := rfl
@[simp] theorem event_openDir (p b) : (Op.openDir p).event b = .openDir p b := rfl
@[simp] theorem event_openWrite (p b) : (Op.openWrite p).event b = .openWrite p b := rfl
@[simp] theorem event_httpGet (p b) : (Op.httpGet p).event b = .httpGet p b := rfl
@[simp] theorem event_seek (h b) : (Op.seek h).event b = .seek h b := rfl
@[simp] theorem event_write (h x b) : (Op.write h x).event b = .write h x b := rfl

theorem run_bind_iff {α γ : Type} {p : Prog α} {f : α → Prog γ} {evs c} :
    Run (p >>= f) evs c ↔ ∃ b e1 e2, evs = e1 ++ e2 ∧ Run p e1 b ∧ Run (f b) e2 c := by
  show Run (p.bind f) evs c ↔ _
  induction p generalizing evs with
  | ret a =>
    simp only [Prog.bind, run_ret_iff]
    constructor
    · intro h; exact ⟨a, [], evs, rfl, ⟨rfl, rfl⟩, h⟩
    · rintro ⟨b, e1, e2, rfl, ⟨rfl, rfl⟩, h⟩; exact h
  | call o k ih =>
    simp only [Prog.bind, run_call_iff, ih]
    constructor
    · rintro ⟨b, _, rfl, x, e1, e2, rfl, h1, h2⟩
      exact ⟨x, o.event b :: e1, e2, rfl, ⟨b, e1, rfl, h1⟩, h2⟩
    · rintro ⟨x, _, e2, rfl, ⟨b, e1, rfl, h1⟩, h2⟩
      exact ⟨b, e1 ++ e2, rfl, x, e1, e2, rfl, h1, h2⟩

@[simp] theorem run_ask_iff {β : Type} {o : Op β} {evs b} : Run o.ask evs b ↔ evs = [o.event b] := by
  unfold Op.ask
  rw [run_call_iff]
  constructor
  · rintro ⟨c, e, rfl, h⟩
    obtain ⟨rfl, rfl⟩ := run_ret_iff.1 h; rfl
  · rintro rfl; exact ⟨b, [], rfl, .ret _⟩

theorem run_ask_bind_iff {β γ : Type} {o : Op β} {f : β → Prog γ} {evs c} :
    Run (o.ask >>= f) evs c ↔ ∃ b evs', evs = o.event b :: evs' ∧ Run (f b) evs' c := by
  simp only [run_bind_iff, run_ask_iff]
  constructor
  · rintro ⟨b, e1, e2, rfl, rfl, h⟩; exact ⟨b, e2, rfl, h⟩
  · rintro ⟨b, e, rfl, h⟩; exact ⟨b, _, e, rfl, rfl, h⟩

/-- Whatever the answers, the program ends. -/
theorem run_exists {α : Type} (p : Prog α) (env : Environment) (past : List Event) :
    ∃ evs a, Run p evs a ∧ Answers env past evs := by
  induction p generalizing past with
  | ret a => exact ⟨[], a, .ret a, .nil past⟩
  | call o k ih =>
    obtain ⟨evs, a, h, h'⟩ := ih (env _ past o) (past ++ [o.event (env _ past o)])
    exact ⟨_, a, .call h, .cons h'⟩

/-- The answers of a world are answers. -/
theorem exec_run {α : Type} (p : Prog α) (w : World) : Run p (p.exec w).2.2 (p.exec w).1 := by
  induction p generalizing w with
  | ret a => exact .ret a
  | call o k ih => exact .call (ih _ _)

theorem exec_bind {α γ : Type} (p : Prog α) (f : α → Prog γ) (w : World) :
    (p >>= f).exec w =
      (((f (p.exec w).1).exec (p.exec w).2.1).1, ((f (p.exec w).1).exec (p.exec w).2.1).2.1,
       (p.exec w).2.2 ++ ((f (p.exec w).1).exec (p.exec w).2.1).2.2) := by
  show (p.bind f).exec w = _
  induction p generalizing w with
  | ret a => simp [Prog.bind, Prog.exec]
  | call o k ih =>
    simp only [Prog.bind, Prog.exec]
    rw [ih]
    simp

@[simp] theorem exec_ask {β : Type} (o : Op β) (w : World) : o.ask.exec w = ((o.answer w).1, (o.answer w).2, [o.event (o.answer w).1]) := rfl
@[simp] theorem exec_pure {α : Type} (a : α) (w : World) : (pure a : Prog α).exec w = (a, w, []) := rfl

/-! ## Section markers -/

theorem bytesContains_iff (sub s : Bytes) : bytesContains sub s = true ↔ sub <:+: s := by
  induction s with
  | nil => simp [bytesContains]
  | cons c t ih =>
    rw [bytesContains, Bool.or_eq_true, ih, List.isPrefixOf_iff_prefix, List.infix_cons_iff]

theorem validPSLDelimiters_iff (c : Bytes) : validPSLDelimiters c = true ↔ HasMarkers c := by
  unfold validPSLDelimiters HasMarkers markers
  simp only [Bool.and_eq_true, bytesContains_iff, List.mem_cons, List.not_mem_nil, or_false, forall_eq_or_imp, forall_eq]
  constructor
  · rintro ⟨⟨⟨h1, h2⟩, h3⟩, h4⟩; exact ⟨h1, h2, h3, h4⟩
  · rintro ⟨h1, h2, h3, h4⟩; exact ⟨⟨⟨h1, h2⟩, h3⟩, h4⟩

instance (c : Bytes) : Decidable (HasMarkers c) := decidable_of_iff _ (validPSLDelimiters_iff c)

/-! ## The pieces -/

theorem run_trieConstruct {idna : Idna} {hard inc p evs r} :
    Run (trieConstruct idna hard inc p) evs r ↔
      (p = [] ∧ evs = [] ∧ r = (trieOfText idna inc hard, none)) ∨
      (p ≠ [] ∧ ((evs = [(.readFile p none)] ∧ r = (.node false [], some .readFile)) ∨
        ∃ c, evs = [(.readFile p (some c))] ∧ r = (trieOfText idna inc c, none))) := by
  unfold trieConstruct getPublicSuffixList
  by_cases hp : p = []
  · subst hp
    simp only [ne_eq, not_true, if_false, run_bind_iff, run_pure_iff, getHardcodedPublicSuffixList, true_and, false_and, or_false]
    constructor
    · rintro ⟨b, e1, e2, rfl, ⟨rfl, rfl⟩, h⟩
      simpa [trieOfText] using h
    · rintro ⟨rfl, rfl⟩
      exact ⟨_, [], [], rfl, ⟨rfl, rfl⟩, by simp [trieOfText]⟩
  · simp only [ne_eq, hp, not_false_eq_true, if_true, false_and, true_and, false_or, run_bind_iff, run_ask_iff]
    constructor
    · rintro ⟨⟨s, err⟩, e1, e2, rfl, ⟨b, e3, e4, rfl, rfl, h1⟩, h2⟩
      cases b with
      | none =>
        simp only [run_pure_iff, Prod.mk.injEq] at h1
        obtain ⟨rfl, rfl, rfl⟩ := h1
        simp only [run_pure_iff] at h2
        exact .inl ⟨by rw [h2.1]; rfl, h2.2⟩
      | some c =>
        simp only [run_pure_iff, Prod.mk.injEq] at h1
        obtain ⟨rfl, rfl, rfl⟩ := h1
        simp only [run_pure_iff] at h2
        exact .inr ⟨c, by rw [h2.1]; rfl, h2.2⟩
    · rintro (⟨rfl, rfl⟩ | ⟨c, rfl, rfl⟩)
      · exact ⟨(⟨[], [], []⟩, some .readFile), _, [], (List.append_nil _).symm, ⟨none, _, [], (List.append_nil _).symm, rfl, by simp⟩, by simp⟩
      · exact ⟨(parsePSL idna c, none), _, [], (List.append_nil _).symm, ⟨some c, _, [], (List.append_nil _).symm, rfl, by simp⟩, by simp [trieOfText]⟩

theorem run_newHardcodedPSL {idna : Idna} {hard n evs r} :
    Run (newHardcodedPSL idna hard n) evs r ↔
      evs = [] ∧ r = (⟨[], trieOfText idna n.includePrivateSuffix hard, n.includePrivateSuffix⟩, none) := by
  unfold newHardcodedPSL
  simp only [run_bind_iff, run_trieConstruct]
  constructor
  · rintro ⟨b, e1, e2, rfl, ⟨-, rfl, rfl⟩ | ⟨h, -⟩, h2⟩
    · simpa using h2
    · exact absurd rfl h
  · rintro ⟨rfl, rfl⟩
    exact ⟨_, [], [], rfl, .inl ⟨trivial, rfl, rfl⟩, by simp⟩

theorem run_finishNew {idna : Idna} {hard n x evs r} :
    Run (finishNew idna hard n x) evs r ↔
      (x.cacheFilePath = [] ∧ evs = [] ∧ r = ({ x with tldTrie := trieOfText idna n.includePrivateSuffix hard }, none)) ∨
      (x.cacheFilePath ≠ [] ∧ ((evs = [(.readFile x.cacheFilePath none)] ∧
          r = (⟨[], trieOfText idna n.includePrivateSuffix hard, n.includePrivateSuffix⟩, none)) ∨
        ∃ c, evs = [(.readFile x.cacheFilePath (some c))] ∧
          r = ({ x with tldTrie := trieOfText idna n.includePrivateSuffix c }, none))) := by
  unfold finishNew
  simp only [run_bind_iff, run_trieConstruct]
  constructor
  · rintro ⟨b, e1, e2, rfl, ⟨h, rfl, rfl⟩ | ⟨h, ⟨rfl, rfl⟩ | ⟨c, rfl, rfl⟩⟩, h2⟩
    · exact .inl ⟨h, by simpa using h2⟩
    · simp only [run_newHardcodedPSL] at h2
      exact .inr ⟨h, .inl ⟨by simp [h2.1], h2.2⟩⟩
    · simp only [run_pure_iff] at h2
      exact .inr ⟨h, .inr ⟨c, by simp [h2.1], h2.2⟩⟩
  · rintro (⟨h, rfl, rfl⟩ | ⟨h, ⟨rfl, rfl⟩ | ⟨c, rfl, rfl⟩⟩)
    · exact ⟨_, [], [], rfl, .inl ⟨h, rfl, rfl⟩, by simp⟩
    · exact ⟨_, _, [], (List.append_nil _).symm, .inr ⟨h, .inl ⟨rfl, rfl⟩⟩, by simp [run_newHardcodedPSL]⟩
    · exact ⟨_, _, [], (List.append_nil _).symm, .inr ⟨h, .inr ⟨c, rfl, rfl⟩⟩, by simp⟩

/-- Update, any answers. -/
theorem run_update {idna : Idna} {hard} {f : FastTLD} {evs r} :
    Run (f.update idna hard) evs r ↔
      ∃ tmp, (f.cacheFilePath ≠ tmp ++ defaultPSLFileName ∧ evs = [(.tempDir tmp)] ∧ r = (f, some .noOp)) ∨
      (f.cacheFilePath = tmp ++ defaultPSLFileName ∧
        ((evs = [(.tempDir tmp), (.openWrite f.cacheFilePath none)] ∧ r = (f, some .openFile)) ∨
        ∃ h evs' ok, Run (update h publicSuffixListSources) evs' ok ∧
          ((ok = false ∧ evs = (.tempDir tmp) :: (.openWrite f.cacheFilePath (some h)) :: evs' ∧ r = (f, some .allMirrors)) ∨
           (ok = true ∧ ∃ c, evs = (.tempDir tmp) :: (.openWrite f.cacheFilePath (some h)) :: (evs' ++ [(.readFile f.cacheFilePath c)]) ∧
             r = match c with
               | none => (f, some .readFile)
               | some c => ({ f with tldTrie := trieOfText idna f.includePrivateSuffix c }, none))))) := by
  have hne : ∀ tmp : Bytes, tmp ++ defaultPSLFileName ≠ [] := by intro tmp h; simp [defaultPSLFileName] at h
  unfold FastTLD.update
  rw [run_ask_bind_iff]
  constructor
  · rintro ⟨tmp, evs1, rfl, h⟩
    refine ⟨tmp, ?_⟩
    by_cases hd : f.cacheFilePath = tmp ++ defaultPSLFileName
    · rw [if_neg (by simpa using hd), run_ask_bind_iff] at h
      refine .inr ⟨hd, ?_⟩
      obtain ⟨hh, evs2, rfl, h⟩ := h
      cases hh with
      | none =>
        simp only [run_pure_iff] at h
        rw [← hd]
        exact .inl ⟨by rw [h.1]; rfl, h.2⟩
      | some hh =>
        right
        simp only [run_bind_iff] at h
        obtain ⟨ok, e1, e2, rfl, h1, h2⟩ := h
        refine ⟨hh, e1, ok, h1, ?_⟩
        cases ok with
        | false =>
          simp only [Bool.not_false, if_true, run_pure_iff] at h2
          rw [← hd]
          exact .inl ⟨rfl, by simp [h2.1], h2.2⟩
        | true =>
          simp only [Bool.not_true, Bool.false_eq_true, if_false, run_bind_iff, run_trieConstruct] at h2
          right
          refine ⟨rfl, ?_⟩
          obtain ⟨b, e3, e4, rfl, ⟨h, -⟩ | ⟨-, ⟨rfl, rfl⟩ | ⟨c, rfl, rfl⟩⟩, h4⟩ := h2
          · exact absurd h (hne tmp)
          · simp only [run_pure_iff] at h4
            exact ⟨none, by simp [h4.1, hd], h4.2⟩
          · simp only [run_pure_iff] at h4
            refine ⟨some c, by simp [h4.1, hd], ?_⟩
            rw [h4.2]; cases f; simp at hd; simp [hd]
    · rw [if_pos (by simpa using hd)] at h
      simp only [run_pure_iff] at h
      exact .inl ⟨hd, by simp [h.1], h.2⟩
  · rintro ⟨tmp, ⟨hd, rfl, rfl⟩ | ⟨hd, h⟩⟩
    · exact ⟨tmp, [], rfl, by rw [if_pos (by simpa using hd)]; simp⟩
    · have hif : ¬ (f.cacheFilePath ≠ tmp ++ defaultPSLFileName) := by simpa using hd
      rcases h with ⟨rfl, rfl⟩ | ⟨hh, evs', ok, h1, ⟨rfl, rfl, rfl⟩ | ⟨rfl, c, rfl, rfl⟩⟩
      · exact ⟨tmp, _, rfl, by rw [if_neg hif, run_ask_bind_iff, hd]; exact ⟨none, [], rfl, by simp⟩⟩
      · refine ⟨tmp, _, rfl, ?_⟩
        rw [if_neg hif, run_ask_bind_iff, hd]
        refine ⟨some hh, _, rfl, ?_⟩
        simp only [run_bind_iff]
        exact ⟨false, evs', [], by simp, h1, by simp⟩
      · refine ⟨tmp, _, rfl, ?_⟩
        rw [if_neg hif, run_ask_bind_iff, hd]
        refine ⟨some hh, _, rfl, ?_⟩
        simp only [run_bind_iff]
        refine ⟨true, evs', _, rfl, h1, ?_⟩
        simp only [Bool.not_true, Bool.false_eq_true, if_false, run_bind_iff, run_trieConstruct]
        cases c with
        | none => exact ⟨_, _, [], (List.append_nil _).symm, .inr ⟨hne tmp, .inl ⟨rfl, rfl⟩⟩, by simp⟩
        | some c =>
          refine ⟨_, _, [], (List.append_nil _).symm, .inr ⟨hne tmp, .inr ⟨c, rfl, rfl⟩⟩, ?_⟩
          cases f; simp at hd; simp [hd]

theorem run_downloadFile {url evs r} : Run (downloadFile url) evs r ↔
    ∃ resp, evs = [.httpGet url resp] ∧ ((∃ body, r = some body ∧ resp = .status 200 body true) ∨
      (r = none ∧ ∀ body, resp ≠ .status 200 body true)) := by
  unfold downloadFile
  simp only [run_ask_bind_iff, event_httpGet]
  constructor
  · rintro ⟨resp, e, rfl, h⟩
    cases resp with
    | failed =>
      simp only [run_pure_iff] at h
      exact ⟨_, by rw [h.1], .inr ⟨h.2, by simp⟩⟩
    | status code body complete =>
      by_cases hc : code = 200
      · simp only [hc, if_true, run_pure_iff] at h
        cases complete with
        | true => exact ⟨_, by rw [h.1], .inl ⟨body, by simpa using h.2, by rw [hc]⟩⟩
        | false => exact ⟨_, by rw [h.1], .inr ⟨by simpa using h.2, by simp⟩⟩
      · simp only [hc, if_false, run_pure_iff] at h
        exact ⟨_, by rw [h.1], .inr ⟨h.2, by simp [hc]⟩⟩
  · rintro ⟨resp, rfl, ⟨body, rfl, rfl⟩ | ⟨rfl, h⟩⟩
    · exact ⟨_, [], rfl, by simp⟩
    · refine ⟨resp, [], rfl, ?_⟩
      cases resp with
      | failed => simp
      | status code body complete =>
        by_cases hc : code = 200
        · subst hc
          cases complete with
          | true => exact absurd rfl (h body)
          | false => simp
        · simp [hc]

/-- The loop over the sources, any answers. -/
theorem run_update_loop {file sources evs ok} : Run (update file sources) evs ok ↔ Attempts file sources evs ok := by
  induction sources generalizing evs with
  | nil =>
    simp only [update, run_pure_iff]
    constructor
    · rintro ⟨rfl, rfl⟩; exact .exhausted
    · intro h; cases h; exact ⟨rfl, rfl⟩
  | cons url rest ih =>
    simp only [update, run_bind_iff, run_downloadFile]
    constructor
    · rintro ⟨r, _, e2, rfl, ⟨resp, rfl, ⟨body, rfl, rfl⟩ | ⟨rfl, hr⟩⟩, h⟩
      · simp only at h
        by_cases hv : validPSLDelimiters body = true
        · have hm := (validPSLDelimiters_iff body).1 hv
          simp only [hv, Bool.not_true, Bool.false_eq_true, if_false, run_ask_bind_iff, event_seek] at h
          obtain ⟨sk, e3, rfl, h⟩ := h
          cases sk with
          | false =>
            simp only [Bool.not_false, if_true, ih] at h
            exact Attempts.next (evs := [_, _]) (.noSeek hm) h
          | true =>
            simp only [Bool.not_true, Bool.false_eq_true, if_false, run_ask_bind_iff, event_write] at h
            obtain ⟨wr, e4, rfl, h⟩ := h
            cases wr with
            | false =>
              simp only [Bool.not_false, if_true, ih] at h
              exact Attempts.next (evs := [_, _, _]) (.noWrite hm) h
            | true =>
              simp only [Bool.not_true, Bool.false_eq_true, if_false, run_pure_iff] at h
              obtain ⟨rfl, rfl⟩ := h
              exact .stop (.written hm)
        · simp only [hv, Bool.not_false, if_true, ih] at h
          refine .next (.noList ?_) h
          intro b hb
          simp only [Response.status.injEq, true_and, and_true] at hb
          subst hb
          rw [← validPSLDelimiters_iff]; exact hv
      · simp only [ih] at h
        exact .next (.noList (fun b hb => absurd hb (hr b))) h
    · intro h
      cases h with
      | stop h =>
        cases h with
        | written hm =>
          rename_i body
          refine ⟨some body, _, _, rfl, ⟨_, rfl, .inl ⟨body, rfl, rfl⟩⟩, ?_⟩
          simp only [(validPSLDelimiters_iff body).2 hm, Bool.not_true, Bool.false_eq_true, if_false, run_ask_bind_iff]
          exact ⟨true, _, rfl, by
            simp only [Bool.not_true, Bool.false_eq_true, if_false, run_ask_bind_iff]
            exact ⟨true, _, rfl, by simp⟩⟩
      | next h h' =>
        rw [← ih] at h'
        cases h with
        | noList hm =>
          rename_i resp
          by_cases hr : ∃ body, resp = .status 200 body true
          · obtain ⟨body, rfl⟩ := hr
            refine ⟨some body, _, _, rfl, ⟨_, rfl, .inl ⟨body, rfl, rfl⟩⟩, ?_⟩
            have : ¬ validPSLDelimiters body = true := by rw [validPSLDelimiters_iff]; exact hm body rfl
            simpa only [this, Bool.not_false, if_true] using h'
          · exact ⟨none, _, _, rfl, ⟨_, rfl, .inr ⟨rfl, fun b hb => hr ⟨b, hb⟩⟩⟩, h'⟩
        | noSeek hm =>
          rename_i body
          refine ⟨some body, [_], _ :: _, rfl, ⟨_, rfl, .inl ⟨body, rfl, rfl⟩⟩, ?_⟩
          simp only [(validPSLDelimiters_iff body).2 hm, Bool.not_true, Bool.false_eq_true, if_false, run_ask_bind_iff]
          exact ⟨false, _, rfl, by simpa using h'⟩
        | noWrite hm =>
          rename_i body
          refine ⟨some body, [_], _ :: _ :: _, rfl, ⟨_, rfl, .inl ⟨body, rfl, rfl⟩⟩, ?_⟩
          simp only [(validPSLDelimiters_iff body).2 hm, Bool.not_true, Bool.false_eq_true, if_false, run_ask_bind_iff]
          exact ⟨true, _, rfl, by
            simp only [Bool.not_true, Bool.false_eq_true, if_false, run_ask_bind_iff]
            exact ⟨false, _, rfl, by simpa using h'⟩⟩

/-- Every write in the loop is of a validated body that was just downloaded. -/
theorem attempts_write {file sources evs ok} (h : Attempts file sources evs ok) {hd body b}
    (hm : Event.write hd body b ∈ evs) : hd = file ∧ HasMarkers body ∧
      ∃ url ∈ sources, Event.httpGet url (.status 200 body true) ∈ evs := by
  induction h with
  | exhausted => simp at hm
  | stop h =>
    cases h with
    | written hb => simp at hm; obtain ⟨rfl, rfl, rfl⟩ := hm; exact ⟨rfl, hb, _, List.mem_cons_self, List.mem_cons_self⟩
  | next h h' ih =>
    rcases List.mem_append.1 hm with hm | hm
    · cases h with
      | noList => simp at hm
      | noSeek => simp at hm
      | noWrite hb => simp at hm; obtain ⟨rfl, rfl, rfl⟩ := hm; exact ⟨rfl, hb, _, List.mem_cons_self, List.mem_cons_self⟩
    · obtain ⟨h1, h2, u, h3, h4⟩ := ih hm
      exact ⟨h1, h2, u, by simp [h3], by simp [h4]⟩

theorem attempts_urls {file sources evs ok} (h : Attempts file sources evs ok) :
    evs.filterMap urlOf <+: sources ∧ (ok = false → evs.filterMap urlOf = sources) := by
  induction h with
  | exhausted => simp
  | stop h => cases h with | written hb => simp [urlOf, List.filterMap_cons]
  | next h h' ih =>
    cases h <;> simp [urlOf, List.filterMap_cons, ih.1] <;> exact ih.2

theorem attempts_stop {file sources evs ok} (h : Attempts file sources evs ok) :
    (ok = true → ∃ init body, evs = init ++ [.write file body true]) ∧
    (ok = false → ∀ hd body, Event.write hd body true ∉ evs) ∧
    ∀ init rest hd body, evs = init ++ .write hd body true :: rest → rest = [] := by
  induction h with
  | exhausted => simp
  | stop h =>
    cases h with
    | written hb =>
      refine ⟨fun _ => ⟨[_, _], _, rfl⟩, by simp, ?_⟩
      intro init rest hd body he
      rcases init with _ | ⟨a, _ | ⟨b, _ | ⟨c, init⟩⟩⟩ <;> simp at he
      exact he.2.2.2
  | next h h' ih =>
    rename_i url rest' e e' ok'
    have hno : ∀ hd body, Event.write hd body true ∉ e := by
      intro hd body hm; cases h <;> simp at hm
    refine ⟨?_, ?_, ?_⟩
    · intro hok
      obtain ⟨init, body, rfl⟩ := ih.1 hok
      exact ⟨e ++ init, body, by simp⟩
    · intro hok hd body hm
      rcases List.mem_append.1 hm with hm | hm
      · exact hno hd body hm
      · exact ih.2.1 hok hd body hm
    · intro init rest hd body he
      rcases List.append_eq_append_iff.1 he with ⟨m, h1, h2⟩ | ⟨m, h1, h2⟩
      · exact ih.2.2 m rest hd body h2
      · cases m with
        | nil => simp at h2; exact ih.2.2 [] rest hd body h2.symm
        | cons x m =>
          simp at h2
          exact absurd (by rw [h1, ← h2.1]; simp) (hno hd body)

/-- checkCacheFile, any answers. -/
theorem run_checkCacheFile {p : Bytes} {evs r} :
    Run (checkCacheFile p) evs r ↔ ∃ q ok st t c,
      evs = (.abs (trimSpace p) (q, ok)) :: (.stat q st) ::
        ((if st.isSome then [(.now t)] else []) ++ [(.readFile q c)]) ∧
      r = (ok && st.any (fun i => !i.isDir) && c.any validPSLDelimiters,
        (st.map (fun i => t - i.modTime)).getD 0) := by
  unfold checkCacheFile
  simp only [run_bind_iff, run_ask_iff]
  constructor
  · rintro ⟨⟨q, ok⟩, _, _, rfl, rfl, st, _, _, rfl, rfl, lm, e1, _, rfl, h1, c, _, _, rfl, rfl, h2⟩
    simp only [run_pure_iff] at h2
    obtain ⟨rfl, rfl⟩ := h2
    cases st with
    | none =>
      simp only [fileLastModified, run_pure_iff] at h1
      obtain ⟨rfl, rfl⟩ := h1
      refine ⟨q, ok, none, 0, c, by simp, ?_⟩
      cases c <;> simp
    | some st =>
      simp only [fileLastModified, run_bind_iff, run_ask_iff, run_pure_iff] at h1
      obtain ⟨t, _, _, rfl, rfl, rfl, rfl⟩ := h1
      refine ⟨q, ok, some st, t, c, by simp, ?_⟩
      cases c <;> simp
  · rintro ⟨q, ok, st, t, c, rfl, rfl⟩
    cases st with
    | none =>
      refine ⟨(q, ok), _, _, rfl, rfl, none, _, _, rfl, rfl, 0, [], _, rfl, by simp [fileLastModified], c, _, [], (List.append_nil _).symm, rfl, ?_⟩
      cases c <;> simp
    | some st =>
      refine ⟨(q, ok), _, _, rfl, rfl, some st, _, _, rfl, rfl, t - st.modTime, [(.now t)], _, rfl, ?_, c, _, [], (List.append_nil _).symm, rfl, ?_⟩
      · simp only [fileLastModified, run_bind_iff, run_ask_iff, run_pure_iff]
        exact ⟨t, _, [], (List.append_nil _).symm, rfl, rfl, rfl⟩
      · cases c <;> simp

/-- New, any answers. -/
theorem run_new {idna : Idna} {hard n evs r} :
    Run (new idna hard n) evs r ↔ ∃ e1 v a, Run (checkCacheFile n.cacheFilePath) e1 (v, a) ∧
      ((v = true ∧ ∃ e2, evs = e1 ++ e2 ∧ Run (finishNew idna hard n ⟨n.cacheFilePath, .node false [], n.includePrivateSuffix⟩) e2 r) ∨
       (v = false ∧ ∃ tmp,
        ((evs = e1 ++ [(.tempDir tmp), (.openDir tmp false)] ∧
            r = (⟨[], trieOfText idna n.includePrivateSuffix hard, n.includePrivateSuffix⟩, none)) ∨
         ∃ e3 v' a', Run (checkCacheFile (tmp ++ defaultPSLFileName)) e3 (v', a') ∧
          (((v' = false ∨ a' > pslMaxAge) ∧ ∃ e4 x err,
              Run (FastTLD.update idna hard ⟨tmp ++ defaultPSLFileName, .node false [], n.includePrivateSuffix⟩) e4 (x, err) ∧
              evs = e1 ++ (.tempDir tmp) :: (.openDir tmp true) :: (e3 ++ e4) ∧
              ((err = none ∧ r = (x, none)) ∨
                (err ≠ none ∧ r = (⟨[], trieOfText idna n.includePrivateSuffix hard, n.includePrivateSuffix⟩, none)))) ∨
            (v' = true ∧ ¬ a' > pslMaxAge ∧ ∃ e4,
              evs = e1 ++ (.tempDir tmp) :: (.openDir tmp true) :: (e3 ++ e4) ∧
              Run (finishNew idna hard n ⟨tmp ++ defaultPSLFileName, .node false [], n.includePrivateSuffix⟩) e4 r))))) := by
  unfold new
  rw [run_bind_iff]
  constructor
  · rintro ⟨⟨v, a⟩, e1, e2, rfl, h1, h⟩
    refine ⟨e1, v, a, h1, ?_⟩
    cases v with
    | true => simp only [if_true] at h; exact .inl ⟨rfl, e2, rfl, h⟩
    | false =>
      simp only [Bool.false_eq_true, if_false, run_ask_bind_iff] at h
      obtain ⟨tmp, _, rfl, od, e3, rfl, h⟩ := h
      refine .inr ⟨rfl, tmp, ?_⟩
      cases od with
      | false =>
        simp only [Bool.not_false, if_true, run_newHardcodedPSL] at h
        exact .inl ⟨by simp [h.1], h.2⟩
      | true =>
        simp only [Bool.not_true, Bool.false_eq_true, if_false, run_bind_iff] at h
        obtain ⟨⟨v', a'⟩, e3, e4, rfl, h3, h4⟩ := h
        refine .inr ⟨e3, v', a', h3, ?_⟩
        by_cases hc : (!v' || decide (a' > pslMaxAge)) = true
        · simp only [hc, if_true, run_bind_iff] at h4
          obtain ⟨⟨x, err⟩, e5, e6, rfl, h5, h6⟩ := h4
          refine .inl ⟨by simpa using hc, ?_⟩
          cases err with
          | none =>
            simp only [run_pure_iff] at h6
            exact ⟨e5, x, none, h5, by simp [h6.1], .inl ⟨rfl, h6.2⟩⟩
          | some err =>
            simp only [run_newHardcodedPSL] at h6
            exact ⟨e5, x, some err, h5, by simp [h6.1], .inr ⟨by simp, h6.2⟩⟩
        · rw [if_neg hc] at h4
          refine .inr ⟨?_, ?_, e4, rfl, h4⟩
          · cases v' <;> simp_all
          · simp at hc; omega
  · rintro ⟨e1, v, a, h1, h⟩
    rcases h with ⟨rfl, e2, rfl, h⟩ | ⟨rfl, tmp, h⟩
    · exact ⟨(true, a), e1, e2, rfl, h1, by simpa using h⟩
    · rcases h with ⟨rfl, rfl⟩ | ⟨e3, v', a', h3, h⟩
      · refine ⟨(false, a), e1, _, rfl, h1, ?_⟩
        simp only [Bool.false_eq_true, if_false, run_ask_bind_iff]
        exact ⟨tmp, _, rfl, false, [], rfl, by simp [run_newHardcodedPSL]⟩
      · rcases h with ⟨hc, e4, x, err, h4, rfl, h⟩ | ⟨rfl, hc, e4, rfl, h⟩
        · refine ⟨(false, a), e1, _, rfl, h1, ?_⟩
          simp only [Bool.false_eq_true, if_false, run_ask_bind_iff]
          refine ⟨tmp, _, rfl, true, _, rfl, ?_⟩
          simp only [Bool.not_true, Bool.false_eq_true, if_false, run_bind_iff]
          refine ⟨(v', a'), e3, e4, rfl, h3, ?_⟩
          have : (!v' || decide (a' > pslMaxAge)) = true := by simpa using hc
          simp only [this, if_true, run_bind_iff]
          refine ⟨(x, err), e4, [], by simp, h4, ?_⟩
          rcases h with ⟨rfl, rfl⟩ | ⟨he, rfl⟩
          · simp
          · cases err with
            | none => exact absurd rfl he
            | some err => simp [run_newHardcodedPSL]
        · refine ⟨(false, a), e1, _, rfl, h1, ?_⟩
          simp only [Bool.false_eq_true, if_false, run_ask_bind_iff]
          refine ⟨tmp, _, rfl, true, _, rfl, ?_⟩
          simp only [Bool.not_true, Bool.false_eq_true, if_false, run_bind_iff]
          refine ⟨(true, a'), e3, e4, rfl, h3, ?_⟩
          have : (!true || decide (a' > pslMaxAge)) = false := by simpa using hc
          simp only [this, Bool.false_eq_true, if_false]
          exact h

end Fasttld
