import Verif.Spec.Print
import Verif.Props.System

/-!
# C46, C49, C50: output, command line, generated list
-/

set_option linter.unusedSimpArgs false

namespace Fasttld.Props
open Fasttld Fasttld.Spec

/-- C46: for every component its name, bright if there is a value and grey if not, and its value; then the host type;
then an empty line. -/
theorem C46_chunks (url : Bytes) (r : ExtractResult) :
    printRes url r =
      (components url r).flatMap (fun c =>
        [⟨if c.2 = [] then [.fgHiBlack] else [.fgHiYellow, .bold], column c.1⟩, ⟨[.fgHiWhite], c.2 ++ [10]⟩]) ++
      [⟨if r.hostType = .none then [.fgHiBlack] else [.fgHiBlue, .bold], column (b! "host type")⟩,
       ⟨[.fgHiWhite], hostTypeName r.hostType ++ [10]⟩, ⟨[], [10]⟩] := by
  have hc : ∀ (label name value : Bytes), label = column name → printComponent label value =
      [⟨if value = [] then [.fgHiBlack] else [.fgHiYellow, .bold], column name⟩, ⟨[.fgHiWhite], value ++ [10]⟩] := by
    rintro _ name value rfl
    unfold printComponent leftAttrsFilled leftAttrsBlank rightAttrs
    by_cases h : value = [] <;> simp [h]
  unfold printRes components
  rw [hc _ (b! "url") _ (by decide +kernel), hc _ (b! "scheme") _ (by decide +kernel), hc _ (b! "userinfo") _ (by decide +kernel),
    hc _ (b! "subdomain") _ (by decide +kernel), hc _ (b! "domain") _ (by decide +kernel), hc _ (b! "suffix") _ (by decide +kernel),
    hc _ (b! "registered domain") _ (by decide +kernel), hc _ (b! "port") _ (by decide +kernel), hc _ (b! "path") _ (by decide +kernel)]
  have hl : b! "        host type: " = column (b! "host type") := by decide +kernel
  rw [hl]
  cases r.hostType <;> simp [List.flatMap, leftAttrsBlank, rightAttrs, hostTypeName]

/-- C46: the text, line by line. -/
theorem C46_text (url : Bytes) (r : ExtractResult) : textOf (printRes url r) = (resultLines url r).flatMap (· ++ [10]) := by
  rw [C46_chunks]
  simp [textOf, resultLines, components, List.flatMap]

/-- C46 for values without line breaks: the output has exactly the eleven lines, and determines every value.
Missing from the full statement: values with line breaks, see `C46_counterexample`. -/
theorem C46_lines_partial (url : Bytes) (r : ExtractResult) (h : OneLiners url r) :
    splitByte 10 (textOf (printRes url r)) = resultLines url r ++ [[]] := by
  have hfree : ∀ l ∈ resultLines url r, (10 : UInt8) ∉ l := by
    intro l hl
    unfold resultLines at hl
    simp only [List.mem_append, List.mem_map, List.mem_cons, List.not_mem_nil, or_false] at hl
    rcases hl with ⟨c, hc | rfl, rfl⟩ | rfl
    · have h1 : (10 : UInt8) ∉ column c.1 := by
        unfold components at hc
        simp only [List.mem_cons, List.not_mem_nil, or_false] at hc
        rcases hc with rfl | rfl | rfl | rfl | rfl | rfl | rfl | rfl | rfl <;> (simp only []; decide +kernel)
      simp [h1, h c hc]
    · cases r.hostType <;> decide +kernel
    · simp
  rw [C46_text]
  have key : ∀ ls : List Bytes, ls.flatMap (· ++ [10]) = List.intercalate [10] (ls ++ [[]]) := by
    intro ls
    induction ls with
    | nil => rfl
    | cons x ls ih =>
      rw [List.flatMap_cons, ih]
      cases ls with
      | nil => simp [List.intercalate, List.intersperse]
      | cons y ls => simp only [List.cons_append]; rw [intercalate_cons_cons]
  rw [key]
  refine splitByte_unique 10 (by simp) ?_
  intro l hl
  simp only [List.mem_append, List.mem_cons, List.not_mem_nil, or_false] at hl
  rcases hl with h | rfl
  · exact hfree l h
  · simp

/-- C46: two results that are shown the same are the same. -/
theorem C46_injective (url url' : Bytes) (r r' : ExtractResult) (h : OneLiners url r) (h' : OneLiners url' r')
    (he : textOf (printRes url r) = textOf (printRes url' r')) : url = url' ∧ r = r' := by
  have h1 := C46_lines_partial url r h
  rw [he, C46_lines_partial url' r' h'] at h1
  simp only [resultLines, components, List.map_cons, List.cons_append, List.map_nil, List.nil_append, List.append_cancel_left_eq,
    List.cons.injEq, and_true] at h1
  obtain ⟨e1, e2, e3, e4, e5, e6, e7, e8, e9, e10⟩ := h1
  obtain ⟨a1, a2, a3, a4, a5, a6, a7, a8, a9⟩ := r
  obtain ⟨b1, b2, b3, b4, b5, b6, b7, b8, b9⟩ := r'
  simp only at e1 e2 e3 e4 e5 e6 e7 e8 e9 e10
  subst e1 e2 e3 e4 e5 e6 e7 e8 e9
  refine ⟨rfl, ?_⟩
  congr 1
  revert e10
  cases a9 <;> cases b9 <;> decide

example : (splitByte 10 (textOf (printRes (b! "a.com") { domain := b! "a", suffix := b! "com", registeredDomain := b! "a.com", hostType := .hostName }))).take 6
    = [b! "              url: a.com", b! "           scheme: ", b! "         userinfo: ", b! "        subdomain: ",
       b! "           domain: a", b! "           suffix: com"] := by decide +kernel

/-- C46 is false for values with line breaks: two different results are shown the same. -/
theorem C46_counterexample :
    textOf (printRes (b! "x\n           scheme: y") { scheme := b! "z" }) =
      textOf (printRes (b! "x") { scheme := b! "y\n           scheme: z" }) := by
  decide +kernel

/-- Extract does return values with line breaks. -/
example : (extract idId exTrie ⟨b! "a.com/x\ny", false, false⟩).toOption.map (·.1.path) = some (b! "/x\ny") := by
  decide +kernel

/-! ## C49: the command line -/

/-- C49: whatever the operating system answers, `fasttld extract` shows the result of Extract for its argument under the
argument itself, after an error message iff Extract returned an error; it does not exit early and does not panic. -/
theorem C49_cli (idna : Idna) (hard : Bytes) (errText : Err → Bytes) (p i t : Bool) (arg : Bytes) {evs out}
    (h : Run (cliExtract idna hard errText p i t arg) evs out) :
    ∃ f res err, Run (new idna hard ⟨[], p⟩) evs (f, none) ∧ extract idna f.tldTrie ⟨arg, i, t⟩ = .ok (res, err) ∧
      ((err = none ∧ out = .printed (printRes arg res)) ∨
       (∃ e, err = some e ∧ out = .printed
         (⟨[.fgHiRed, .bold], b! "Error: "⟩ :: ⟨[.fgHiWhite], errText e ++ [10]⟩ :: printRes arg res))) := by
  unfold cliExtract at h
  rw [run_bind_iff] at h
  obtain ⟨⟨f, err⟩, e1, e2, rfl, h1, h2⟩ := h
  obtain rfl := (C36_new idna hard _ h1).1
  obtain ⟨res, er, hx⟩ := C01_extract_returns idna f.tldTrie ⟨arg, i, t⟩
  simp only [hx, run_pure_iff] at h2
  obtain ⟨rfl, rfl⟩ := h2
  refine ⟨f, res, er, by simpa using h1, hx, ?_⟩
  cases er with
  | none => exact .inl ⟨rfl, rfl⟩
  | some e => exact .inr ⟨e, rfl, rfl⟩

/-- C49: and it ends, in every environment. -/
theorem C49_cli_ends (idna : Idna) (hard : Bytes) (errText : Err → Bytes) (p i t : Bool) (arg : Bytes) (env : Environment) :
    ∃ evs out, Run (cliExtract idna hard errText p i t arg) evs (.printed out) ∧ Answers env [] evs := by
  obtain ⟨evs, out, h1, h2⟩ := run_exists (cliExtract idna hard errText p i t arg) env []
  obtain ⟨f, res, err, -, -, ⟨-, rfl⟩ | ⟨e, -, rfl⟩⟩ := C49_cli idna hard errText p i t arg h1
  · exact ⟨evs, _, h1, h2⟩
  · exact ⟨evs, _, h1, h2⟩

/-- The output, if the program gets that far. -/
def outOf : CliOutcome → Bytes
  | .printed out => textOf out
  | _ => []

example :
    outOf ((cliExtract idId builtin (fun _ => b! "bad") true false false (b! "a.b.org/x")).exec (exWorld none)).1 =
      b! "              url: a.b.org/x\n           scheme: \n         userinfo: \n        subdomain: \n           domain: a\n           suffix: b.org\nregistered domain: a.b.org\n             port: \n             path: /x\n        host type: hostname\n\n" ∧
    (outOf ((cliExtract idId builtin (fun _ => b! "bad") true false false (b! "a:x")).exec (exWorld none)).1).take 11 =
      b! "Error: bad\n" := by decide +kernel

/-! ## C50: the generated list -/

/-- What a raw string literal stands for is unique. -/
theorem rawString_unique {src v v' rest rest' : Bytes} (h : RawString src v rest) (h' : RawString src v' rest') :
    v = v' ∧ rest = rest' := by
  obtain ⟨a, rfl, hq, rfl⟩ := h
  obtain ⟨b, he, hq', rfl⟩ := h'
  have key : ∀ (a b rest rest' : Bytes), (96 : UInt8) ∉ a → (96 : UInt8) ∉ b → a ++ 96 :: rest = b ++ 96 :: rest' → a = b ∧ rest = rest' := by
    intro a
    induction a with
    | nil =>
      intro b rest rest' _ hb he
      cases b with
      | nil => simpa using he
      | cons c b => simp at he hb; exact absurd he.1 hb.1
    | cons c a ih =>
      intro b rest rest' ha hb he
      cases b with
      | nil => simp at he ha; exact absurd he.1.symm ha.1
      | cons d b =>
        simp only [List.cons_append, List.cons.injEq, List.mem_cons, not_or] at he ha hb
        obtain ⟨h1, h2⟩ := ih b rest rest' ha.2 hb.2 he.2
        exact ⟨by rw [he.1, h1], h2⟩
  obtain ⟨rfl, rfl⟩ := key a b rest rest' hq hq' (by simpa using he)
  exact ⟨rfl, rfl⟩

/-- C50: the generated file declares a constant that is exactly the downloaded text iff the text has no back quote and no
carriage return; what precedes the constant does not depend on the text. -/
theorem C50_generated (timestamp url content : Bytes) :
    ∃ header src, fallbackFile timestamp url content = header ++ src ∧
      header = fallbackHeader timestamp url ∧
      (RawString src content [10] ↔ (96 : UInt8) ∉ content ∧ (13 : UInt8) ∉ content) := by
  refine ⟨fallbackHeader timestamp url, [96] ++ content ++ [96] ++ [10], ?_, rfl, ?_⟩
  · unfold fallbackFile fallbackHeader
    simp only [List.append_assoc]
  constructor
  · rintro ⟨inner, he, hq, hv⟩
    have hl : inner = content := by
      simp only [List.append_assoc, List.cons_append, List.nil_append, List.cons.injEq, true_and] at he
      exact (List.append_cancel_right he).symm
    subst hl
    refine ⟨hq, fun h13 => ?_⟩
    rw [hv] at h13
    simp at h13
  · rintro ⟨hq, h13⟩
    refine ⟨content, rfl, hq, ?_⟩
    rw [List.filter_eq_self.2]
    intro c hc
    simp only [ne_eq, decide_not, Bool.not_eq_eq_eq_not, Bool.not_true, decide_eq_false_iff_not]
    rintro rfl
    exact h13 hc

/-- C50: a list with Windows line ends is not kept exactly, but its rules are. -/
theorem C50_generated_crlf (idna : Idna) {ls : List Bytes} (hne : ls ≠ [])
    (h : ∀ l ∈ ls, (10 : UInt8) ∉ l ∧ (13 : UInt8) ∉ l ∧ (96 : UInt8) ∉ l) :
    ∃ v, RawString ([96] ++ List.intercalate [13, 10] ls ++ [96] ++ [10]) v [10] ∧
      parsePSL idna v = parsePSL idna (List.intercalate [13, 10] ls) := by
  have key : ∀ ls : List Bytes, (∀ l ∈ ls, (10 : UInt8) ∉ l ∧ (13 : UInt8) ∉ l ∧ (96 : UInt8) ∉ l) →
      (96 : UInt8) ∉ List.intercalate [13, 10] ls ∧
      (List.intercalate [13, 10] ls).filter (· ≠ 13) = List.intercalate [10] ls := by
    intro ls
    induction ls with
    | nil => intro _; decide
    | cons l ls ih =>
      intro h
      have hf : l.filter (· ≠ 13) = l := List.filter_eq_self.2 (by
        intro c hc
        simp only [ne_eq, decide_not, Bool.not_eq_eq_eq_not, Bool.not_true, decide_eq_false_iff_not]
        rintro rfl
        exact (h l (by simp)).2.1 hc)
      cases ls with
      | nil => rw [intercalate_singleton, intercalate_singleton]; exact ⟨(h l (by simp)).2.2, hf⟩
      | cons m ls =>
        obtain ⟨i1, i2⟩ := ih (fun x hx => h x (by simp at hx; simp [hx]))
        rw [intercalate_cons_cons, intercalate_cons_cons]
        refine ⟨by simp [i1, (h l (by simp)).2.2], ?_⟩
        rw [List.filter_append, List.filter_append, i2, hf]
        rfl
  refine ⟨_, ⟨_, rfl, (key ls h).1, rfl⟩, ?_⟩
  rw [(key ls h).2]
  exact (C30_crlf idna hne (fun x hx => (h x hx).1)).symm

/-- A back quote ends the constant early. -/
example : RawString (b! "`com\n// a` b\nnet\n`\n") (b! "com\n// a") (b! " b\nnet\n`\n") :=
  ⟨b! "com\n// a", by decide, by decide, by decide⟩

end Fasttld.Props
