import Verif.Spec.Names
import Verif.Props.Files
import Verif.Props.SourceCli

/-!
# C89: names mean what the rules take them for
-/

set_option linter.unusedSimpArgs false
-- one after the other, for memory
set_option Elab.async false

namespace Fasttld.Props
open Fasttld Fasttld.GoLang Fasttld.Spec

/-! ## Checks -/

/-- Every name in a text passes a check with the tokens before and after it. -/
def nameCheck (ok : Option Tok → String → Option Tok → Bool) : Option Tok → List Tok → Bool
  | _, [] => true
  | p, .id x :: ts => ok p x ts.head? && nameCheck ok (some (.id x)) ts
  | _, t :: ts => nameCheck ok (some t) ts

theorem nameCheck_sound {ok : Option Tok → String → Option Tok → Bool} : ∀ {ts : List Tok} {p : Option Tok}, nameCheck ok p ts = true →
    ∀ a x b, ts = a ++ .id x :: b → ok (a.getLast?.or p) x b.head? = true := by
  intro ts
  induction ts with
  | nil => intro p _ a x b h; simp at h
  | cons t ts ih =>
    intro p h a x b e
    cases a with
    | nil =>
      obtain ⟨rfl, rfl⟩ : t = .id x ∧ ts = b := by simpa using e
      rw [nameCheck, Bool.and_eq_true] at h
      simpa using h.1
    | cons t' a =>
      obtain ⟨rfl, rfl⟩ : t = t' ∧ ts = a ++ .id x :: b := by simpa using e
      have hn : nameCheck ok (some t) (a ++ .id x :: b) = true := by
        cases t <;> simp only [nameCheck, Bool.and_eq_true] at h <;> first | exact h | exact h.2
      have := ih hn a x b rfl
      cases a with
      | nil => simpa using this
      | cons u a =>
        rw [List.getLast?_cons_cons]
        rw [List.getLast?_eq_some_getLast (by simp)] at this ⊢
        simpa using this

def qualOk (ns : List String) (p : Option Tok) (x : String) (n : Option Tok) : Bool :=
  !ns.contains x || p == some (.op ".") || n == some (.op ".")

theorem qualCheck_sound {ns : List String} {ts : List Tok} (h : nameCheck (qualOk ns) none ts = true) : Qualifies ns ts := by
  intro a x b e hx
  have := nameCheck_sound h a x b e
  simp only [qualOk, Option.or_none, Bool.or_eq_true, beq_iff_eq, Bool.not_eq_true', List.contains_eq_mem, decide_eq_false_iff_not] at this
  rcases this with (h | h) | h
  · exact absurd hx h
  · exact .inl h
  · exact .inr h

def callOk (ns : List String) (p : Option Tok) (x : String) (n : Option Tok) : Bool :=
  !ns.contains x || p == some (.op ".") || p == some (.id "func") || n == some (.op "(")

theorem callCheck_sound {ns : List String} {ts : List Tok} (h : nameCheck (callOk ns) none ts = true) : Called ns ts := by
  intro a x b e hx
  have := nameCheck_sound h a x b e
  simp only [callOk, Option.or_none, Bool.or_eq_true, beq_iff_eq, Bool.not_eq_true', List.contains_eq_mem, decide_eq_false_iff_not] at this
  rcases this with ((h | h) | h) | h
  · exact absurd hx h
  · exact .inl h
  · exact .inr (.inl h)
  · exact .inr (.inr h)

/-! ## The files -/

/-- The names that the five files declare, by keyword; of a group in parentheses the first. -/
def declared (keyword : String) : List String := (stringsNames ++ netNames ++ fasttldNames ++ pslNames ++ printNames).filterMap fun
  | [k, n] => if k = keyword then some n else none
  | _ => none

/-- The files of the package with their functions and the names of the packages they import. -/
def filesNames : List (List Nat × List Func × List String) :=
  [(Files.stringsGo, stringsFns.filterMap Source.program, ["log", "strings", "utf8", "intset", "idna"]),
    (Files.netGo, netFns.filterMap Source.program, ["utf8"]),
    (Files.fasttldGo, fasttldFns.filterMap Source.program, ["errors", "log", "url", "strconv", "strings", "afero", "hashmap", "idna"]),
    (Files.pslGo, pslFns.filterMap Source.program,
      ["bytes", "errors", "fmt", "log", "http", "os", "filepath", "runtime", "strings", "time", "afero", "idna"]),
    (Files.printGo, printFns.filterMap Source.program, ["color"])]

/-- The names of the packages that cmd/fasttld/extract.go imports. -/
def extractImports : List String := ["log", "fasttld", "color", "cobra"]

instance (ds : List (List Tok)) (names : List String) : Decidable (ImportsNames ds names) :=
  decidable_of_iff (((imports ds).map fun ps => ps.map (packagesByPath.lookup ·)) = some (names.map some)) (by
    unfold ImportsNames
    cases imports ds with
    | none => simp
    | some ps => simp)

def fileNamesCheck (file : List Nat) (names : List String) : Bool :=
  match lexLines file with
  | none => false
  | some ts => decide (ImportsNames (topLevel ts.length ts) names) && nameCheck (qualOk names) none ts &&
      nameCheck (callOk (declared "func")) none ts

theorem fileNames_sound {file : List Nat} {names : List String} (h : fileNamesCheck file names = true) :
    ∃ ts, lexLines file = some ts ∧ ImportsNames (topLevel ts.length ts) names ∧ Qualifies names ts ∧ Called (declared "func") ts := by
  unfold fileNamesCheck at h
  split at h
  · simp at h
  · rename_i ts hts
    simp only [Bool.and_eq_true, decide_eq_true_eq] at h
    exact ⟨ts, hts, h.1.1, qualCheck_sound h.1.2, callCheck_sound h.2⟩

theorem stringsGo_names : fileNamesCheck Files.stringsGo ["log", "strings", "utf8", "intset", "idna"] = true := by decide +kernel

theorem netGo_names : fileNamesCheck Files.netGo ["utf8"] = true := by decide +kernel

theorem fasttldGo_names : fileNamesCheck Files.fasttldGo
    ["errors", "log", "url", "strconv", "strings", "afero", "hashmap", "idna"] = true := by decide +kernel

theorem pslGo_names : fileNamesCheck Files.pslGo
    ["bytes", "errors", "fmt", "log", "http", "os", "filepath", "runtime", "strings", "time", "afero", "idna"] = true := by decide +kernel

theorem printGo_names : fileNamesCheck Files.printGo ["color"] = true := by decide +kernel

/-- C89: each file imports these packages, under their own names.  Everywhere in it their names stand before a dot, and the
names of functions of the package are called. -/
theorem C89_imports : ∀ x ∈ filesNames, ∃ ts, lexLines x.1 = some ts ∧ ImportsNames (topLevel ts.length ts) x.2.2 ∧
    Qualifies x.2.2 ts ∧ Called (declared "func") ts := by
  intro x hx
  apply fileNames_sound
  simp only [filesNames, List.mem_cons, List.not_mem_nil, or_false] at hx
  rcases hx with rfl | rfl | rfl | rfl | rfl
  · exact stringsGo_names
  · exact netGo_names
  · exact fasttldGo_names
  · exact pslGo_names
  · exact printGo_names

/-- C89: the same for the function of cmd/fasttld/extract.go (lines 25 to 36; its imports are in lines 3 to 9). -/
theorem C89_command : (∃ ts, lexLines ((Files.extractGo.drop 2).take 7) = some ts ∧ ImportsNames (topLevel ts.length ts) extractImports) ∧
    ∃ ts, lexLines ((Files.extractGo.drop 24).take 12) = some ts ∧ Qualifies extractImports ts := by
  have h : ((lexLines ((Files.extractGo.drop 2).take 7)).any fun ts => decide (ImportsNames (topLevel ts.length ts) extractImports)) = true ∧
      ((lexLines ((Files.extractGo.drop 24).take 12)).any fun ts => nameCheck (qualOk extractImports) none ts) = true := by decide +kernel
  obtain ⟨h1, h2⟩ := h
  rw [Option.any_eq_true] at h1 h2
  obtain ⟨ts, e1, h1⟩ := h1
  obtain ⟨us, e2, h2⟩ := h2
  exact ⟨⟨ts, e1, of_decide_eq_true h1⟩, us, e2, qualCheck_sound h2⟩

/-- C89: no function declares a name that is predeclared, or that of a package which its file imports, or of a function or a
type of the package. -/
theorem C89_locals : (∀ x ∈ filesNames, ∀ f ∈ x.2.1, ∀ n ∈ localNames f,
      n ∉ predeclared ∧ n ∉ x.2.2 ∧ n ∉ declared "func" ∧ n ∉ declared "type") ∧
    ∀ n ∈ localNames Source.Run_func, n ∉ predeclared ∧ n ∉ extractImports := by decide +kernel

/-- C89: the functions that are run are those of the files and the one of the command. -/
theorem C89_all : ∀ fn f, Source.program fn = some f → ∃ x ∈ filesNames, f ∈ x.2.1 := by
  intro fn f h
  have hm := C79_all.1 fn f h
  simp only [List.mem_append] at hm
  unfold filesNames
  rcases hm with (((hm | hm) | hm) | hm) | hm
  · exact ⟨_, List.mem_cons_self .., List.mem_filterMap.2 ⟨fn, hm, h⟩⟩
  · exact ⟨_, .tail _ (List.mem_cons_self ..), List.mem_filterMap.2 ⟨fn, hm, h⟩⟩
  · exact ⟨_, .tail _ (.tail _ (List.mem_cons_self ..)), List.mem_filterMap.2 ⟨fn, hm, h⟩⟩
  · exact ⟨_, .tail _ (.tail _ (.tail _ (List.mem_cons_self ..))), List.mem_filterMap.2 ⟨fn, hm, h⟩⟩
  · exact ⟨_, .tail _ (.tail _ (.tail _ (.tail _ (List.mem_cons_self ..)))), List.mem_filterMap.2 ⟨fn, hm, h⟩⟩

/-- C89: nothing at package level has a predeclared name, or that of a package that some file imports, and no name is declared
twice. -/
theorem C89_package :
    (declared "func" ++ declared "type" ++ declared "const" ++ declared "var").Nodup ∧
    ∀ n ∈ declared "func" ++ declared "type" ++ declared "const" ++ declared "var",
      n ∉ predeclared ∧ ∀ x ∈ filesNames, n ∉ x.2.2 := by decide +kernel

/-! ## Concrete cases -/

-- a variable that hides a package or a function is noticed
example : (lexLines (lines! "func f() {\n\turl := g()\n\turl.QueryUnescape(s)\n}\n")).map (nameCheck (qualOk ["url"]) none) = some false ∧
    (lexLines (lines! "func f(sepSize int) {\n\tx = sepSize\n}\n")).map (nameCheck (callOk ["sepSize"]) none) = some false ∧
    (lexLines (lines! "func f() {\n\ta.url = sepSize(url.X)\n}\n")).map (nameCheck (qualOk ["url"]) none) = some true := by decide +kernel
-- and what is checked is there: names, calls and packages
example : "hostEndIdx" ∈ localNames Source.Extract_func ∧ "sepSize" ∈ declared "func" ∧ "trie" ∈ declared "type" ∧
    (localNames Source.Extract_func).length = 39 ∧ (declared "func").length = 29 := by decide +kernel
-- the parameter of `update` has the name of a variable of the package; the variable is not read in it (`scoped`)
example : "publicSuffixListSources" ∈ localNames Source.update_func ∧ "publicSuffixListSources" ∈ declared "var" := by decide +kernel
-- other names before the paths, or a dot, are not accepted
example : ((lexLines (lines! "import (\n\tu \"net/url\"\n)\n")).map fun ts => imports (topLevel ts.length ts)) = some none ∧
    ((lexLines (lines! "import (\n\t. \"net/url\"\n)\n")).map fun ts => imports (topLevel ts.length ts)) = some none ∧
    ((lexLines (lines! "import (\n\t\"net/url\"\n)\n")).map fun ts => imports (topLevel ts.length ts)) = some (some [b! "net/url"]) := by
  decide +kernel

end Fasttld.Props
