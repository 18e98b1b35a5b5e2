import Verif.Model.Files
import Verif.Model.GoLex
import Verif.Model.Source

/-!
# The tokens of the files, evaluated

Each statement is evaluated by the kernel.
-/

namespace Fasttld.GoLang
open Fasttld

/-- Whether these tokens end a list of arguments, so that what was before is not the left-hand side of an assignment. -/
def closes : Nat → List Tok → Bool
  | _, [] => false
  | d, .op "(" :: ts => closes (d + 1) ts
  | 0, .op ")" :: ts => ts.head? != some (.op "=")
  | d + 1, .op ")" :: ts => closes d ts
  | d, t :: ts => ![.op "=", .op ":=", .op ";", .op "{"].contains t && closes d ts

/-- What follows the use of a variable that does not change it: the end of an argument, or the call of a method that only
looks; or the variable is a parameter, before its type. -/
def onlyRead : List Tok → Bool
  | .op "," :: ts => closes 0 ts
  | .op ")" :: ts => ts.head? != some (.op "=")
  | .op "." :: .id m :: .op "(" :: _ => ["contains", "Exists"].contains m
  | .op "[" :: .op "]" :: _ => true
  | _ => false

/-- Whether every use of a variable with one of these names, outside of its own declaration, only reads it.  The first token is
the one before. -/
def readsOnly (names : List String) : Tok → List Tok → Bool
  | _, [] => true
  | prev, .id x :: ts =>
    (!names.contains x || prev = .op "." || prev = .id "range" || (if prev = .id "var" then true else prev ≠ .op "&" && onlyRead ts)) &&
      readsOnly names (.id x) ts
  | _, t :: ts => readsOnly names t ts

/-- The variables of the package: sets of characters, and the addresses of the list. -/
def setNames : List String :=
  ["labelSeparatorsRuneSet", "whitespaceRuneSet", "invalidHostNameCharsRuneSet", "numericSet", "alphaNumericSet",
   "endOfHostWithPortDelimitersSet", "endOfHostDelimitersSet", "invalidUserInfoCharsSet", "schemeFirstCharSet", "schemeRemainingCharSet",
   "slashes", "publicSuffixListSources"]

/-- What is checked of a file: that it contains these declarations, its declarations by name, that it only reads the
sets. -/
def fileCheck (file : List Nat) (has : List (List Tok)) (names : List (List String)) : Bool :=
  match lexLines file with
  | none => false
  | some ts =>
    let ds := topLevel ts.length ts
    has.all ds.contains && ds.map declName == names && readsOnly setNames (.op ";") ts

theorem oneDecl_append (d : Nat) (ts : List Tok) : (oneDecl d ts).1 ++ (oneDecl d ts).2 = ts := by
  induction ts generalizing d with
  | nil => rfl
  | cons t ts ih =>
    unfold oneDecl
    split
    · rfl
    · simp [ih]

theorem oneDecl_rest (d : Nat) (t : Tok) (ts : List Tok) : (oneDecl d (t :: ts)).2.length ≤ ts.length := by
  have h := congrArg List.length (oneDecl_append d (t :: ts))
  have : (oneDecl d (t :: ts)).1 ≠ [] := by unfold oneDecl; split <;> simp
  have := List.length_pos_iff.2 this
  simp at h
  omega

/-- The declarations are the whole file. -/
theorem topLevel_flatten (fuel : Nat) (ts : List Tok) (h : ts.length ≤ fuel) : (topLevel fuel ts).flatten = ts := by
  induction fuel generalizing ts with
  | zero => cases ts with
    | nil => rfl
    | cons t ts => simp at h
  | succ n ih =>
    cases ts with
    | nil => rfl
    | cons t ts =>
      unfold topLevel
      simp only [List.flatten_cons]
      rw [ih _ (by have := oneDecl_rest 0 t ts; simp at h; omega), oneDecl_append]

theorem fileCheck_sound {file has names} (h : fileCheck file has names = true) : ∃ ts ds, lexLines file = some ts ∧
    ds = topLevel ts.length ts ∧ ds.flatten = ts ∧ (∀ d ∈ has, d ∈ ds) ∧ ds.map declName = names ∧ readsOnly setNames (.op ";") ts = true := by
  unfold fileCheck at h
  split at h
  · exact absurd h (by simp)
  · next ts hts =>
    simp only [Bool.and_eq_true, List.all_eq_true, beq_iff_eq] at h
    exact ⟨ts, _, hts, rfl, topLevel_flatten _ _ (Nat.le_refl _), fun d hd => by simpa using h.1.1 d hd, h.1.2, h.2⟩

end Fasttld.GoLang
