/-!
# Go values and run-time faults

Go strings are byte sequences: `Bytes := List UInt8`.  Go `int` indices are `Int`.
A slice expression `s[lo:hi]` or an index expression `s[i]` whose bounds are not implied by the
enclosing loop header is modelled by `slice` / `index`, which *fault* exactly when the Go run time
would panic.  Loops whose number of iterations depends on data are given fuel; running out of fuel
is the fault `outOfFuel`, so "terminates" is a statement about the model and not an assumption.
-/

namespace Fasttld

/-- A Go `string` / `[]byte`. -/
abbrev Bytes := List UInt8

/-- What can go wrong at run time: a slice or index out of range, or a loop that never ends. -/
inductive Fault
  | sliceBounds
  | indexRange
  | outOfFuel
  deriving DecidableEq, Repr

/-- A computation that may fault. -/
abbrev Go := Except Fault

/-- Outcomes can be compared (used by the concrete examples only). -/
instance {ε α : Type} [DecidableEq ε] [DecidableEq α] : DecidableEq (Except ε α)
  | .ok a, .ok b => if h : a = b then isTrue (by rw [h]) else isFalse (fun h' => h (by injection h'))
  | .error a, .error b => if h : a = b then isTrue (by rw [h]) else isFalse (fun h' => h (by injection h'))
  | .ok _, .error _ => isFalse (fun h => by cases h)
  | .error _, .ok _ => isFalse (fun h => by cases h)

/-- `s[lo:hi]` (language semantics, used e.g. at fasttld.go:148, 209, 293, 357). -/
def slice (s : Bytes) (lo hi : Int) : Go Bytes :=
  if 0 ≤ lo ∧ lo ≤ hi ∧ hi ≤ s.length then .ok ((s.take hi.toNat).drop lo.toNat)
  else .error .sliceBounds

/-- `s[i]` (language semantics, used e.g. at fasttld.go:236, 293, 343). -/
def index (s : Bytes) (i : Int) : Go UInt8 :=
  if 0 ≤ i then
    match s[i.toNat]? with
    | some b => .ok b
    | none => .error .indexRange
  else .error .indexRange

/-- `b! "text"` is the list of UTF-8 bytes of a string literal, expanded at elaboration time into an
explicit list, so that the kernel can compute with it. -/
macro "b!" s:str : term => do
  let elems := s.getString.toUTF8.toList.map fun b => Lean.Syntax.mkNumLit (toString b.toNat)
  let arr : Lean.TSyntaxArray `term := (elems.map fun e => (⟨e.raw⟩ : Lean.TSyntax `term)).toArray
  `(([$arr,*] : Bytes))

end Fasttld
