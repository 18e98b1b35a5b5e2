import Verif.Model.World

/-!
# Several processes with one cache file

Each of them runs New (fasttld.go:403-434) or Update (psl.go:192-213).  They take turns, call by call; a write
(psl.go:158) may be done in pieces, with calls of other processes between them.  Any process may die at any time.  Each
has its own position in the file that it writes.
-/

namespace Fasttld.Shared
open Fasttld

/-- What a process was started for. -/
inductive Job
  | new (n : SuffixListParams)
  | update (f : FastTLD)

/-- The program of a process. -/
def Job.prog (idna : Idna) (hardcodedPSL : Bytes) : Job → Prog (FastTLD × Option SysErr)
  | .new n => Fasttld.new idna hardcodedPSL n
  | .update f => f.update idna hardcodedPSL

/-- A process: its job, what is left of its program, and the position in the file open for writing. -/
structure Process where
  job : Job
  prog : Prog (FastTLD × Option SysErr)
  offset : Nat

/-- The world as a process sees it. -/
def seenBy (w : World) (offset : Nat) : World := { w with offset := offset }

/-- One step of the processes.  `other` says what else may happen to the world. -/
inductive Step (idna : Idna) (hardcodedPSL : Bytes) (other : World → World → Prop) :
    World × List Process → World × List Process → Prop
  | start {w ps} (job : Job) : Step idna hardcodedPSL other (w, ps) (w, ps ++ [⟨job, job.prog idna hardcodedPSL, 0⟩])
  | call {w a b job off} {β : Type} {o : Op β} {k : β → Prog (FastTLD × Option SysErr)} {ans : β} {w' : World}
      (h : o.answer (seenBy w off) = (ans, w')) :
      Step idna hardcodedPSL other (w, a ++ ⟨job, .call o k, off⟩ :: b) (w', a ++ ⟨job, k ans, w'.offset⟩ :: b)
  | piece {w a b job off h body} {k : Bool → Prog (FastTLD × Option SysErr)} {w' : World} (n : Nat)
      (hw : (seenBy w off).put h (body.take n) = w') :
      Step idna hardcodedPSL other (w, a ++ ⟨job, .call (.write h body) k, off⟩ :: b)
        (w', a ++ ⟨job, .call (.write h (body.drop n)) k, w'.offset⟩ :: b)
  | die {w a p b} : Step idna hardcodedPSL other (w, a ++ p :: b) (w, a ++ b)
  | other {w w' ps} (h : other w w') : Step idna hardcodedPSL other (w, ps) (w', ps)

/-- Any number of steps. -/
inductive Steps (idna : Idna) (hardcodedPSL : Bytes) (other : World → World → Prop) :
    World × List Process → World × List Process → Prop
  | refl (s) : Steps idna hardcodedPSL other s s
  | step {s t u} (h : Steps idna hardcodedPSL other s t) (h' : Step idna hardcodedPSL other t u) :
      Steps idna hardcodedPSL other s u

end Fasttld.Shared
