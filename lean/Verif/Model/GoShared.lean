import Verif.Model.GoSys
import Verif.Model.Shared

/-!
# Several processes that run the text

As Model/Shared.lean, but each process runs the text of New (fasttld.go:403-434) or of Update (psl.go:192-213) by the rules of
Model/GoSys.lean, in a memory of its own.  They take turns, one access to memory, one call to the operating system or one effect
(a line in the log, a file closed) at a time.
-/

namespace Fasttld.GoLang
open Fasttld Shared

/-- What a process runs: New (fasttld.go:403), or Update (psl.go:192) of the structure at place `i` of those that it has. -/
inductive ProcText
  | new (n : SuffixListParams)
  | update (O : List Obj) (i : Nat)

/-- The text that it runs. -/
def ProcText.prog (round : Rat → Rat) (c : Ctx) (fuel : Nat) : ProcText → XProg (Comp (Val × Local))
  | .new n => callSys round c fuel .New [.listParams n] ⟨[], [], []⟩
  | .update O i => callSys round c fuel .Update [.obj i] ⟨[], O, []⟩

/-- A process: what it was started for, its text and the memory at the start, what is left of its program, its memory, and the
position in the file open for writing. -/
structure Proc where
  job : Shared.Job
  text : ProcText
  begin : Mem
  prog : XProg (Comp (Val × Local))
  mem : Mem
  offset : Nat

/-- One step.  `begins` says which text and memory a process may be started with for a job, `fits` restricts what is read, `other`
says what else may happen to the world. -/
inductive ProcStep (round : Rat → Rat) (c : Ctx) (fuel : Nat) (begins : Shared.Job → ProcText → Mem → Prop) (fits : Event → Prop)
    (other : World → World → Prop) : World × List Proc → World × List Proc → Prop
  | start {w ps} (job : Shared.Job) (text : ProcText) (m : Mem) (h : begins job text m) :
      ProcStep round c fuel begins fits other (w, ps) (w, ps ++ [⟨job, text, m, text.prog round c fuel, m, 0⟩])
  | call {w a b job text m₀ m off} {β : Type} {o : Op β} {k : β → Bytes → XProg (Comp (Val × Local))} {ans : β} {w' : World} (t : Bytes)
      (h : o.answer (seenBy w off) = (ans, w')) (hf : fits (o.event ans)) :
      ProcStep round c fuel begins fits other (w, a ++ ⟨job, text, m₀, .sys o k, m, off⟩ :: b)
        (w', a ++ ⟨job, text, m₀, k ans t, m, w'.offset⟩ :: b)
  | piece {w a b job text m₀ m off h body} {k : Bool → Bytes → XProg (Comp (Val × Local))} {w' : World} (n : Nat)
      (hw : (seenBy w off).put h (body.take n) = w') :
      ProcStep round c fuel begins fits other (w, a ++ ⟨job, text, m₀, .sys (.write h body) k, m, off⟩ :: b)
        (w', a ++ ⟨job, text, m₀, .sys (.write h (body.drop n)) k, m, w'.offset⟩ :: b)
  | mem {w a b job text m₀ m off} {β : Type} {o : MOp β} {k : β → XProg (Comp (Val × Local))} {ans : β} {m' : Mem}
      (h : o.Does m ans m') :
      ProcStep round c fuel begins fits other (w, a ++ ⟨job, text, m₀, .mem o k, m, off⟩ :: b)
        (w, a ++ ⟨job, text, m₀, k ans, m', off⟩ :: b)
  | effect {w a b job text m₀ m off} {e : Effect} {k : XProg (Comp (Val × Local))} :
      ProcStep round c fuel begins fits other (w, a ++ ⟨job, text, m₀, .effect e k, m, off⟩ :: b)
        (w, a ++ ⟨job, text, m₀, k, m, off⟩ :: b)
  | die {w a p b} : ProcStep round c fuel begins fits other (w, a ++ p :: b) (w, a ++ b)
  | other {w w' ps} (h : other w w') : ProcStep round c fuel begins fits other (w, ps) (w', ps)

/-- Any number of steps. -/
inductive ProcSteps (round : Rat → Rat) (c : Ctx) (fuel : Nat) (begins : Shared.Job → ProcText → Mem → Prop) (fits : Event → Prop)
    (other : World → World → Prop) : World × List Proc → World × List Proc → Prop
  | refl (s) : ProcSteps round c fuel begins fits other s s
  | step {s t u} (h : ProcSteps round c fuel begins fits other s t) (h' : ProcStep round c fuel begins fits other t u) :
      ProcSteps round c fuel begins fits other s u

/-- The worlds in which a process that runs the program alone may die: at any time, or in the middle of a write. -/
inductive ProcCrash {α : Type} (fits : Event → Prop) : XProg α → Mem → World → World → Prop
  | here (p : XProg α) (m : Mem) (w : World) : ProcCrash fits p m w w
  | sys {β : Type} {o : Op β} {k : β → Bytes → XProg α} {m : Mem} {w w' : World} (t : Bytes) (hf : fits (o.event (o.answer w).1))
      (h : ProcCrash fits (k (o.answer w).1 t) m (o.answer w).2 w') : ProcCrash fits (.sys o k) m w w'
  | torn {β : Type} {o : Op β} {k : β → Bytes → XProg α} {m : Mem} {w w' : World} (h : o.interrupted w w') :
      ProcCrash fits (.sys o k) m w w'
  | mem {β : Type} {o : MOp β} {k : β → XProg α} {b : β} {m m' : Mem} {w w' : World} (hd : o.Does m b m')
      (h : ProcCrash fits (k b) m' w w') : ProcCrash fits (.mem o k) m w w'
  | effect {e : Effect} {k : XProg α} {m : Mem} {w w' : World} (h : ProcCrash fits k m w w') : ProcCrash fits (.effect e k) m w w'

/-- A process that runs the program alone and is not interrupted: what it returns, its memory and the world afterwards. -/
inductive ProcExec {α : Type} (fits : Event → Prop) : XProg α → Mem → World → α → Mem → World → Prop
  | ret (a : α) (m : Mem) (w : World) : ProcExec fits (.ret a) m w a m w
  | sys {β : Type} {o : Op β} {k : β → Bytes → XProg α} {m m' : Mem} {w w' : World} {a : α} (t : Bytes) (hf : fits (o.event (o.answer w).1))
      (h : ProcExec fits (k (o.answer w).1 t) m (o.answer w).2 a m' w') : ProcExec fits (.sys o k) m w a m' w'
  | mem {β : Type} {o : MOp β} {k : β → XProg α} {b : β} {m m' m'' : Mem} {w w' : World} {a : α} (hd : o.Does m b m')
      (h : ProcExec fits (k b) m' w a m'' w') : ProcExec fits (.mem o k) m w a m'' w'
  | effect {e : Effect} {k : XProg α} {m m' : Mem} {w w' : World} {a : α} (h : ProcExec fits k m w a m' w') :
      ProcExec fits (.effect e k) m w a m' w'

end Fasttld.GoLang
