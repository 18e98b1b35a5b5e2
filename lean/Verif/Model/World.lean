import Verif.Model.System

/-!
# A file system, a clock and a network

Answers to the calls of Model/System.lean when nobody else touches the file system, the clock stands still and the
network gives each address one answer for the duration of one call of New or Update.  Between two calls everything
may change.  (Theorems about `Run` assume nothing of the kind.)
-/

namespace Fasttld

/-- A regular file: contents, modification time in nanoseconds, and what this process may do with it. -/
structure WFile where
  content : Bytes
  modTime : Int
  readable : Bool
  writable : Bool
  deriving DecidableEq, Repr

/-- What a path can lead to. -/
inductive Node
  | dir (modTime : Int)
  | file (f : WFile)
  deriving DecidableEq, Repr

structure World where
  /-- the temporary folder, with a slash at the end -/
  tmp : Bytes
  /-- `filepath.Abs` -/
  absOf : Bytes → Option Bytes
  /-- the place in the file system a path leads to -/
  loc : Bytes → Nat
  nodes : Nat → Option Node
  /-- whether a file can be created at an empty place -/
  canCreate : Nat → Bool
  canOpenDir : Bytes → Bool
  clock : Int
  net : Bytes → Response
  seekWorks : Bool
  /-- `some k`: writing fails after `k` bytes (disk full, quota …) -/
  writeStops : Bytes → Option Nat
  /-- position in the file open for writing -/
  offset : Nat

/-- Contents after `data` is written at `off`: bytes before and after stay, a hole is filled with zeros (POSIX). -/
def writeAt (old : Bytes) (off : Nat) (data : Bytes) : Bytes :=
  old.take off ++ List.replicate (off - old.length) 0 ++ data ++ old.drop (off + data.length)

/-- The world after `data` went into the file at `h`. -/
def World.put (w : World) (h : Nat) (data : Bytes) : World :=
  match w.nodes h with
  | some (.file f) =>
    { w with
      nodes := fun i => if i = h then
          some (.file { f with content := writeAt f.content w.offset data,
                               modTime := if data = [] then f.modTime else w.clock })
        else w.nodes i
      offset := w.offset + data.length }
  | _ => w

/-- The world after going to the beginning of the file open for writing. -/
def World.rewind (w : World) : World := { w with offset := 0 }

/-- How many bytes of `body` get written. -/
def World.written (w : World) (body : Bytes) : Nat :=
  match w.writeStops body with
  | none => body.length
  | some k => min k body.length

/-- `os.OpenFile` with `O_CREATE|O_WRONLY`: no truncation. -/
def World.openForWriting (w : World) (p : Bytes) : Option Nat × World :=
  match w.nodes (w.loc p) with
  | none =>
    if w.canCreate (w.loc p) then
      (some (w.loc p), { w with
        nodes := fun i => if i = w.loc p then some (.file ⟨[], w.clock, true, true⟩) else w.nodes i
        offset := 0 })
    else (none, w)
  | some (.dir _) => (none, w)
  | some (.file f) => if f.writable then (some (w.loc p), w.rewind) else (none, w)

/-- The file at `p`, if there is one that can be read. -/
def World.read (w : World) (p : Bytes) : Option Bytes :=
  match w.nodes (w.loc p) with
  | some (.file f) => if f.readable then some f.content else none
  | _ => none

/-- What `os.Stat` reports. -/
def World.statOf (w : World) (p : Bytes) : Option FileInfo :=
  match w.nodes (w.loc p) with
  | none => none
  | some (.dir t) => some ⟨true, t⟩
  | some (.file f) => some ⟨false, f.modTime⟩

/-- The answer to a call and the world afterwards. -/
def Op.answer : {β : Type} → Op β → World → β × World
  | _, .tempDir, w => (w.tmp, w)
  | _, .abs p, w =>
    (match w.absOf p with
     | some q => (q, true)
     | none => ([], false), w)
  | _, .stat p, w => (w.statOf p, w)
  | _, .now, w => (w.clock, w)
  | _, .readFile p, w => (w.read p, w)
  | _, .openDir p, w => (w.canOpenDir p, w)
  | _, .openWrite p, w => w.openForWriting p
  | _, .httpGet u, w => (w.net u, w)
  | _, .seek _, w => if w.seekWorks then (true, w.rewind) else (false, w)
  | _, .write h body, w => ((w.writeStops body).isNone, w.put h (body.take (w.written body)))

/-- The result of a program, the world afterwards, and the calls made. -/
def Prog.exec {α : Type} : Prog α → World → α × World × List Event
  | .ret a, w => (a, w, [])
  | .call o k, w =>
    let r := o.answer w
    let s := (k r.1).exec r.2
    (s.1, s.2.1, o.event r.1 :: s.2.2)

/-- What an interrupted call may leave behind: part of the data of a write. -/
def Op.interrupted : {β : Type} → Op β → World → World → Prop
  | _, .write h body, w, w' => ∃ n, w' = w.put h (body.take n)
  | _, _, _, _ => False

/-- The worlds in which the process may die while it runs the program: before or after any call, or in the middle of
a write. -/
inductive Crash {α : Type} : Prog α → World → World → Prop
  | here (p : Prog α) (w : World) : Crash p w w
  | step {β : Type} {o : Op β} {k : β → Prog α} {w w' : World} (h : Crash (k (o.answer w).1) (o.answer w).2 w') :
      Crash (.call o k) w w'
  | torn {β : Type} {o : Op β} {k : β → Prog α} {w w' : World} (h : o.interrupted w w') : Crash (.call o k) w w'

end Fasttld
