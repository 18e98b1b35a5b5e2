import Verif.Model.Psl
import Verif.Model.Extract

/-!
# New and Update: psl.go:65-213, fasttld.go:26-33, 98-139, 403-434

A program is a tree of calls to the operating system: each node is one call, its children are indexed by the
answers.  What the answers are is not part of the program: see `Run` (any answers at all) and Model/World.lean
(answers of a file system, a clock and a network).

Left out: log lines; closing of files and response bodies (deferred, errors ignored); the text of errors.
-/

namespace Fasttld

/-- `os.FileInfo`, as far as it is used (psl.go:139, 187); times in nanoseconds. -/
structure FileInfo where
  isDir : Bool
  modTime : Int
  deriving DecidableEq, Repr

/-- Outcome of `http.Get` (psl.go:113) and of reading the body (psl.go:120): no response, or a status code, the
bytes read and whether reading ended without error. -/
inductive Response
  | failed
  | status (code : Nat) (body : Bytes) (complete : Bool)
  deriving DecidableEq, Repr

/-- The calls to the operating system, with their arguments and the type of their answer. -/
inductive Op : Type → Type
  /-- `afero.GetTempDir(filesystem, "")`, psl.go:194, fasttld.go:408 -/
  | tempDir : Op Bytes
  /-- `filepath.Abs`, psl.go:176: the path, and whether there was no error -/
  | abs (path : Bytes) : Op (Bytes × Bool)
  /-- `os.Stat`, psl.go:177: `none` is an error -/
  | stat (path : Bytes) : Op (Option FileInfo)
  /-- `time.Now`, psl.go:139 -/
  | now : Op Int
  /-- `os.ReadFile`, psl.go:74, 184: `none` is an error -/
  | readFile (path : Bytes) : Op (Option Bytes)
  /-- `filesystem.Open` of the temporary folder, fasttld.go:410: whether there was no error -/
  | openDir (path : Bytes) : Op Bool
  /-- `os.OpenFile(…, os.O_CREATE|os.O_WRONLY, 0644)`, psl.go:199: a file handle; `none` is an error -/
  | openWrite (path : Bytes) : Op (Option Nat)
  /-- `http.Get` and reading of the body, psl.go:113, 120 -/
  | httpGet (url : Bytes) : Op Response
  /-- `file.Seek(0, 0)`, psl.go:154: whether there was no error -/
  | seek (handle : Nat) : Op Bool
  /-- `file.Write`, psl.go:158: whether there was no error -/
  | write (handle : Nat) (body : Bytes) : Op Bool

/-- Programs that call the operating system. -/
inductive Prog (α : Type) : Type 1
  | ret (a : α) : Prog α
  | call {β : Type} (o : Op β) (k : β → Prog α) : Prog α

/-- Sequencing. -/
def Prog.bind {α γ : Type} : Prog α → (α → Prog γ) → Prog γ
  | .ret a, f => f a
  | .call o k, f => .call o (fun b => (k b).bind f)

instance : Monad Prog where
  pure := .ret
  bind := Prog.bind

/-- A call as a program. -/
def Op.ask {β : Type} (o : Op β) : Prog β := .call o .ret

/-- A call with its answer. -/
inductive Event
  | tempDir (answer : Bytes)
  | abs (path : Bytes) (answer : Bytes × Bool)
  | stat (path : Bytes) (answer : Option FileInfo)
  | now (answer : Int)
  | readFile (path : Bytes) (answer : Option Bytes)
  | openDir (path : Bytes) (answer : Bool)
  | openWrite (path : Bytes) (answer : Option Nat)
  | httpGet (url : Bytes) (answer : Response)
  | seek (handle : Nat) (answer : Bool)
  | write (handle : Nat) (body : Bytes) (answer : Bool)
  deriving DecidableEq, Repr

/-- The event of a call and an answer. -/
def Op.event : {β : Type} → Op β → β → Event
  | _, .tempDir, b => .tempDir b
  | _, .abs p, b => .abs p b
  | _, .stat p, b => .stat p b
  | _, .now, b => .now b
  | _, .readFile p, b => .readFile p b
  | _, .openDir p, b => .openDir p b
  | _, .openWrite p, b => .openWrite p b
  | _, .httpGet u, b => .httpGet u b
  | _, .seek h, b => .seek h b
  | _, .write h body, b => .write h body b

/-- `p` may make the calls `evs`, given these answers, and return `a`. -/
inductive Run {α : Type} : Prog α → List Event → α → Prop
  | ret (a : α) : Run (.ret a) [] a
  | call {β : Type} {o : Op β} {k : β → Prog α} {b : β} {evs : List Event} {a : α} (h : Run (k b) evs a) :
      Run (.call o k) (o.event b :: evs) a

/-- An environment answers each call, as it likes, in the light of everything that was asked and answered before. -/
def Environment : Type 1 := (β : Type) → List Event → Op β → β

/-- The answers in `evs` are those the environment gives after `past`. -/
inductive Answers (env : Environment) : List Event → List Event → Prop
  | nil (past : List Event) : Answers env past []
  | cons {β : Type} {o : Op β} {past evs : List Event} (h : Answers env (past ++ [o.event (env β past o)]) evs) :
      Answers env past (o.event (env β past o) :: evs)

/-! ## The code -/

/-- The errors Update and New can return (psl.go:76, 164, 197, 201). -/
inductive SysErr
  | readFile | allMirrors | noOp | openFile
  deriving DecidableEq, Repr

/-- fasttld.go:29-33 `type FastTLD`. -/
structure FastTLD where
  cacheFilePath : Bytes
  tldTrie : Trie
  includePrivateSuffix : Bool

/-- fasttld.go:58-61 `type SuffixListParams`. -/
structure SuffixListParams where
  cacheFilePath : Bytes
  includePrivateSuffix : Bool
  deriving DecidableEq, Repr

/-- psl.go:19-22 -/
def publicSuffixListSources : List Bytes :=
  [b! "https://publicsuffix.org/list/public_suffix_list.dat",
   b! "https://raw.githubusercontent.com/publicsuffix/list/master/public_suffix_list.dat"]

/-- fasttld.go:21 -/
def defaultPSLFileName : Bytes := b! "public_suffix_list.dat"

/-- fasttld.go:24 `pslMaxAgeHours`, in nanoseconds.  The code compares `float64` hours; `C42_hours` (Props/Times.lean)
proves that that comparison is the comparison of nanoseconds. -/
def pslMaxAge : Int := 72 * 60 * 60 * 1000000000

/-- psl.go:72-84 `getPublicSuffixList`. -/
def getPublicSuffixList (idna : Idna) (cacheFilePath : Bytes) : Prog (Suffixes × Option SysErr) := do
  match ← (Op.readFile cacheFilePath).ask with
  | none => return (⟨[], [], []⟩, some .readFile)
  | some b => return (parsePSL idna b, none)

/-- psl.go:93-100 `getHardcodedPublicSuffixList`; the built-in text is a parameter. -/
def getHardcodedPublicSuffixList (idna : Idna) (hardcodedPSL : Bytes) : Suffixes × Option SysErr :=
  (parsePSL idna hardcodedPSL, none)

/-- fasttld.go:101-139 `trieConstruct`. -/
def trieConstruct (idna : Idna) (hardcodedPSL : Bytes) (includePrivateSuffix : Bool) (cacheFilePath : Bytes) :
    Prog (Trie × Option SysErr) := do
  let (suffixLists, err) ←
    if cacheFilePath ≠ [] then getPublicSuffixList idna cacheFilePath
    else pure (getHardcodedPublicSuffixList idna hardcodedPSL)                     -- :107-111
  match err with
  | some err => return (.node false [], some err)                                  -- :113-116
  | none =>
    let suffixList := if includePrivateSuffix then suffixLists.allSuffixes else suffixLists.publicSuffixes
    return (buildTrie suffixList, none)                                            -- :118-138

/-- psl.go:103-107 `newHardcodedPSL`. -/
def newHardcodedPSL (idna : Idna) (hardcodedPSL : Bytes) (n : SuffixListParams) : Prog (FastTLD × Option SysErr) := do
  let (tldTrie, err) ← trieConstruct idna hardcodedPSL n.includePrivateSuffix []
  return (⟨[], tldTrie, n.includePrivateSuffix⟩, err)

/-- psl.go:110-125 `downloadFile`: `none` is an error. -/
def downloadFile (url : Bytes) : Prog (Option Bytes) := do
  match ← (Op.httpGet url).ask with
  | .failed => return none                                                         -- :114-116
  | .status code body complete =>
    if code = 200 then return (if complete then some body else none)               -- :119-120
    else return none                                                               -- :121-123

/-- psl.go:143-166 `update`: whether there was no error. -/
def update (file : Nat) : (sources : List Bytes) → Prog Bool
  | [] => return false                                                             -- :165
  | source :: rest => do
    match ← downloadFile source with
    | none => update file rest                                                     -- :147-148
    | some bodyBytes =>
      if !validPSLDelimiters bodyBytes then update file rest                       -- :150-152
      else if !(← (Op.seek file).ask) then update file rest                        -- :153-156
      else if !(← (Op.write file bodyBytes).ask) then update file rest             -- :157-160
      else return true                                                             -- :162

/-- psl.go:138-140 `fileLastModifiedHours`, in nanoseconds; 0 if there is no file (psl.go:178-181). -/
def fileLastModified : Option FileInfo → Prog Int
  | some info => do
    let now ← Op.now.ask
    return now - info.modTime
  | none => return 0

/-- psl.go:175-188 `checkCacheFile`; the age is in nanoseconds. -/
def checkCacheFile (cacheFilePath : Bytes) : Prog (Bool × Int) := do
  let (cacheFilePath, pathValid) ← (Op.abs (trimSpace cacheFilePath)).ask          -- :176
  let stat ← (Op.stat cacheFilePath).ask                                           -- :177
  let lastModified ← fileLastModified stat                                         -- :178-181
  let contents ← (Op.readFile cacheFilePath).ask
  let validDelimiters := contents.any validPSLDelimiters                           -- :183-186
  return (pathValid && stat.any (fun info => !info.isDir) && validDelimiters, lastModified)    -- :187

/-- psl.go:192-213 `(*FastTLD).Update`: the receiver afterwards, and the error. -/
def FastTLD.update (idna : Idna) (hardcodedPSL : Bytes) (f : FastTLD) : Prog (FastTLD × Option SysErr) := do
  let defaultCacheFilePath := (← Op.tempDir.ask) ++ defaultPSLFileName
  if f.cacheFilePath ≠ defaultCacheFilePath then return (f, some .noOp)            -- :196-198
  else match ← (Op.openWrite defaultCacheFilePath).ask with
    | none => return (f, some .openFile)                                           -- :200-202
    | some file =>
      if !(← Fasttld.update file publicSuffixListSources) then return (f, some .allMirrors)  -- :204-206
      else
        let (tldTrie, err) ← trieConstruct idna hardcodedPSL f.includePrivateSuffix defaultCacheFilePath
        match err with
        | none => return ({ f with tldTrie := tldTrie, cacheFilePath := defaultCacheFilePath }, none)
        | some err => return (f, some err)                                         -- :207-212

/-- fasttld.go:427-433, the end of `New`. -/
def finishNew (idna : Idna) (hardcodedPSL : Bytes) (n : SuffixListParams) (extractor : FastTLD) :
    Prog (FastTLD × Option SysErr) := do
  let (tldTrie, err) ← trieConstruct idna hardcodedPSL n.includePrivateSuffix extractor.cacheFilePath
  match err with
  | some _ => newHardcodedPSL idna hardcodedPSL n
  | none => return ({ extractor with tldTrie := tldTrie }, none)

/-- fasttld.go:403-434 `New`. -/
def new (idna : Idna) (hardcodedPSL : Bytes) (n : SuffixListParams) : Prog (FastTLD × Option SysErr) := do
  let extractor : FastTLD := ⟨n.cacheFilePath, .node false [], n.includePrivateSuffix⟩
  let (isValid, _) ← checkCacheFile extractor.cacheFilePath
  if isValid then finishNew idna hardcodedPSL n extractor
  else
    let defaultCacheFolderPath ← Op.tempDir.ask
    let defaultCacheFilePath := defaultCacheFolderPath ++ defaultPSLFileName
    if !(← (Op.openDir defaultCacheFolderPath).ask) then newHardcodedPSL idna hardcodedPSL n   -- :411-414
    else
      let extractor := { extractor with cacheFilePath := defaultCacheFilePath }
      let (isValid, lastModified) ← checkCacheFile extractor.cacheFilePath
      if !isValid || lastModified > pslMaxAge then
        let (extractor, updateErr) ← extractor.update idna hardcodedPSL                        -- :418-424
        match updateErr with
        | some _ => newHardcodedPSL idna hardcodedPSL n
        | none => return (extractor, none)
      else finishNew idna hardcodedPSL n extractor

end Fasttld
