import Verif.Model.Print

/-!
# New and Update with what they log and close: psl.go:65-213, fasttld.go:98-139, 403-434

The programs of Model/System.lean once more.  With each answer of the operating system comes a text: that of the error, if
the answer is one.  Between the calls there are `log.Println`s (without the time that package log puts before the line) and
the closing of files, of the temporary folder and of response bodies.  `defer` is written out at the end of the function.
That the two versions otherwise do the same is `C72_same`.
-/

namespace Fasttld

/-- What is not a call with an answer. -/
inductive Effect
  /-- `log.Println` -/
  | log (line : Bytes)
  /-- `file.Close()`, psl.go:203 -/
  | closeFile (handle : Nat)
  /-- `defaultCacheFolder.Close()`, fasttld.go:415 -/
  | closeDir
  /-- `resp.Body.Close()`, psl.go:117 -/
  | closeBody
  /-- `Print` of github.com/fatih/color, print.go and cmd/fasttld/extract.go:32-33 -/
  | print (c : Chunk)
  deriving DecidableEq, Repr

/-- Programs that call the operating system, log and close. -/
inductive LProg (α : Type) : Type 1
  | ret (a : α) : LProg α
  | call {β : Type} (o : Op β) (k : β → Bytes → LProg α) : LProg α
  | effect (e : Effect) (k : LProg α) : LProg α

/-- Sequencing. -/
def LProg.bind {α γ : Type} : LProg α → (α → LProg γ) → LProg γ
  | .ret a, f => f a
  | .call o k, f => .call o (fun b t => (k b t).bind f)
  | .effect e k, f => .effect e (k.bind f)

instance : Monad LProg where
  pure := .ret
  bind := LProg.bind

/-- A call as a program: the answer, and the text of the error if it is one. -/
def Op.askL {β : Type} (o : Op β) : LProg (β × Bytes) := .call o (fun b t => .ret (b, t))

/-- An effect as a program. -/
def Effect.run (e : Effect) : LProg Unit := .effect e (.ret ())

/-- What happened: a call with its answer and the text of the error, or an effect. -/
inductive LEvent
  | sys (e : Event) (text : Bytes)
  | effect (e : Effect)
  deriving DecidableEq, Repr

/-- `p` may do `evs`, and return `a`. -/
inductive LRun {α : Type} : LProg α → List LEvent → α → Prop
  | ret (a : α) : LRun (.ret a) [] a
  | call {β : Type} {o : Op β} {k : β → Bytes → LProg α} {b : β} {t : Bytes} {evs : List LEvent} {a : α}
      (h : LRun (k b t) evs a) : LRun (.call o k) (.sys (o.event b) t :: evs) a
  | effect {e : Effect} {k : LProg α} {evs : List LEvent} {a : α} (h : LRun k evs a) : LRun (.effect e k) (.effect e :: evs) a

/-! ## The code -/

/-- An error with its text. -/
abbrev TextErr := SysErr × Bytes

/-- The decimal digits of `n`: `fmt.Sprint`, psl.go:122; `fuel` bounds their number. -/
def decimalLoop : (fuel n : Nat) → Bytes → Bytes
  | 0, _, acc => acc
  | fuel + 1, n, acc =>
    let acc := UInt8.ofNat (48 + n % 10) :: acc
    if n < 10 then acc else decimalLoop fuel (n / 10) acc

/-- `fmt.Sprint(n)`. -/
def decimalText (n : Nat) : Bytes := decimalLoop (n + 1) n []

/-- The texts of the errors of `idna.ToASCII` (psl.go:38) and of `idnaToPuny.ToASCII` (strings.go:239) on a text. -/
structure IdnaTexts where
  toASCII : Bytes → Bytes
  lookupASCII : Bytes → Bytes

/-- psl.go:30-43 of `processLine`: the line logged for an entry that cannot be converted.  `'|'` is a number to `Println`:
it prints 124. -/
def processLineLog (idna : Idna) (tx : IdnaTexts) (rawLine : Bytes) : List Bytes :=
  let line := trimSpace rawLine
  if line.length = 0 ∨ (b! "//").isPrefixOf line then []                           -- :35-37
  else match idna.toASCII line with
    | none => [line ++ b! " 124 " ++ tx.toASCII line]                              -- :41
    | some _ => []

/-- What the loops of psl.go:80-82 and psl.go:96-98 log. -/
def parseLog (idna : Idna) (tx : IdnaTexts) (text : Bytes) : List Bytes := (splitByte 10 text).flatMap (processLineLog idna tx)

/-- These lines are logged. -/
def logAll : List Bytes → LProg Unit
  | [] => return ()
  | l :: ls => do
    (Effect.log l).run
    logAll ls

/-- psl.go:72-84 `getPublicSuffixList`. -/
def getPublicSuffixListL (idna : Idna) (tx : IdnaTexts) (cacheFilePath : Bytes) : LProg (Suffixes × Option TextErr) := do
  match ← (Op.readFile cacheFilePath).askL with
  | (none, t) => (Effect.log t).run; return (⟨[], [], []⟩, some (.readFile, t))    -- :75-78
  | (some b, _) => logAll (parseLog idna tx b); return (parsePSL idna b, none)

/-- psl.go:93-100 `getHardcodedPublicSuffixList`. -/
def getHardcodedPublicSuffixListL (idna : Idna) (tx : IdnaTexts) (hardcodedPSL : Bytes) : LProg (Suffixes × Option TextErr) := do
  logAll (parseLog idna tx hardcodedPSL)
  return (parsePSL idna hardcodedPSL, none)

/-- fasttld.go:101-139 `trieConstruct`. -/
def trieConstructL (idna : Idna) (tx : IdnaTexts) (hardcodedPSL : Bytes) (includePrivateSuffix : Bool)
    (cacheFilePath : Bytes) :
    LProg (Trie × Option TextErr) := do
  let (suffixLists, err) ←
    if cacheFilePath ≠ [] then getPublicSuffixListL idna tx cacheFilePath
    else getHardcodedPublicSuffixListL idna tx hardcodedPSL                                -- :107-111
  match err with
  | some err => (Effect.log err.2).run; return (.node false [], some err)          -- :113-116
  | none =>
    let suffixList := if includePrivateSuffix then suffixLists.allSuffixes else suffixLists.publicSuffixes
    return (buildTrie suffixList, none)                                            -- :118-138

/-- What `Println` prints for an error. -/
def errText : Option Bytes → Bytes
  | none => b! "<nil>"
  | some t => t

/-- psl.go:103-107 `newHardcodedPSL`. -/
def newHardcodedPSLL (idna : Idna) (tx : IdnaTexts) (hardcodedPSL : Bytes) (err : Option Bytes) (n : SuffixListParams) :
    LProg (FastTLD × Option TextErr) := do
  (Effect.log (errText err ++ b! " Fallback to hardcoded Public Suffix List")).run -- :104
  let (tldTrie, err) ← trieConstructL idna tx hardcodedPSL n.includePrivateSuffix []
  return (⟨[], tldTrie, n.includePrivateSuffix⟩, err)

/-- psl.go:110-125 `downloadFile`. -/
def downloadFileL (url : Bytes) : LProg (Except Bytes Bytes) := do
  match ← (Op.httpGet url).askL with
  | (.failed, t) => return .error t                                                -- :114-116
  | (.status code body complete, t) =>
    Effect.closeBody.run                                                           -- :117, deferred
    if code = 200 then return (if complete then .ok body else .error t)            -- :119-120
    else return .error (b! "Download failed, HTTP status code : " ++ decimalText code) -- :121-123

/-- psl.go:143-166 `update`: whether there was no error. -/
def updateL (file : Nat) : (sources : List Bytes) → LProg Bool
  | [] => return false                                                             -- :165
  | source :: rest => do
    match ← downloadFileL source with
    | .error t => (Effect.log t).run; updateL file rest                            -- :147-148
    | .ok bodyBytes =>
      if !validPSLDelimiters bodyBytes then updateL file rest                      -- :150-152
      else
        let (ok, t) ← (Op.seek file).askL
        if !ok then (Effect.log t).run; updateL file rest                          -- :153-156
        else
          let (ok, t) ← (Op.write file bodyBytes).askL
          if !ok then (Effect.log t).run; updateL file rest                        -- :157-160
          else (Effect.log (b! "Public Suffix List updated.")).run; return true    -- :161-162

/-- psl.go:175-188 `checkCacheFile`; the age is in nanoseconds. -/
def checkCacheFileL (cacheFilePath : Bytes) : LProg (Bool × Int) := do
  let ((cacheFilePath, pathValid), _) ← (Op.abs (trimSpace cacheFilePath)).askL    -- :176
  let (stat, _) ← (Op.stat cacheFilePath).askL                                     -- :177
  let lastModified ← (match stat with
    | some info => do let (now, _) ← Op.now.askL; return now - info.modTime
    | none => return 0 : LProg Int)                                                -- :178-181
  let (contents, _) ← (Op.readFile cacheFilePath).askL
  let validDelimiters := contents.any validPSLDelimiters                           -- :183-186
  return (pathValid && stat.any (fun info => !info.isDir) && validDelimiters, lastModified)    -- :187

/-- psl.go:192-213 `(*FastTLD).Update`: the receiver afterwards, and the error. -/
def FastTLD.updateL (idna : Idna) (tx : IdnaTexts) (hardcodedPSL : Bytes) (f : FastTLD) : LProg (FastTLD × Option TextErr) := do
  let (tempDir, _) ← Op.tempDir.askL
  let defaultCacheFilePath := tempDir ++ defaultPSLFileName
  if f.cacheFilePath ≠ defaultCacheFilePath then
    return (f, some (.noOp, b! "No-op. Only default Public Suffix list file can be updated"))   -- :196-198
  else match ← (Op.openWrite defaultCacheFilePath).askL with
    | (none, t) => return (f, some (.openFile, t))                                 -- :200-202
    | (some file, _) =>
      if !(← Fasttld.updateL file publicSuffixListSources) then
        (Effect.closeFile file).run                                                -- :203, deferred
        return (f, some (.allMirrors, b! "failed to fetch any Public Suffix List from all mirrors"))  -- :204-206
      else
        let (tldTrie, err) ← trieConstructL idna tx hardcodedPSL f.includePrivateSuffix defaultCacheFilePath
        (Effect.closeFile file).run                                                -- :203, deferred
        match err with
        | none => return ({ f with tldTrie := tldTrie, cacheFilePath := defaultCacheFilePath }, none)
        | some err => return (f, some err)                                         -- :207-212

/-- fasttld.go:427-433, the end of `New`. -/
def finishNewL (idna : Idna) (tx : IdnaTexts) (hardcodedPSL : Bytes) (n : SuffixListParams) (extractor : FastTLD) :
    LProg (FastTLD × Option TextErr) := do
  let (tldTrie, err) ← trieConstructL idna tx hardcodedPSL n.includePrivateSuffix extractor.cacheFilePath
  match err with
  | some err => newHardcodedPSLL idna tx hardcodedPSL (some err.2) n                  -- :430
  | none => return ({ extractor with tldTrie := tldTrie }, none)

/-- fasttld.go:403-434 `New`.  In line 422 `err` is the error of line 410, that is nil, not `updateErr`. -/
def newL (idna : Idna) (tx : IdnaTexts) (hardcodedPSL : Bytes) (n : SuffixListParams) : LProg (FastTLD × Option TextErr) := do
  let extractor : FastTLD := ⟨n.cacheFilePath, .node false [], n.includePrivateSuffix⟩
  let (isValid, _) ← checkCacheFileL extractor.cacheFilePath
  if isValid then finishNewL idna tx hardcodedPSL n extractor
  else
    let (defaultCacheFolderPath, _) ← Op.tempDir.askL
    let defaultCacheFilePath := defaultCacheFolderPath ++ defaultPSLFileName
    let (opened, t) ← (Op.openDir defaultCacheFolderPath).askL
    if !opened then newHardcodedPSLL idna tx hardcodedPSL (some t) n                  -- :411-414
    else
      let extractor := { extractor with cacheFilePath := defaultCacheFilePath }
      let (isValid, lastModified) ← checkCacheFileL extractor.cacheFilePath
      if !isValid || lastModified > pslMaxAge then
        let (extractor, updateErr) ← extractor.updateL idna tx hardcodedPSL           -- :418-424
        match updateErr with
        | some _ =>
          let r ← newHardcodedPSLL idna tx hardcodedPSL none n                     -- :422
          Effect.closeDir.run                                                      -- :415, deferred
          return r
        | none => Effect.closeDir.run; return (extractor, none)
      else
        let r ← finishNewL idna tx hardcodedPSL n extractor
        Effect.closeDir.run                                                        -- :415, deferred
        return r

/-- `strings.SplitAfterN(s, sep, 2)[0]` for a nonempty `sep`: up to the end of the first `sep`, or all. -/
def splitAfterFirst (sep : Bytes) : Bytes → Bytes
  | [] => []
  | c :: rest => if sep.isPrefixOf (c :: rest) then sep else c :: splitAfterFirst sep rest

/-- fasttld.go:142-259 of Extract: the result so far, and the host unless it is an IPv6 address. -/
def beforeIdna (e : URLParams) : M (ExtractResult × Option Bytes) :=
  (liftGo (fastTrim e.url whitespaceRuneSet .trimBoth)) >>= fun netloc =>
  (liftGo (stageScheme netloc {})) >>= fun r =>
  (liftGo (stageUserInfo r.2 r.1)) >>= fun r =>
  match scanLoop r.2.length r.2 0 (-1) (-1) with
  | .err er => fail r.1 er
  | .done opening closing hostEnd =>
    let hostEnd := adjustHostEnd r.2.length closing hostEnd
    (stageIPv6 r.2 opening closing hostEnd r.1) >>= fun u =>
    (liftGo (stageSplit r.2 hostEnd)) >>= fun hs =>
    (stagePortPath hs.2 u) >>= fun u =>
    if u.hostType = .iPv6 then .ok (u, none) else .ok (u, some hs.1)

/-- What fasttld.go:261-275 logs. -/
def stageIdnaLog (idna : Idna) (tx : IdnaTexts) (e : URLParams) (netloc : Bytes) : List Bytes :=
  match queryUnescape netloc with
  | .error _ => []
  | .ok unescaped =>
    if e.convertURLToPunyCode then
      match idna.lookupASCII unescaped with
      | some _ => []
      | none => [splitAfterFirst (b! "idna: invalid label") (tx.lookupASCII unescaped)]   -- strings.go:241
    else match idna.toUnicodeErr unescaped with
      | some msg => [splitAfterFirst (b! "idna: invalid label") msg]               -- fasttld.go:273
      | none => []

/-- What Extract logs. -/
def extractLog (idna : Idna) (tx : IdnaTexts) (e : URLParams) : List Bytes :=
  match beforeIdna e with
  | .ok (_, some netloc) => stageIdnaLog idna tx e netloc
  | _ => []

end Fasttld
