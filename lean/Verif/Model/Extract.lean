import Verif.Model.Net
import Verif.Model.Psl
import Verif.Model.Url

/-!
# fasttld.go:141-400: Extract

The body is cut into stages at the blank lines of the source; a stage either produces the values the
next stage uses, or stops `Extract` with its return values (`Stop.ret`), or faults (`Stop.fault`).
`log.Println` calls have no modelled effect.
-/

namespace Fasttld

/-- fasttld.go:43-48 -/
inductive HostType
  | none
  | hostName
  | iPv4
  | iPv6
  deriving DecidableEq, Repr

/-- fasttld.go:51-54 -/
structure ExtractResult where
  scheme : Bytes := []
  userInfo : Bytes := []
  subDomain : Bytes := []
  domain : Bytes := []
  suffix : Bytes := []
  registeredDomain : Bytes := []
  port : Bytes := []
  path : Bytes := []
  hostType : HostType := .none
  deriving DecidableEq, Repr

/-- fasttld.go:68-72 -/
structure URLParams where
  url : Bytes
  ignoreSubDomains : Bool := false
  convertURLToPunyCode : Bool := false
  deriving DecidableEq, Repr

/-- The errors Extract returns (fasttld.go:168, 180, 197, 211, 217, 246, 264, 274, 301, 358/362, 396). -/
inductive Err
  | openingBracketNotFirst
  | closingWithoutOpening
  | incompleteBrackets
  | invalidIPv6
  | trailingAfterIPv6
  | invalidPort
  | badEscape (esc : Bytes)
  | idna (msg : Bytes)
  | consecutiveSeparators
  | invalidCharacters
  | emptyDomain
  deriving DecidableEq, Repr

/-- How a stage ends Extract. -/
inductive Stop
  | fault (f : Fault)
  | ret (r : ExtractResult) (e : Option Err)

abbrev M := Except Stop

/-- A helper that may fault, inside Extract. -/
def liftGo {α : Type} : Go α → M α
  | .ok a => .ok a
  | .error f => .error (.fault f)

/-- `return urlParts, errors.New(...)` -/
def fail {α : Type} (u : ExtractResult) (e : Err) : M α := .error (.ret u (some e))

/-- fasttld.go:147-150: scheme. -/
def stageScheme (netloc : Bytes) (u : ExtractResult) : Go (ExtractResult × Bytes) :=
  let schemeEndIndex := getSchemeEndIndex netloc
  if schemeEndIndex ≠ -1 then
    (slice netloc 0 schemeEndIndex) >>= fun sch =>
    (slice netloc schemeEndIndex netloc.length) >>= fun rest =>
    .ok ({ u with scheme := sch }, rest)
  else .ok (u, netloc)

/-- fasttld.go:153-156: userinfo. -/
def stageUserInfo (netloc : Bytes) (u : ExtractResult) : Go (ExtractResult × Bytes) :=
  (indexLastByteBefore netloc 64 invalidUserInfoCharsSet) >>= fun atIdx =>
  if atIdx ≠ -1 then
    (slice netloc 0 atIdx) >>= fun ui =>
    (slice netloc (atIdx + 1) netloc.length) >>= fun rest =>
    .ok ({ u with userInfo := ui }, rest)
  else .ok (u, netloc)

/-- Result of the bracket scan: an error return, or `(openingSquareBracketIdx,
closingSquareBracketIdx, hostEndIdx)`. -/
inductive Scan
  | err (e : Err)
  | done (opening closing hostEnd : Int)
  deriving DecidableEq, Repr

/-- fasttld.go:163-199: loop over `[]byte(netloc)`; `n = len(netloc)`. -/
def scanLoop (n : Nat) : Bytes → (i : Nat) → (opening closing : Int) → Scan
  | [], _, opening, closing => .done opening closing (-1)
  | r :: rest, i, opening, closing =>
    if r = 91 ∧ i > 0 then .err .openingBracketNotFirst                       -- :164-169
    else
      let opening := if r = 91 then (i : Int) else opening                    -- :170
      let closing := if r = 93 then (i : Int) else closing                    -- :172-175
      if opening = -1 then
        if closing ≠ -1 then .err .closingWithoutOpening                      -- :178-181
        else if endOfHostDelimitersSet.contains r then .done opening closing i -- :182-187
        else if (i : Int) = (n : Int) - 1 ∧ closing < opening then .err .incompleteBrackets
        else scanLoop n rest (i + 1) opening closing
      else if closing > opening ∧ endOfHostWithPortDelimitersSet.contains r then
        .done opening closing i                                               -- :188-193
      else if (i : Int) = (n : Int) - 1 ∧ closing < opening then
        .err .incompleteBrackets                                              -- :195-198
      else scanLoop n rest (i + 1) opening closing

/-- fasttld.go:201-205: adjust `hostEndIdx`. -/
def adjustHostEnd (n : Nat) (closing hostEnd : Int) : Int :=
  if closing = (n : Int) - 1 then -1
  else if closing ≠ -1 then closing + 1
  else hostEnd

/-- fasttld.go:207-224: IPv6 check. -/
def stageIPv6 (netloc : Bytes) (opening closing hostEnd : Int) (u : ExtractResult) :
    M ExtractResult :=
  if closing > opening then
    (liftGo (slice netloc 1 closing)) >>= fun inner =>
    (liftGo (isIPv6 inner)) >>= fun ok6 =>
    if !ok6 then fail u .invalidIPv6                                          -- :209-212
    else
      (if hostEnd ≠ -1 then
        (liftGo (slice netloc hostEnd netloc.length)) >>= fun afterHost =>
        if indexAnyASCII afterHost endOfHostDelimitersSet ≠ 0 then
          fail u .trailingAfterIPv6                                           -- :215-218
        else .ok ()
      else .ok ()) >>= fun _ =>
      .ok { u with hostType := .iPv6, domain := inner, registeredDomain := inner } -- :221-223
  else .ok u

/-- fasttld.go:226-231: separate the host from what follows. Returns `(netloc, afterHost)`. -/
def stageSplit (netloc : Bytes) (hostEnd : Int) : Go (Bytes × Bytes) :=
  if hostEnd ≠ -1 then
    (slice netloc hostEnd netloc.length) >>= fun afterHost =>
    (slice netloc 0 hostEnd) >>= fun host => .ok (host, afterHost)
  else .ok (netloc, [])

/-- fasttld.go:23 -/
def largestPortNumber : Int := 65535

/-- fasttld.go:243: the port test. -/
def portOK (maybePort : Bytes) : Bool :=
  match atoi maybePort with
  | some port => 0 ≤ port && port ≤ largestPortNumber
  | none => false

/-- fasttld.go:233-255: Port and Path. -/
def stagePortPath (afterHost : Bytes) (u : ExtractResult) : M ExtractResult :=
  if afterHost.length ≠ 0 then
    let pathStartIndex := indexAnyASCII afterHost endOfHostWithPortDelimitersSet
    (liftGo (index afterHost 0)) >>= fun c0 =>
    (if c0 = 58 then
      (if pathStartIndex = -1 then liftGo (slice afterHost 1 afterHost.length)
       else liftGo (slice afterHost 1 pathStartIndex)) >>= fun maybePort =>
      if portOK maybePort then .ok { u with port := maybePort }
      else fail u .invalidPort
     else .ok u) >>= fun u =>
    if pathStartIndex ≠ -1 ∧ pathStartIndex ≠ afterHost.length then
      (liftGo (slice afterHost pathStartIndex afterHost.length)) >>= fun p => .ok { u with path := p }
    else .ok u
  else .ok u

/-- strings.go:238-245 `formatAsPunycode`. -/
def formatAsPunycode (idna : Idna) (s : Bytes) : Bytes :=
  match idna.lookupASCII s with
  | some a => a
  | none => []

/-- fasttld.go:261-275: percent-decoding check and IDNA; returns the host text used below. -/
def stageIdna (idna : Idna) (e : URLParams) (netloc : Bytes) (u : ExtractResult) : M Bytes :=
  match queryUnescape netloc with
  | .error esc => fail u (.badEscape esc)                                     -- :263-265
  | .ok unescaped =>
    if e.convertURLToPunyCode then .ok (formatAsPunycode idna unescaped)      -- :267-268
    else match idna.toUnicodeErr unescaped with
      | some msg => fail u (.idna msg)                                        -- :269-275
      | none => .ok netloc

/-- The variables of the suffix loop after it ends (fasttld.go:280-286). -/
structure Walk where
  hasSuffix : Bool
  previousSepIdx : Int
  sepIdx : Int
  suffixStartIdx : Int
  suffixEndIdx : Int
  deriving DecidableEq, Repr

/-- `label, _ = url.QueryUnescape(label)`: the empty string on error (fasttld.go:319). -/
def unescapeOrEmpty (label : Bytes) : Bytes :=
  match queryUnescape label with
  | .ok l => l
  | .error _ => []

/-- fasttld.go:309-337 of one iteration, after `label` and `end` are known; `continue_` runs the next
iteration with (node, hasSuffix, suffixStartIdx, suffixEndIdx). -/
def walkLabel (netloc : Bytes) (node : Trie) (label : Bytes) (isLast : Bool) (w : Walk)
    (continue_ : Trie → Walk → M Walk) : M Walk :=
  match node.get (b! "*") with
  | some _ =>                                                                 -- :309
    match node.get (33 :: label) with
    | some _ => .ok { w with sepIdx := w.previousSepIdx }                     -- :312-314, :315
    | none => .ok w                                                           -- :315
  | none =>
    match node.get (unescapeOrEmpty label) with
    | some val =>                                                             -- :320
      let w := { w with suffixStartIdx := w.sepIdx }
      let w := if !w.hasSuffix && val.isEnd then
          { w with suffixEndIdx := w.previousSepIdx, hasSuffix := true } else w -- :322-326
      if val.kids.length = 0 then .ok w                                       -- :328-331
      else if isLast then .ok w                                               -- :288 `for !end`
      else continue_ val w
    | none =>                                                                 -- :332
      if w.previousSepIdx ≠ netloc.length then .ok { w with sepIdx := w.previousSepIdx }
      else .ok w

/-- fasttld.go:288-338: the suffix loop; `fuel` bounds the iterations.
`u` is only used for the error return of line 301. -/
def walkLoop (netloc : Bytes) (u : ExtractResult) :
    (fuel : Nat) → (node : Trie) → (hasLabels : Bool) → Walk → M Walk
  | 0, _, _, _ => .error (.fault .outOfFuel)
  | fuel + 1, node, hasLabels, w =>
    let previousSepIdx := w.sepIdx                                            -- :290
    (liftGo (slice netloc 0 w.sepIdx)) >>= fun pre =>
    (liftGo (lastIndexAny pre labelSeparatorsRuneSet)) >>= fun sepIdx =>      -- :291
    if sepIdx ≠ -1 then
      (liftGo (index netloc sepIdx)) >>= fun b =>
      (liftGo (slice netloc (sepIdx + sepSize b) previousSepIdx)) >>= fun label => -- :293
      if label.length = 0 then
        if !hasLabels then                                                    -- :296-299
          walkLoop netloc u fuel node hasLabels
            { w with previousSepIdx := previousSepIdx, sepIdx := sepIdx, suffixEndIdx := sepIdx }
        else fail u .consecutiveSeparators                                    -- :301
      else
        walkLabel netloc node label false
          { w with previousSepIdx := previousSepIdx, sepIdx := sepIdx }
          (fun node w => walkLoop netloc u fuel node true w)                  -- :303
    else
      (liftGo (slice netloc 0 previousSepIdx)) >>= fun label =>               -- :305
      walkLabel netloc node label true
        { w with previousSepIdx := previousSepIdx, sepIdx := sepIdx }
        (fun _ w => .ok w)                                                    -- :306

/-- fasttld.go:340-348: IPv4 check; `some` is the early return. -/
def stageIPv4 (netloc : Bytes) (w : Walk) (u : ExtractResult) : Go (Option ExtractResult) :=
  if netloc.length ≥ 7 then
    (index netloc 0) >>= fun c0 =>
    if numericSet.contains c0 then
      (isIPv4 netloc) >>= fun ok4 =>
      if ok4 then
        (slice netloc 0 w.previousSepIdx) >>= fun d =>
        .ok (some { u with hostType := .iPv4, domain := d, registeredDomain := d })
      else .ok none
    else .ok none
  else .ok none

/-- fasttld.go:350-364: normalise `sepIdx`, reject invalid characters. -/
def stageCheckChars (netloc : Bytes) (w : Walk) (u : ExtractResult) : M Walk :=
  let w := if w.sepIdx = -1 then
      { w with sepIdx := netloc.length, suffixStartIdx := netloc.length } else w  -- :350-352
  (liftGo (slice netloc 0 (if w.hasSuffix then w.suffixStartIdx else w.previousSepIdx))) >>=
    fun checked =>
  if hasInvalidChars checked then fail u .invalidCharacters                   -- :356-364
  else .ok w

/-- fasttld.go:366-390: Domain, Suffix, RegisteredDomain; also returns `domainStartSepIdx`. -/
def stageNames (netloc : Bytes) (w : Walk) (u : ExtractResult) : Go (ExtractResult × Int) :=
  if w.hasSuffix then
    if w.sepIdx < netloc.length then                                          -- :368
      (index netloc w.sepIdx) >>= fun b =>
      (slice netloc (w.sepIdx + sepSize b) w.suffixEndIdx) >>= fun suf =>     -- :369
      (slice netloc 0 w.sepIdx) >>= fun pre =>
      (lastIndexAny pre labelSeparatorsRuneSet) >>= fun domainStartSepIdx =>  -- :370
      if domainStartSepIdx ≠ -1 then
        (index netloc domainStartSepIdx) >>= fun b2 =>
        let domainStartIdx := domainStartSepIdx + sepSize b2                  -- :372
        (slice netloc domainStartIdx w.sepIdx) >>= fun dom =>                 -- :373
        (slice netloc domainStartIdx w.suffixEndIdx) >>= fun reg =>           -- :374
        .ok ({ u with suffix := suf, domain := dom, registeredDomain := reg }, domainStartSepIdx)
      else
        (slice netloc 0 w.suffixEndIdx) >>= fun reg =>                        -- :377
        .ok ({ u with suffix := suf, domain := pre, registeredDomain := reg }, domainStartSepIdx)
    else
      (slice netloc 0 w.suffixEndIdx) >>= fun suf =>                          -- :381
      .ok ({ u with suffix := suf }, 0)                                       -- :366 zero value
  else
    (slice netloc 0 w.suffixEndIdx) >>= fun pre =>
    (lastIndexAny pre labelSeparatorsRuneSet) >>= fun domainStartSepIdx =>    -- :384
    (if domainStartSepIdx ≠ -1 then
      (index netloc domainStartSepIdx) >>= fun b2 => .ok (domainStartSepIdx + sepSize b2) -- :387
     else .ok 0) >>= fun domainStartIdx =>
    (slice netloc domainStartIdx w.suffixEndIdx) >>= fun dom =>               -- :389
    .ok ({ u with domain := dom }, domainStartSepIdx)

/-- fasttld.go:391-393: SubDomain. -/
def stageSubDomain (e : URLParams) (netloc : Bytes) (domainStartSepIdx : Int) (u : ExtractResult) :
    Go ExtractResult :=
  if !e.ignoreSubDomains && domainStartSepIdx ≠ -1 then
    (slice netloc 0 domainStartSepIdx) >>= fun sd => .ok { u with subDomain := sd }
  else .ok u

/-- fasttld.go:277-399: everything after the host text is final. -/
def stageHost (tldTrie : Trie) (e : URLParams) (netloc : Bytes) (u : ExtractResult) :
    M (ExtractResult × Option Err) :=
  let n : Int := netloc.length
  (walkLoop netloc u (netloc.length + 2) tldTrie false                        -- :278-286
    { hasSuffix := false, previousSepIdx := 0, sepIdx := n, suffixStartIdx := n, suffixEndIdx := n })
    >>= fun w =>
  (liftGo (stageIPv4 netloc w u)) >>= fun ip4 =>
  match ip4 with
  | some u4 => .ok (u4, none)                                                 -- :347
  | none =>
    (stageCheckChars netloc w u) >>= fun w =>
    (liftGo (stageNames netloc w u)) >>= fun r =>
    (liftGo (stageSubDomain e netloc r.2 r.1)) >>= fun u =>
    if u.domain.length = 0 then fail u .emptyDomain                           -- :395-397
    else .ok ({ u with hostType := .hostName }, none)                         -- :398-399

/-- fasttld.go:142-400 with early returns still in the `M` monad. -/
def extractM (idna : Idna) (tldTrie : Trie) (e : URLParams) : M (ExtractResult × Option Err) :=
  (liftGo (fastTrim e.url whitespaceRuneSet .trimBoth)) >>= fun netloc =>     -- :146
  (liftGo (stageScheme netloc {})) >>= fun r =>
  (liftGo (stageUserInfo r.2 r.1)) >>= fun r =>
  let u := r.1
  let netloc := r.2
  match scanLoop netloc.length netloc 0 (-1) (-1) with
  | .err er => fail u er
  | .done opening closing hostEnd =>
    let hostEnd := adjustHostEnd netloc.length closing hostEnd
    (stageIPv6 netloc opening closing hostEnd u) >>= fun u =>
    (liftGo (stageSplit netloc hostEnd)) >>= fun hs =>
    (stagePortPath hs.2 u) >>= fun u =>
    if u.hostType = .iPv6 then .ok (u, none)                                  -- :257-259
    else
      (stageIdna idna e hs.1 u) >>= fun netloc =>
      stageHost tldTrie e netloc u

/-- fasttld.go:142 `func (f *FastTLD) Extract(e URLParams) (ExtractResult, error)`:
a fault, or the two return values. -/
def extract (idna : Idna) (tldTrie : Trie) (e : URLParams) : Go (ExtractResult × Option Err) :=
  match extractM idna tldTrie e with
  | .ok r => .ok r
  | .error (.ret u er) => .ok (u, er)
  | .error (.fault f) => .error f

end Fasttld
