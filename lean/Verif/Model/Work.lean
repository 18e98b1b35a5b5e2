import Verif.Model.Extract

/-!
# How much Extract does: fasttld.go:142-400

The functions here are those of Model/Strings.lean, Model/Net.lean and Model/Extract.lean once more, but they also count.
Proofs/Work.lean shows that without the count they are the same functions.  Counted are:

* every iteration of a loop (also of the loops `for range` over a string);
* for `[]byte(s)`, `[]rune(s)`, `strings.LastIndexByte`, `strconv.Atoi` and the concatenation `"!" + label`, the length of the text;
* for `url.QueryUnescape` twice the length of the text, as it goes through it once to check it and once to write;
* for a lookup in the map of a node one, and the length of the key, which is hashed.

All else takes a bounded time (a slice of a string copies nothing) and counts nothing.  Not counted, as they are
not part of this program: what `idna` does, and how many places a lookup in a map tries.
-/

namespace Fasttld

/-- A value and how many steps it took. -/
structure Counted (α : Type) where
  val : α
  n : Nat

namespace Counted

/-- A value that takes no steps. -/
def ret {α : Type} (a : α) : Counted α := ⟨a, 0⟩

/-- `k` steps, then `c`. -/
def step {α : Type} (k : Nat) (c : Counted α) : Counted α := ⟨c.val, k + c.n⟩

/-- One after the other, unless the first stops. -/
def andThen {ε α β : Type} (p : Counted (Except ε α)) (f : α → Counted (Except ε β)) : Counted (Except ε β) :=
  match p.val with
  | .ok a => step p.n (f a)
  | .error e => ⟨.error e, p.n⟩

/-- One after the other, when the first cannot stop. -/
def bind {α β : Type} (p : Counted α) (f : α → Counted β) : Counted β := step p.n (f p.val)

/-- Inside Extract. -/
def lift {α : Type} (p : Counted (Go α)) : Counted (M α) := ⟨liftGo p.val, p.n⟩

end Counted

open Counted

/-- Loop of strings.go:99-140. -/
def schemeLoopC (n : Nat) : Bytes → Nat → Bool → Nat → Counted Int
  | [], _, _, slashCount => ret (if slashCount ≥ 2 then (n : Int) else -1)
  | c :: rest, i, colon, slashCount => step 1 <|
    if i = 0 then
      if schemeFirstCharSet.contains c then schemeLoopC n rest (i + 1) colon slashCount
      else if slashes.contains c then schemeLoopC n rest (i + 1) colon (slashCount + 1)
      else ret (-1)
    else if slashCount = 0 then
      if !colon && schemeRemainingCharSet.contains c then schemeLoopC n rest (i + 1) colon slashCount
      else if !colon && c == 58 then schemeLoopC n rest (i + 1) true slashCount
      else if slashes.contains c then schemeLoopC n rest (i + 1) colon (slashCount + 1)
      else ret (-1)
    else if slashes.contains c then schemeLoopC n rest (i + 1) colon (slashCount + 1)
    else if slashCount < 2 then ret (-1)
    else ret (i : Int)

/-- Loop of strings.go:153-158. -/
def indexAnyLoopC (as : AsciiSet) : Bytes → Nat → Counted Int
  | [], _ => ret (-1)
  | b :: rest, i => step 1 <| if as.contains b then ret (i : Int) else indexAnyLoopC as rest (i + 1)

/-- strings.go:152-159 `indexAnyASCII`. -/
def indexAnyASCIIC (s : Bytes) (as : AsciiSet) : Counted Int := indexAnyLoopC as s 0

/-- Loop of strings.go:169-195. -/
def hasInvalidCharsLoopC (lastByteIdx : Int) : List (Nat × Nat) → Bool → Counted Bool
  | [], _ => ret false
  | (idx, c) :: rest, isLabelSeparator => step 1 <|
    if alphaNumericSet.contains (byteOf c) then hasInvalidCharsLoopC lastByteIdx rest false
    else if idx = 0 && (c == 45 || labelSeparatorsRuneSet.exists c) then ret true
    else if (idx : Int) = lastByteIdx && c == 45 then ret true
    else if labelSeparatorsRuneSet.exists c && isLabelSeparator then ret true
    else if invalidHostNameCharsRuneSet.exists c then ret true
    else hasInvalidCharsLoopC lastByteIdx rest (labelSeparatorsRuneSet.exists c)

/-- strings.go:166-197 `hasInvalidChars`. -/
def hasInvalidCharsC (s : Bytes) : Counted Bool :=
  hasInvalidCharsLoopC ((s.length : Int) - 1) (rangeString s) false

/-- Loop of strings.go:205-211. -/
def lastIndexAnyLoopC (s : Bytes) (chars : RuneSet) : (fuel : Nat) → (i : Int) → Counted (Go Int)
  | 0, _ => ret (.error .outOfFuel)
  | fuel + 1, i =>
    if i > 0 then step 1 <|
      (ret (slice s 0 i)).andThen fun t =>
      let d := decodeLastRune t
      let i' := i - d.2
      if chars.exists d.1 then ret (.ok i') else lastIndexAnyLoopC s chars fuel i'
    else ret (.ok (-1))

/-- strings.go:204-213 `lastIndexAny`. -/
def lastIndexAnyC (s : Bytes) (chars : RuneSet) : Counted (Go Int) :=
  lastIndexAnyLoopC s chars (s.length + 1) s.length

/-- strings.go:249-254 `indexLastByteBefore`. -/
def indexLastByteBeforeC (s : Bytes) (b : UInt8) (notAfterCharsSet : AsciiSet) : Counted (Go Int) :=
  (indexAnyASCIIC s notAfterCharsSet).bind fun first =>
  if first ≠ -1 then
    (ret (slice s 0 first)).andThen fun t => step t.length <| ret (.ok (lastIndexByte t b))
  else step s.length <| ret (.ok (lastIndexByte s b))

/-- Loop of strings.go:272-279. -/
def trimLeftLoopC (charsToTrim : RuneSet) : List (Nat × Nat) → Int → Bool → Counted (Int × Bool × Bool)
  | [], startIdx, trimCharsExist => ret (startIdx, trimCharsExist, false)
  | (idx, c) :: rest, _, trimCharsExist => step 1 <|
    if !charsToTrim.exists c then ret ((idx : Int), trimCharsExist, true)
    else trimLeftLoopC charsToTrim rest idx true

/-- Loop of strings.go:289-298. -/
def trimRightLoopC (s : Bytes) (charsToTrim : RuneSet) :
    (fuel : Nat) → (i : Int) → (endIdx : Int) → (trimCharsExist : Bool) → Counted (Go (Int × Bool × Bool))
  | 0, _, _, _ => ret (.error .outOfFuel)
  | fuel + 1, i, endIdx, trimCharsExist =>
    if i > 0 then step 1 <|
      (ret (slice s 0 i)).andThen fun t =>
      let d := decodeLastRune t
      if !charsToTrim.exists d.1 then ret (.ok (i, trimCharsExist, true))
      else trimRightLoopC s charsToTrim fuel (i - d.2) i true
    else ret (.ok (endIdx, trimCharsExist, false))

/-- strings.go:285-306: the right-hand half of `fastTrim`. -/
def fastTrimRightC (s : Bytes) (charsToTrim : RuneSet) (mode : TrimMode) (startIdx : Int) : Counted (Go Bytes) :=
  if mode ≠ .trimLeft then
    (trimRightLoopC s charsToTrim (s.length + 1) s.length 0 false).andThen fun r =>
    if r.2.1 && !r.2.2 then ret (.ok [])
    else ret (slice s startIdx r.1)
  else ret (slice s startIdx s.length)

/-- strings.go:266-307 `fastTrim`. -/
def fastTrimC (s : Bytes) (charsToTrim : RuneSet) (mode : TrimMode) : Counted (Go Bytes) :=
  if mode ≠ .trimRight then
    (trimLeftLoopC charsToTrim (rangeString s) 0 false).bind fun r =>
    if r.2.1 && !r.2.2 then ret (.ok [])
    else fastTrimRightC s charsToTrim mode r.1
  else fastTrimRightC s charsToTrim mode 0

/-- Loop of net.go:19-24 and the code after it. -/
def dtoiLoopC : Bytes → Nat → Nat → Counted (Nat × Nat × Bool)
  | [], n, i => ret (if i = 0 then (0, 0, false) else (n, i, true))
  | c :: rest, n, i => step 1 <|
    if 48 ≤ c.toNat ∧ c.toNat ≤ 57 then
      if n * 10 + (c.toNat - 48) ≥ big then ret (big, i, false)
      else dtoiLoopC rest (n * 10 + (c.toNat - 48)) (i + 1)
    else ret (if i = 0 then (0, 0, false) else (n, i, true))

/-- net.go:17-29 `dtoi`. -/
def dtoiC (s : Bytes) : Counted (Nat × Nat × Bool) := dtoiLoopC s 0 0

/-- Loop of net.go:35-51 and the code after it. -/
def xtoiLoopC : Bytes → Nat → Nat → Counted (Nat × Nat × Bool)
  | [], n, i => ret (if i = 0 then (0, i, false) else (n, i, true))
  | c :: rest, n, i => step 1 <|
    match hexVal c with
    | some d =>
      if n * 16 + d ≥ big then ret (0, i, false)
      else xtoiLoopC rest (n * 16 + d) (i + 1)
    | none => ret (if i = 0 then (0, i, false) else (n, i, true))

/-- net.go:33-56 `xtoi`. -/
def xtoiC (s : Bytes) : Counted (Nat × Nat × Bool) := xtoiLoopC s 0 0

/-- Loop of net.go:63-84 and line 85. -/
def isIPv4LoopC : (k : Nat) → (i : Nat) → Bytes → Counted (Go Bool)
  | 0, _, s => ret (.ok (s.length = 0))
  | k + 1, i, s => step 1 <|
    if s.length = 0 then ret (.ok false)
    else
      let d := decodeRune s
      if i > 0 && !labelSeparatorsRuneSet.exists d.1 then ret (.ok false)
      else
        (ret (if i > 0 then slice s d.2 s.length else .ok s)).andThen fun s' =>
        (dtoiC s').bind fun r =>
        if r.2.2 = false ∨ r.1 > 0xFF then ret (.ok false)
        else
          (ret (if r.2.1 > 1 then index s' 0 else .ok 0)).andThen fun b0 =>
          if r.2.1 > 1 ∧ b0 = 48 then ret (.ok false)
          else (ret (slice s' r.2.1 s'.length)).andThen fun s'' => isIPv4LoopC k (i + 1) s''

/-- net.go:61-86 `isIPv4`. -/
def isIPv4C (s : Bytes) : Counted (Go Bool) :=
  (fastTrimC s labelSeparatorsRuneSet .trimRight).andThen fun t => isIPv4LoopC iPv4len 0 t

/-- Loop of net.go:105-155.  Line 113 makes a slice of runes of all that is left, to look at the first one. -/
def isIPv6LoopC : (fuel : Nat) → Bytes → (i : Nat) → (ellipsis : Int) → Counted (Go Bool)
  | 0, _, _, _ => ret (.error .outOfFuel)
  | fuel + 1, s, i, ellipsis =>
    if i < iPv6len then step 1 <|
      (xtoiC s).bind fun r =>
      if r.2.2 = false ∨ r.1 > 0xFFFF then ret (.ok false)
      else
        (if r.2.1 < s.length then
           (ret (slice s r.2.1 s.length)).andThen fun t => step t.length <| ret (firstIsSeparator t)
         else ret (.ok false)).andThen fun isSep =>
        if isSep then
          if ellipsis < 0 ∧ i ≠ lenDiff then ret (.ok false)
          else if i > lenDiff then ret (.ok false)
          else (isIPv4C s).andThen fun ok4 =>
            if !ok4 then ret (.ok false)
            else ret (.ok (isIPv6Finish [] (i + iPv4len) ellipsis))
        else
          (ret (slice s r.2.1 s.length)).andThen fun s1 =>
          if s1.length = 0 then ret (.ok (isIPv6Finish s1 (i + 2) ellipsis))
          else (ret (index s1 0)).andThen fun c0 =>
            if c0 ≠ 58 ∨ s1.length = 1 then ret (.ok false)
            else (ret (slice s1 1 s1.length)).andThen fun s2 =>
              (ret (index s2 0)).andThen fun c1 =>
              if c1 = 58 then
                if ellipsis ≥ 0 then ret (.ok false)
                else (ret (slice s2 1 s2.length)).andThen fun s3 =>
                  if s3.length = 0 then ret (.ok (isIPv6Finish s3 (i + 2) ((i : Int) + 2)))
                  else isIPv6LoopC fuel s3 (i + 2) ((i : Int) + 2)
              else isIPv6LoopC fuel s2 (i + 2) ellipsis
    else ret (.ok (isIPv6Finish s i ellipsis))

/-- net.go:90-173 `isIPv6`. -/
def isIPv6C (s : Bytes) : Counted (Go Bool) :=
  if s.length ≥ 2 then
    (ret (index s 0)).andThen fun c0 => (ret (index s 1)).andThen fun c1 =>
    if c0 = 58 ∧ c1 = 58 then
      (ret (slice s 2 s.length)).andThen fun s' =>
      if s'.length = 0 then ret (.ok true)
      else isIPv6LoopC 9 s' 0 0
    else isIPv6LoopC 9 s 0 (-1)
  else isIPv6LoopC 9 s 0 (-1)

/-- fasttld.go:147-150: scheme. -/
def stageSchemeC (netloc : Bytes) (u : ExtractResult) : Counted (Go (ExtractResult × Bytes)) :=
  (schemeLoopC netloc.length netloc 0 false 0).bind fun schemeEndIndex =>
  if schemeEndIndex ≠ -1 then
    (ret (slice netloc 0 schemeEndIndex)).andThen fun sch =>
    (ret (slice netloc schemeEndIndex netloc.length)).andThen fun rest =>
    ret (.ok ({ u with scheme := sch }, rest))
  else ret (.ok (u, netloc))

/-- fasttld.go:153-156: userinfo. -/
def stageUserInfoC (netloc : Bytes) (u : ExtractResult) : Counted (Go (ExtractResult × Bytes)) :=
  (indexLastByteBeforeC netloc 64 invalidUserInfoCharsSet).andThen fun atIdx =>
  if atIdx ≠ -1 then
    (ret (slice netloc 0 atIdx)).andThen fun ui =>
    (ret (slice netloc (atIdx + 1) netloc.length)).andThen fun rest =>
    ret (.ok ({ u with userInfo := ui }, rest))
  else ret (.ok (u, netloc))

/-- fasttld.go:163-199: loop over `[]byte(netloc)`. -/
def scanLoopC (n : Nat) : Bytes → (i : Nat) → (opening closing : Int) → Counted Scan
  | [], _, opening, closing => ret (.done opening closing (-1))
  | r :: rest, i, opening, closing => step 1 <|
    if r = 91 ∧ i > 0 then ret (.err .openingBracketNotFirst)
    else
      let opening := if r = 91 then (i : Int) else opening
      let closing := if r = 93 then (i : Int) else closing
      if opening = -1 then
        if closing ≠ -1 then ret (.err .closingWithoutOpening)
        else if endOfHostDelimitersSet.contains r then ret (.done opening closing i)
        else if (i : Int) = (n : Int) - 1 ∧ closing < opening then ret (.err .incompleteBrackets)
        else scanLoopC n rest (i + 1) opening closing
      else if closing > opening ∧ endOfHostWithPortDelimitersSet.contains r then ret (.done opening closing i)
      else if (i : Int) = (n : Int) - 1 ∧ closing < opening then ret (.err .incompleteBrackets)
      else scanLoopC n rest (i + 1) opening closing

/-- fasttld.go:207-224: IPv6 check. -/
def stageIPv6C (netloc : Bytes) (opening closing hostEnd : Int) (u : ExtractResult) : Counted (M ExtractResult) :=
  if closing > opening then
    (ret (liftGo (slice netloc 1 closing))).andThen fun inner =>
    (lift (isIPv6C inner)).andThen fun ok6 =>
    if !ok6 then ret (fail u .invalidIPv6)
    else
      (if hostEnd ≠ -1 then
        (ret (liftGo (slice netloc hostEnd netloc.length))).andThen fun afterHost =>
        (indexAnyASCIIC afterHost endOfHostDelimitersSet).bind fun k =>
        if k ≠ 0 then ret (fail u .trailingAfterIPv6) else ret (.ok ())
      else ret (.ok ())).andThen fun _ =>
      ret (.ok { u with hostType := .iPv6, domain := inner, registeredDomain := inner })
  else ret (.ok u)

/-- fasttld.go:233-255: Port and Path. -/
def stagePortPathC (afterHost : Bytes) (u : ExtractResult) : Counted (M ExtractResult) :=
  if afterHost.length ≠ 0 then
    (indexAnyASCIIC afterHost endOfHostWithPortDelimitersSet).bind fun pathStartIndex =>
    (ret (liftGo (index afterHost 0))).andThen fun c0 =>
    (if c0 = 58 then
      (ret (if pathStartIndex = -1 then liftGo (slice afterHost 1 afterHost.length)
       else liftGo (slice afterHost 1 pathStartIndex))).andThen fun maybePort =>
      step maybePort.length <|
      if portOK maybePort then ret (.ok { u with port := maybePort })
      else ret (fail u .invalidPort)
     else ret (.ok u)).andThen fun u =>
    if pathStartIndex ≠ -1 ∧ pathStartIndex ≠ afterHost.length then
      (ret (liftGo (slice afterHost pathStartIndex afterHost.length))).andThen fun p => ret (.ok { u with path := p })
    else ret (.ok u)
  else ret (.ok u)

/-- fasttld.go:261-275: percent-decoding check and IDNA. -/
def stageIdnaC (idna : Idna) (e : URLParams) (netloc : Bytes) (u : ExtractResult) : Counted (M Bytes) :=
  step (2 * netloc.length) <|
  match queryUnescape netloc with
  | .error esc => ret (fail u (.badEscape esc))
  | .ok unescaped =>
    if e.convertURLToPunyCode then ret (.ok (formatAsPunycode idna unescaped))
    else match idna.toUnicodeErr unescaped with
      | some msg => ret (fail u (.idna msg))
      | none => ret (.ok netloc)

/-- `matches.Get(key)`, fasttld.go:309, 312, 320. -/
def getC (node : Trie) (key : Bytes) : Counted (Option Trie) := step (1 + key.length) <| ret (node.get key)

/-- fasttld.go:309-337 of one iteration. -/
def walkLabelC (netloc : Bytes) (node : Trie) (label : Bytes) (isLast : Bool) (w : Walk)
    (continue_ : Trie → Walk → Counted (M Walk)) : Counted (M Walk) :=
  (getC node (b! "*")).bind fun star =>
  match star with
  | some _ => step (1 + label.length) <|
    (getC node (33 :: label)).bind fun exc =>
    match exc with
    | some _ => ret (.ok { w with sepIdx := w.previousSepIdx })
    | none => ret (.ok w)
  | none => step (2 * label.length) <|
    (getC node (unescapeOrEmpty label)).bind fun val =>
    match val with
    | some val =>
      let w := { w with suffixStartIdx := w.sepIdx }
      let w := if !w.hasSuffix && val.isEnd then
          { w with suffixEndIdx := w.previousSepIdx, hasSuffix := true } else w
      if val.kids.length = 0 then ret (.ok w)
      else if isLast then ret (.ok w)
      else continue_ val w
    | none =>
      if w.previousSepIdx ≠ netloc.length then ret (.ok { w with sepIdx := w.previousSepIdx })
      else ret (.ok w)

/-- fasttld.go:288-338: the suffix loop. -/
def walkLoopC (netloc : Bytes) (u : ExtractResult) :
    (fuel : Nat) → (node : Trie) → (hasLabels : Bool) → Walk → Counted (M Walk)
  | 0, _, _, _ => ret (.error (.fault .outOfFuel))
  | fuel + 1, node, hasLabels, w => step 1 <|
    let previousSepIdx := w.sepIdx
    (ret (liftGo (slice netloc 0 w.sepIdx))).andThen fun pre =>
    (lift (lastIndexAnyC pre labelSeparatorsRuneSet)).andThen fun sepIdx =>
    if sepIdx ≠ -1 then
      (ret (liftGo (index netloc sepIdx))).andThen fun b =>
      (ret (liftGo (slice netloc (sepIdx + sepSize b) previousSepIdx))).andThen fun label =>
      if label.length = 0 then
        if !hasLabels then
          walkLoopC netloc u fuel node hasLabels
            { w with previousSepIdx := previousSepIdx, sepIdx := sepIdx, suffixEndIdx := sepIdx }
        else ret (fail u .consecutiveSeparators)
      else
        walkLabelC netloc node label false
          { w with previousSepIdx := previousSepIdx, sepIdx := sepIdx }
          (fun node w => walkLoopC netloc u fuel node true w)
    else
      (ret (liftGo (slice netloc 0 previousSepIdx))).andThen fun label =>
      walkLabelC netloc node label true
        { w with previousSepIdx := previousSepIdx, sepIdx := sepIdx }
        (fun _ w => ret (.ok w))

/-- fasttld.go:340-348: IPv4 check. -/
def stageIPv4C (netloc : Bytes) (w : Walk) (u : ExtractResult) : Counted (Go (Option ExtractResult)) :=
  if netloc.length ≥ 7 then
    (ret (index netloc 0)).andThen fun c0 =>
    if numericSet.contains c0 then
      (isIPv4C netloc).andThen fun ok4 =>
      if ok4 then
        (ret (slice netloc 0 w.previousSepIdx)).andThen fun d =>
        ret (.ok (some { u with hostType := .iPv4, domain := d, registeredDomain := d }))
      else ret (.ok none)
    else ret (.ok none)
  else ret (.ok none)

/-- fasttld.go:350-364: normalise `sepIdx`, reject invalid characters. -/
def stageCheckCharsC (netloc : Bytes) (w : Walk) (u : ExtractResult) : Counted (M Walk) :=
  let w := if w.sepIdx = -1 then
      { w with sepIdx := netloc.length, suffixStartIdx := netloc.length } else w
  (ret (liftGo (slice netloc 0 (if w.hasSuffix then w.suffixStartIdx else w.previousSepIdx)))).andThen fun checked =>
  (hasInvalidCharsC checked).bind fun bad =>
  if bad then ret (fail u .invalidCharacters)
  else ret (.ok w)

/-- fasttld.go:366-390: Domain, Suffix, RegisteredDomain. -/
def stageNamesC (netloc : Bytes) (w : Walk) (u : ExtractResult) : Counted (Go (ExtractResult × Int)) :=
  if w.hasSuffix then
    if w.sepIdx < netloc.length then
      (ret (index netloc w.sepIdx)).andThen fun b =>
      (ret (slice netloc (w.sepIdx + sepSize b) w.suffixEndIdx)).andThen fun suf =>
      (ret (slice netloc 0 w.sepIdx)).andThen fun pre =>
      (lastIndexAnyC pre labelSeparatorsRuneSet).andThen fun domainStartSepIdx =>
      if domainStartSepIdx ≠ -1 then
        (ret (index netloc domainStartSepIdx)).andThen fun b2 =>
        let domainStartIdx := domainStartSepIdx + sepSize b2
        (ret (slice netloc domainStartIdx w.sepIdx)).andThen fun dom =>
        (ret (slice netloc domainStartIdx w.suffixEndIdx)).andThen fun reg =>
        ret (.ok ({ u with suffix := suf, domain := dom, registeredDomain := reg }, domainStartSepIdx))
      else
        (ret (slice netloc 0 w.suffixEndIdx)).andThen fun reg =>
        ret (.ok ({ u with suffix := suf, domain := pre, registeredDomain := reg }, domainStartSepIdx))
    else
      (ret (slice netloc 0 w.suffixEndIdx)).andThen fun suf =>
      ret (.ok ({ u with suffix := suf }, 0))
  else
    (ret (slice netloc 0 w.suffixEndIdx)).andThen fun pre =>
    (lastIndexAnyC pre labelSeparatorsRuneSet).andThen fun domainStartSepIdx =>
    (ret (if domainStartSepIdx ≠ -1 then
      (index netloc domainStartSepIdx) >>= fun b2 => .ok (domainStartSepIdx + sepSize b2)
     else .ok 0)).andThen fun domainStartIdx =>
    (ret (slice netloc domainStartIdx w.suffixEndIdx)).andThen fun dom =>
    ret (.ok ({ u with domain := dom }, domainStartSepIdx))

/-- fasttld.go:277-399: everything after the host text is final. -/
def stageHostC (tldTrie : Trie) (e : URLParams) (netloc : Bytes) (u : ExtractResult) :
    Counted (M (ExtractResult × Option Err)) :=
  let n : Int := netloc.length
  (walkLoopC netloc u (netloc.length + 2) tldTrie false
    { hasSuffix := false, previousSepIdx := 0, sepIdx := n, suffixStartIdx := n, suffixEndIdx := n }).andThen fun w =>
  (lift (stageIPv4C netloc w u)).andThen fun ip4 =>
  match ip4 with
  | some u4 => ret (.ok (u4, none))
  | none =>
    (stageCheckCharsC netloc w u).andThen fun w =>
    (lift (stageNamesC netloc w u)).andThen fun r =>
    (ret (liftGo (stageSubDomain e netloc r.2 r.1))).andThen fun u =>
    if u.domain.length = 0 then ret (fail u .emptyDomain)
    else ret (.ok ({ u with hostType := .hostName }, none))

/-- fasttld.go:142-400. -/
def extractC (idna : Idna) (tldTrie : Trie) (e : URLParams) : Counted (M (ExtractResult × Option Err)) :=
  (lift (fastTrimC e.url whitespaceRuneSet .trimBoth)).andThen fun netloc =>
  (lift (stageSchemeC netloc {})).andThen fun r =>
  (lift (stageUserInfoC r.2 r.1)).andThen fun r =>
  let u := r.1
  let netloc := r.2
  step netloc.length <|
  (scanLoopC netloc.length netloc 0 (-1) (-1)).bind fun sc =>
  match sc with
  | .err er => ret (fail u er)
  | .done opening closing hostEnd =>
    let hostEnd := adjustHostEnd netloc.length closing hostEnd
    (stageIPv6C netloc opening closing hostEnd u).andThen fun u =>
    (ret (liftGo (stageSplit netloc hostEnd))).andThen fun hs =>
    (stagePortPathC hs.2 u).andThen fun u =>
    if u.hostType = .iPv6 then ret (.ok (u, none))
    else
      (stageIdnaC idna e hs.1 u).andThen fun netloc =>
      stageHostC tldTrie e netloc u

/-- The number of steps of `Extract`. -/
def work (idna : Idna) (tldTrie : Trie) (e : URLParams) : Nat := (extractC idna tldTrie e).n

end Fasttld
