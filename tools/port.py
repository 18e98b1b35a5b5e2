"""A second translation of Extract, made from /repo/fasttld.go, strings.go and net.go
by the author of the model, who knew the model: not a second opinion on what the Go text means.

It follows the Go text statement by statement, with Python bytes for strings and a check for every index and slice.
tools/gen_port_tests.py compares it with the model on random URLs.  This is a test of the model, not a proof.
"""
class Panic(Exception): pass
class Trie:
    def __init__(self): self.matches, self.end = {}, False
def sl(s, a, b):
    if not (0 <= a <= b <= len(s)): raise Panic((s, a, b))
    return s[a:b]
def at(s, i):
    if not (0 <= i < len(s)): raise Panic((s, i))
    return s[i]
# utf8
def decode(s):
    """utf8.DecodeRuneInString"""
    if not s: return 0xFFFD, 0
    for n in (1, 2, 3, 4):
        if n <= len(s):
            try:
                t = s[:n].decode("utf-8")
                if len(t) == 1: return ord(t), n
            except UnicodeDecodeError: pass
    return 0xFFFD, 1
def decode_last(s):
    """utf8.DecodeLastRuneInString"""
    if not s: return 0xFFFD, 0
    for n in (1, 2, 3, 4):
        if n <= len(s):
            try:
                t = s[-n:].decode("utf-8")
                if len(t) == 1: return ord(t), n
            except UnicodeDecodeError: pass
    return 0xFFFD, 1
def rng(s):
    i = 0
    while i < len(s):
        c, n = decode(s[i:])
        yield i, c
        i += n
# strings.go
alphabets = "ABCDEFGHIJKLMNOPQRSTUVWXYZabcdefghijklmnopqrstuvwxyz"
numbers = "0123456789"
labelSeparators = "\u002e\u3002\uff0e\uff61"
controlChars = "".join(chr(i) for i in range(0x20))
whitespace = controlChars + " \u0085\u0086\u00a0\u1680\u200b\u200c\u200d\uFEFF"
invalidHostNameChars = whitespace + "!\"#$&'()*+,/:;<=>?@[\\]^_`{|}~\u0378\u04c0\u06dd\u180e\u2025\u202e\u206b\u2183\u2a74\u2ff0\ufdd0\uff05\uff0f\uff1a\ufffa"
endOfHostWithPortDelimiters = r'/\?#'
endOfHostDelimiters = endOfHostWithPortDelimiters + ":"
invalidUserInfoChars = endOfHostWithPortDelimiters + "[]"
mk = lambda t: frozenset(ord(c) for c in t if ord(c) < 0x80)
rs = lambda t: frozenset(ord(c) for c in t)
numericSet, alphaNumericSet = mk(numbers), mk(alphabets + numbers)
eohp, eoh, badUser = mk(endOfHostWithPortDelimiters), mk(endOfHostDelimiters), mk(invalidUserInfoChars)
schemeFirst, schemeRest, slashes = mk(alphabets), mk(alphabets + numbers + "+-."), mk("/\\")
SEP, WS, BAD = rs(labelSeparators), rs(whitespace), rs(invalidHostNameChars)
def getSchemeEndIndex(s):
    colon, slashCount = False, 0
    for i in range(len(s)):
        if i == 0:
            if s[i] in schemeFirst: continue
            if s[i] in slashes: slashCount += 1; continue
            return -1
        if slashCount == 0:
            if not colon:
                if s[i] in schemeRest: continue
                if s[i] == ord(':'): colon = True; continue
            if s[i] in slashes: slashCount += 1; continue
            return -1
        if s[i] in slashes: slashCount += 1; continue
        if slashCount < 2: return -1
        return i
    return len(s) if slashCount >= 2 else -1
def indexAnyASCII(s, a):
    for i, b in enumerate(s):
        if b in a: return i
    return -1
def hasInvalidChars(s):
    isSep = False
    last = len(s) - 1
    for idx, c in rng(s):
        if (c & 0xFF) in alphaNumericSet: isSep = False; continue
        if idx == 0 and (c == ord('-') or c in SEP): return True
        if idx == last and c == ord('-'): return True
        if c in SEP:
            if isSep: return True
            isSep = True
        else: isSep = False
        if c in BAD: return True
    return False
def lastIndexAny(s, chars):
    i = len(s)
    while i > 0:
        r, size = decode_last(sl(s, 0, i))
        i -= size
        if r in chars: return i
    return -1
def sepSize(b): return 1 if b == 46 else 3
def indexLastByteBefore(s, b, notAfter):
    f = indexAnyASCII(s, notAfter)
    return (sl(s, 0, f) if f != -1 else s).rfind(bytes([b]))
def fastTrim(s, chars, mode):
    startIdx = endIdx = 0
    if mode != "right":
        exist = broken = False
        for idx, c in rng(s):
            startIdx = idx
            if c not in chars: broken = True; break
            exist = True
        if exist and not broken: return b""
    if mode != "left":
        exist = broken = False
        i = len(s)
        while i > 0:
            endIdx = i
            r, size = decode_last(sl(s, 0, i))
            i -= size
            if r not in chars: broken = True; break
            exist = True
        if exist and not broken: return b""
    else: endIdx = len(s)
    return sl(s, startIdx, endIdx)
# net.go
big = 0xFFFFFF
def dtoi(s):
    n = i = 0
    while i < len(s) and 48 <= s[i] <= 57:
        n = n * 10 + s[i] - 48
        if n >= big: return big, i, False
        i += 1
    return (0, 0, False) if i == 0 else (n, i, True)
def xtoi(s):
    n = i = 0
    while i < len(s):
        c = s[i]
        if 48 <= c <= 57: n = n * 16 + c - 48
        elif 97 <= c <= 102: n = n * 16 + c - 97 + 10
        elif 65 <= c <= 70: n = n * 16 + c - 65 + 10
        else: break
        if n >= big: return 0, i, False
        i += 1
    return (0, i, False) if i == 0 else (n, i, True)
def isIPv4(s):
    s = fastTrim(s, SEP, "right")
    for i in range(4):
        if len(s) == 0: return False
        if i > 0:
            r, size = decode(s)
            if r not in SEP: return False
            s = sl(s, size, len(s))
        n, c, ok = dtoi(s)
        if not ok or n > 0xFF: return False
        if c > 1 and at(s, 0) == 48: return False
        s = sl(s, c, len(s))
    return len(s) == 0
def isIPv6(s):
    ellipsis = -1
    if len(s) >= 2 and s[0] == 58 and s[1] == 58:
        ellipsis = 0
        s = s[2:]
        if len(s) == 0: return True
    i = 0
    while i < 16:
        n, c, ok = xtoi(s)
        if not ok or n > 0xFFFF: return False
        if c < len(s) and decode(s[c:])[0] in SEP:
            if ellipsis < 0 and i != 12: return False
            if i > 12: return False
            if not isIPv4(s): return False
            s = b""
            i += 4
            break
        i += 2
        s = sl(s, c, len(s))
        if len(s) == 0: break
        if s[0] != 58 or len(s) == 1: return False
        s = s[1:]
        if at(s, 0) == 58:
            if ellipsis >= 0: return False
            ellipsis = i
            s = s[1:]
            if len(s) == 0: break
    if len(s) != 0: return False
    if i < 16:
        if ellipsis < 0: return False
    elif ellipsis >= 0: return False
    return True
# net/url QueryUnescape, strconv.Atoi
def ishex(c): return chr(c) in "0123456789abcdefABCDEF"
def queryUnescape(s):
    """(result, error); error is the text of url.EscapeError"""
    out, i = bytearray(), 0
    while i < len(s):
        if s[i] == 37:
            if i + 2 >= len(s) or not ishex(s[i+1]) or not ishex(s[i+2]):
                return b"", s[i:i+3]
            i += 3
        else: i += 1
    i = 0
    while i < len(s):
        if s[i] == 37: out.append(int(s[i+1:i+3], 16)); i += 3
        elif s[i] == 43: out.append(32); i += 1
        else: out.append(s[i]); i += 1
    return bytes(out), None
def atoi(s):
    t = s[1:] if s[:1] in (b"+", b"-") else s
    if not t or any(not 48 <= c <= 57 for c in t): return None
    n = int(t) * (-1 if s[:1] == b"-" else 1)
    return n if -2**63 <= n < 2**63 else None
# fasttld.go
def trieConstruct(suffixList):
    t = Trie()
    for suffix in suffixList:
        dic = t
        for key in reversed(suffix.split(b".")):
            if key not in dic.matches: dic.matches[key] = Trie()
            dic = dic.matches[key]
        dic.end = True
    for v in t.matches.values():
        if b"*" in v.matches: v.end = True
    return t
FIELDS = ["Scheme", "UserInfo", "SubDomain", "Domain", "Suffix", "RegisteredDomain", "Port", "Path"]
def extract(idna, trie, url, ignoreSub, puny):
    """idna: (lookupASCII: bytes -> bytes or None, toUnicodeErr: bytes -> text or None). Returns (parts, error)."""
    u = {f: b"" for f in FIELDS}; u["HostType"] = "none"
    netloc = fastTrim(url, WS, "both")
    e = getSchemeEndIndex(netloc)
    if e != -1:
        u["Scheme"] = sl(netloc, 0, e); netloc = sl(netloc, e, len(netloc))
    a = indexLastByteBefore(netloc, 64, badUser)
    if a != -1:
        u["UserInfo"] = sl(netloc, 0, a); netloc = sl(netloc, a + 1, len(netloc))
    opening = closing = hostEnd = -1
    for i, r in enumerate(netloc):
        if r == 91:
            if i > 0: return u, "openingBracketNotFirst"
            opening = i
        if r == 93: closing = i
        if opening == -1:
            if closing != -1: return u, "closingWithoutOpening"
            if r in eoh: hostEnd = i; break
        elif closing > opening and r in eohp: hostEnd = i; break
        if i == len(netloc) - 1 and closing < opening: return u, "incompleteBrackets"
    if closing == len(netloc) - 1: hostEnd = -1
    elif closing != -1: hostEnd = closing + 1
    if closing > opening:
        if not isIPv6(sl(netloc, 1, closing)): return u, "invalidIPv6"
        if hostEnd != -1:
            if indexAnyASCII(sl(netloc, hostEnd, len(netloc)), eoh) != 0: return u, "trailingAfterIPv6"
        u["HostType"] = "iPv6"
        u["Domain"] = u["RegisteredDomain"] = sl(netloc, 1, closing)
    after = b""
    if hostEnd != -1:
        after = sl(netloc, hostEnd, len(netloc)); netloc = sl(netloc, 0, hostEnd)
    if after:
        p = indexAnyASCII(after, eohp)
        if at(after, 0) == 58:
            port = sl(after, 1, len(after)) if p == -1 else sl(after, 1, p)
            n = atoi(port)
            if n is not None and 0 <= n <= 65535: u["Port"] = port
            else: return u, "invalidPort"
        if p != -1 and p != len(after): u["Path"] = sl(after, p, len(after))
    if u["HostType"] == "iPv6": return u, None
    un, err = queryUnescape(netloc)
    if err is not None: return u, ("badEscape", err)
    if puny:
        x = idna[0](un)
        netloc = b"" if x is None else x
    else:
        x = idna[1](un)
        if x is not None: return u, ("idna", x)
    node = trie
    hasSuffix = hasLabels = end = False
    prev = 0
    sep = sStart = sEnd = len(netloc)
    while not end:
        prev = sep
        sep = lastIndexAny(sl(netloc, 0, sep), SEP)
        if sep != -1:
            label = sl(netloc, sep + sepSize(at(netloc, sep)), prev)
            if len(label) == 0:
                if not hasLabels: sEnd = sep; continue
                return u, "consecutiveSeparators"
            hasLabels = True
        else:
            label = sl(netloc, 0, prev); end = True
        if b"*" in node.matches:
            if b"!" + label in node.matches: sep = prev
            break
        label, _ = queryUnescape(label)
        if label in node.matches:
            val = node.matches[label]
            sStart = sep
            if not hasSuffix and val.end: sEnd = prev; hasSuffix = True
            node = val
            if len(val.matches) == 0: break
        else:
            if prev != len(netloc): sep = prev
            break
    if len(netloc) >= 7 and netloc[0] in numericSet and isIPv4(netloc):
        u["HostType"] = "iPv4"
        u["Domain"] = u["RegisteredDomain"] = sl(netloc, 0, prev)
        return u, None
    if sep == -1: sep = sStart = len(netloc)
    if hasInvalidChars(sl(netloc, 0, sStart if hasSuffix else prev)): return u, "invalidCharacters"
    dsep = 0
    if hasSuffix:
        if sep < len(netloc):
            u["Suffix"] = sl(netloc, sep + sepSize(at(netloc, sep)), sEnd)
            dsep = lastIndexAny(sl(netloc, 0, sep), SEP)
            if dsep != -1:
                d = dsep + sepSize(at(netloc, dsep))
                u["Domain"] = sl(netloc, d, sep); u["RegisteredDomain"] = sl(netloc, d, sEnd)
            else:
                u["Domain"] = sl(netloc, 0, sep); u["RegisteredDomain"] = sl(netloc, 0, sEnd)
        else: u["Suffix"] = sl(netloc, 0, sEnd)
    else:
        dsep = lastIndexAny(sl(netloc, 0, sEnd), SEP)
        d = 0
        if dsep != -1: d = dsep + sepSize(at(netloc, dsep))
        u["Domain"] = sl(netloc, d, sEnd)
    if not ignoreSub and dsep != -1: u["SubDomain"] = sl(netloc, 0, dsep)
    if len(u["Domain"]) == 0: return u, "emptyDomain"
    u["HostType"] = "hostName"
    return u, None
