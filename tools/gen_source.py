#!/usr/bin/env python3
"""Write lean/Verif/Model/Source.lean: functions of /repo in the syntax of Model/GoLang.lean, and their tokens.

usage: gen_source.py [--check] [--repo DIR] [--out FILE]

A lexer and a parser for the part of Go that is used.  Lean compares the tokens that belong to the syntax tree with those
that the lexer found (Model/GoText.lean), and checks the places of the variables.  It also writes Model/Files.lean, the
files themselves, and Lean's own lexer (Model/GoLex.lean) finds the same tokens in them.  So of this script only the copying
has to be trusted.  --check compares the files with what would be written; with --out only Source.lean is written.
"""
import pathlib, re, sys
args = sys.argv[1:]
check = "--check" in args
repo = pathlib.Path(args[args.index("--repo") + 1] if "--repo" in args else "/repo")
here = pathlib.Path(__file__).resolve().parent.parent
out = pathlib.Path(args[args.index("--out") + 1]) if "--out" in args else here / "lean/Verif/Model/Source.lean"

FUNCS = [("strings.go", ["makeASCIISet", "contains", "makeRuneSet", "getSchemeEndIndex", "indexAnyASCII", "hasInvalidChars", "lastIndexAny", "sepSize", "formatAsPunycode",
                         "indexLastByteBefore", "fastTrim", "reverse"]),
         ("net.go", ["dtoi", "xtoi", "isIPv4", "isIPv6"]),
         ("fasttld.go", ["Extract", "nestedDict", "trieConstruct", "New"]),
         ("psl.go", ["processLine", "getPublicSuffixList", "getHardcodedPublicSuffixList", "validPSLDelimiters", "newHardcodedPSL",
                     "downloadFile", "fileLastModifiedHours", "update", "checkCacheFile", "Update"]),
         ("print.go", ["PrintRes"])]
COMMANDS = [("cmd/fasttld/extract.go", "Run")]  # functions without name, in a structure
FLAGS = "includePrivateSuffix ignoreSubDomains toPunyCode".split()  # variables of cmd/fasttld
GLOBS = """labelSeparatorsRuneSet whitespaceRuneSet invalidHostNameCharsRuneSet numericSet alphaNumericSet
endOfHostWithPortDelimitersSet endOfHostDelimitersSet invalidUserInfoCharsSet schemeFirstCharSet schemeRemainingCharSet slashes
alphabets numbers labelSeparators controlChars whitespace invalidHostNameChars endOfHostWithPortDelimiters endOfHostDelimiters
invalidUserInfoChars trimBoth trimLeft trimRight iPv4len iPv6len lenDiff big largestPortNumber None HostName IPv4 IPv6
defaultPSLFileName pslMaxAgeHours publicSuffixListSources""".split()
FNS = {"len": "len", "byte": "byte", "int": "int", "utf8.DecodeRuneInString": "DecodeRuneInString",
       "utf8.DecodeLastRuneInString": "DecodeLastRuneInString", "strings.LastIndexByte": "LastIndexByte",
       "strings.SplitAfterN": "SplitAfterN", "strconv.Atoi": "Atoi", "url.QueryUnescape": "QueryUnescape",
       "idna.ToUnicode": "ToUnicode", "errors.New": "errorsNew", "log.Println": "Println",
       "idnaToPuny.ToASCII": "idnaToPunyToASCII", "string": "toStr", "append": "append", "intset.NewRune": "NewRune",
       "strings.TrimSpace": "TrimSpace", "strings.HasPrefix": "HasPrefix", "strings.Split": "Split", "idna.ToASCII": "ToASCII",
       "bytes.Contains": "Contains", "os.ReadFile": "ReadFile", "http.Get": "httpGet", "afero.ReadAll": "ReadAll",
       "fmt.Sprint": "Sprint", "filepath.Abs": "Abs", "os.Stat": "Stat", "os.OpenFile": "OpenFile", "afero.GetTempDir": "GetTempDir",
       "time.Now": "Now", "color.New": "colorNew", "log.Fatal": "Fatal"}
KNOWN = {"http.StatusOK": ".StatusOK", "os.O_CREATE": ".O_CREATE", "os.O_WRONLY": ".O_WRONLY"}
for a in "FgHiYellow Bold FgHiBlack FgHiWhite FgHiBlue FgHiRed".split(): KNOWN["color." + a] = f"(.attr .{a[0].lower()}{a[1:]})"
OWN = [f for _, fs in FUNCS for f in fs]
METHODS = """contains Exists Get Set Len Error Sub ModTime Hours IsDir Seek Write Close Open Update
Extract Print Println""".split()
METHOD_FNS = {"Println": "colorPrintln"}
FIELDS = """URL IgnoreSubDomains ConvertURLToPunyCode tldTrie matches end Scheme UserInfo SubDomain Domain Suffix RegisteredDomain
Port Path HostType publicSuffixes privateSuffixes allSuffixes StatusCode Body cacheFilePath includePrivateSuffix CacheFilePath
IncludePrivateSuffix""".split()

# ---------------------------------------------------------------- lexer
def unquote(t):
    """The bytes of an interpreted string literal (or the code point of a rune literal, as a list of code points)."""
    body, res, i = t[1:-1], [], 0
    simple = {"n": 10, "t": 9, "r": 13, "a": 7, "b": 8, "f": 12, "v": 11, "\\": 92, '"': 34, "'": 39}
    while i < len(body):
        if body[i] != "\\":
            res.append(("c", ord(body[i]))); i += 1; continue
        e = body[i + 1]
        if e in simple: res.append(("c", simple[e])); i += 2
        elif e == "x": res.append(("b", int(body[i + 2:i + 4], 16))); i += 4
        elif e == "u": res.append(("c", int(body[i + 2:i + 6], 16))); i += 6
        elif e == "U": res.append(("c", int(body[i + 2:i + 10], 16))); i += 10
        elif e in "01234567": res.append(("b", int(body[i + 1:i + 4], 8))); i += 4
        else: raise SystemExit("escape " + body[i:])
    return res

def lex(text):
    """Tokens with semicolons inserted at line ends, each with its line."""
    toks, i, line = [], 0, 1
    ops = ["<<=", ">>=", "&&", "||", "==", "!=", "<=", ">=", ":=", "+=", "-=", "*=", "|=", "++", "--", "<<", ">>", "..."] + list("+-*/%&|^<>=!()[]{},;.:")
    def ends():
        if not toks: return False
        k, v, _ = toks[-1]
        return k in ("int", "chr", "str") or (k == "id" and v not in ("if", "for", "else", "func", "var", "const", "range", "type",
            "struct", "package", "import", "map", "interface", "switch", "case", "default", "go", "defer", "select", "chan")) \
            or (k == "op" and v in ("++", "--", ")", "]", "}"))
    while i < len(text):
        c = text[i]
        if c == "\n":
            if ends(): toks.append(("op", ";", line))
            line += 1; i += 1
        elif c in " \t\r": i += 1
        elif text.startswith("//", i):
            while i < len(text) and text[i] != "\n": i += 1
        elif c == "`":
            j = text.index("`", i + 1)
            toks.append(("str", list(text[i + 1:j].replace("\r", "").encode()), line))
            line += text.count("\n", i, j); i = j + 1
        elif c == '"':
            j = i + 1
            while text[j] != '"': j += 2 if text[j] == "\\" else 1
            v = []
            for k, n in unquote(text[i:j + 1]): v += list(chr(n).encode()) if k == "c" else [n]
            toks.append(("str", v, line)); i = j + 1
        elif c == "'":
            j = i + 1
            while text[j] != "'": j += 2 if text[j] == "\\" else 1
            u = unquote(text[i:j + 1]); assert len(u) == 1
            toks.append(("chr", u[0][1], line)); i = j + 1
        elif c.isdigit():
            m = re.match(r"0[xX][0-9a-fA-F]+|[0-9]+", text[i:]); toks.append(("int", int(m.group(0), 8 if re.match("0[0-9]", m.group(0)) else 0), line)); i += len(m.group(0))
        elif c.isalpha() or c == "_":
            m = re.match(r"\w+", text[i:]); toks.append(("id", m.group(0), line)); i += len(m.group(0))
        else:
            for o in ops:
                if text.startswith(o, i): toks.append(("op", o, line)); i += len(o); break
            else: raise SystemExit(f"lex {line}: {text[i:i+20]!r}")
    return toks

# ---------------------------------------------------------------- parser
BIN = {"||": (1, "or"), "&&": (2, "and"), "==": (3, "eq"), "!=": (3, "ne"), "<": (3, "lt"), "<=": (3, "le"), ">": (3, "gt"),
       ">=": (3, "ge"), "+": (4, "add"), "-": (4, "sub"), "|": (4, "bitOr"), "*": (5, "mul"), "/": (5, "div"), "%": (5, "mod"),
       "<<": (5, "shl"), "&": (5, "bitAnd")}
TYPES = {("rune",): "rune", ("[", "]", "byte"): "byteSlice", ("suffixes",): "suffixes", ("*", "asciiSet"): "asciiSetPtr", ("bool",): "bool", ("int",): "int", ("byte",): "byte", ("string",): "string", ("error",): "error", ("asciiSet",): "asciiSet",
         ("*", "intset", ".", "Rune"): "intsetRune", ("trimMode",): "trimMode", ("HostType",): "HostType", ("*", "FastTLD"): "FastTLD",
         ("URLParams",): "URLParams", ("ExtractResult",): "ExtractResult",
         ("[", "]", "string"): "stringSlice", ("*", "trie"): "triePtr",
         ("hashmap", ".", "Map", "[", "string", ",", "*", "trie", "]"): "trieMap", ("float64",): "float64", ("os", ".", "FileInfo"): "osFileInfo",
         ("afero", ".", "File"): "aferoFile", ("SuffixListParams",): "SuffixListParams",
         ("*", "cobra", ".", "Command"): "cobraCommand"}

def lean_str(s): return '"' + s + '"'
def lean_bytes(v): return "[" + ", ".join(map(str, v)) + "]"

class Parser:
    def __init__(self, toks, name):
        self.t, self.i, self.name, self.scope, self.marks, self.loops, self.defs = toks, 0, name, [], [], 0, []
        self.flags = []
    def peek(self, k=0): return self.t[self.i + k][:2] if self.i + k < len(self.t) else (None, None)
    def at(self, v, k=0): return self.peek(k) in (("op", v), ("id", v)) and self.peek(k)[0] in ("op", "id")
    def take(self, v=None):
        k, x, line = self.t[self.i]
        if v is not None and x != v: raise SystemExit(f"{self.name} line {line}: {x!r} instead of {v!r}")
        self.i += 1
        return x
    def fail(self, msg): raise SystemExit(f"{self.name} line {self.t[self.i][2]}: {msg} at {self.t[self.i]}")
    def place(self, n):
        for k in range(len(self.scope) - 1, -1, -1):
            if self.scope[k] == n: return k
        return None
    def start(self):
        """Where the block begins; the parameters belong to the body of a function."""
        return 0 if len(self.marks) == 2 else self.marks[-1]
    def open(self): self.marks.append(len(self.scope))
    def close(self): del self.scope[self.marks.pop():]
    def new(self, ns):
        for n in ns:
            if n == "_": continue
            if n in self.scope[self.marks[-1]:]: self.fail("declared again: " + n)
            self.scope.append(n)

    # expressions
    def expr(self, p=1):
        a = self.unary()
        while True:
            k, o = self.peek()
            if k != "op" or o not in BIN or BIN[o][0] < p: return a
            self.take()
            b = self.expr(BIN[o][0] + 1)
            a = f"(.bin .{BIN[o][1]} {a} {b})"
    def unary(self):
        if self.at("!"): self.take(); return f"(.not {self.unary()})"
        if self.at("-"): self.take(); return f"(.neg {self.unary()})"
        if self.at("&") and self.at("FastTLD", 1):
            self.take(); self.take(); es = []
            for o, x in (("{", "cacheFilePath"), (",", "tldTrie"), (",", "includePrivateSuffix")):
                self.take(o); self.take(x); self.take(":"); es.append(self.expr())
            self.take("}")
            return f"(.newFastTLD {' '.join(es)})"
        if self.at("&") and self.at("}", 3):
            for x in ("&", "trie", "{", "}"): self.take(x)
            return ".zeroTrie"
        if self.at("&"):
            for x in ("&", "trie", "{", "matches", ":"): self.take(x)
            e = self.expr(); self.take("}")
            return f"(.newTrie {e})"
        return self.postfix()
    def exprs(self, end):
        es = []
        while not self.at(end):
            e = self.expr()
            if self.at("..."): self.take(); e = f"(.spreadArg {e})"
            es.append(e)
            if self.at(","): self.take()
        return es
    def literal(self, fields):
        """A structure with these fields, after its name."""
        es = []
        for k, x in enumerate(fields):
            self.take("," if k else "{"); self.take(x); self.take(":"); es.append(self.expr())
        self.take("}")
        return " ".join(es)
    def call(self, f, first=()):
        self.take("("); es = list(first) + self.exprs(")"); self.take(")")
        return f"(.call .{f} [{', '.join(es)}])"
    def postfix(self):
        k, x = self.peek()
        if k == "int": self.take(); e = f"(.intLit {x})"
        elif k == "chr": self.take(); e = f"(.charLit {x})"
        elif k == "str": self.take(); e = f"(.strLit {lean_bytes(x)})"
        elif self.at("("): self.take(); e = f"(.paren {self.expr()})"; self.take(")")
        elif self.at("["):
            self.take(); self.take("]"); t = self.take()
            if t == "color":
                for y in (".", "Attribute", "{"): self.take(y)
                e = f"(.attributes [{', '.join(self.exprs('}'))}])"; self.take("}")
            else: e = self.call({"byte": "toBytes", "rune": "toRunes"}[t])
        elif k == "id":
            self.take()
            p = self.place(x)
            if p is not None: e = f"(.var {p} {lean_str(x)})"
            elif x in ("true", "false"): e = f"(.boolLit {x})"
            elif x == "nil": e = ".nil"
            elif x == "ExtractResult" and self.at("{"): self.take(); self.take("}"); e = ".zeroResult"
            elif x == "hardcodedPSL": e = ".hardcodedPSL"
            elif x == "utf8" and self.peek(1)[1] == "RuneSelf": self.take(); self.take(); e = ".runeSelf"
            elif x == "new":
                for y in ("(", "afero", ".", "OsFs", ")"): self.take(y)
                e = ".newOsFs"
            elif self.at(".") and x + "." + self.peek(1)[1] in KNOWN: self.take(); e = f"(.known {KNOWN[x + '.' + self.take()]})"
            elif x == "fasttld" and self.at("."):
                self.take(); y = self.take()
                if y == "SuffixListParams": e = f"(.inPackage (.newListParams {self.literal(['IncludePrivateSuffix'])}))"
                elif y == "URLParams": e = f"(.inPackage (.newParams {self.literal(['URL', 'IgnoreSubDomains', 'ConvertURLToPunyCode'])}))"
                elif self.at("(") and y in OWN: e = f"(.inPackage {self.call(y)})"
                else: self.fail("unknown " + y)
            elif x in self.flags: e = f"(.glob .{x})"
            elif x in GLOBS: e = f"(.glob .{x})"
            elif self.at("(") and (x in FNS or x in OWN): e = self.call(FNS.get(x, x))
            elif self.at(".") and x + "." + self.peek(1)[1] in FNS: self.take(); e = self.call(FNS[x + "." + self.take()])
            else: self.fail("unknown " + x)
        else: self.fail("expression")
        while True:
            if self.at("["):
                self.take(); lo = self.expr()
                if self.at(":"):
                    self.take()
                    if self.at("]"): e = f"(.sliceFrom {e} {lo})"
                    else: e = f"(.slice {e} {lo} {self.expr()})"
                else: e = f"(.index {e} {lo})"
                self.take("]")
            elif self.at("."):
                self.take(); f = self.take()
                m = re.fullmatch(r"\(\.var (\d+) (\S+)\)", e)
                if self.at("(") and f == "Set" and m:
                    self.take(); e = f"set:(.setMethod {m.group(1)} {m.group(2)} {self.expr()})"; self.take(")")
                    return e
                if self.at("(") and f == "Scan":
                    for x in ("(", "func", "("): self.take(x)
                    k = self.take()
                    for x in ("string", ","): self.take(x)
                    v = self.take()
                    for x in ("*", "trie", ")", "bool"): self.take(x)
                    self.open(); self.new([k, v]); b = self.body(); self.close(); self.take(")")
                    return f"set:(.scan {e} {lean_str(k)} {lean_str(v)} {b})"
                if self.at("(") and f in METHODS: e = self.call(METHOD_FNS.get(f, f), [e])
                elif f in FIELDS: e = f"(.field {e} .{f})"
                else: self.fail("field " + f)
            else: return e

    # statements
    def stmts(self):
        """Up to the closing brace."""
        res = []
        while not (self.at("}") or self.at("case") or self.at("default")):
            res.append(self.stmt()); self.take(";")
        return res
    def cases(self):
        if self.at("case"):
            self.take(); e = self.expr(); self.take(":"); self.open(); b = self.seq(self.stmts()); self.close()
            return f"(.case {e} {b} {self.cases()})"
        if self.at("default"):
            self.take(); self.take(":"); self.open(); b = self.seq(self.stmts()); self.close()
            return f"(.dflt {b})"
        return ".skip"
    def seq(self, ss):
        return "".join(f"(.seq {s} " for s in ss) + ".skip" + ")" * len(ss)
    def block(self):
        self.take("{"); self.open(); r = self.seq(self.stmts()); self.close(); self.take("}")
        return r
    def body(self):
        r = self.block()
        self.loops += 1
        n = f"{self.name}_loop{self.loops}"
        self.defs.append((n, r))
        return n
    def typ(self):
        for n in (9, 4, 3, 2, 1):
            t = tuple(x[1] if x[0] in ("id", "op") else None for x in self.t[self.i:self.i + n])
            if t in TYPES: self.i += n; return TYPES[t]
        self.fail("type")
    def lhs(self, e):
        m = re.fullmatch(r"\(\.var (\d+) (\S+)\)", e)
        if m: return f"(.var {m.group(1)} {m.group(2)})"
        m = re.fullmatch(r"\(\.field \(\.var (\d+) (\S+)\) \.(\w+)\)", e)
        if m: return f"(.field {m.group(1)} {m.group(2)} .{m.group(3)})"
        m = re.fullmatch(r"\(\.index \(\.var (\d+) (\S+)\) (.*)\)", e)
        if m: return f"(.index {m.group(1)} {m.group(2)} {m.group(3)})"
        self.fail("left-hand side " + e)
    def simple(self):
        """Assignment, definition, increment, or expression."""
        start = self.i
        # a definition?
        ns, j = [], self.i
        while self.t[j][0] == "id":
            ns.append(self.t[j][1]); j += 1
            if self.t[j][1] == "," and self.t[j][0] == "op": j += 1
            else: break
        if self.t[j][:2] == ("op", ":="):
            self.i = j + 1
            es = [self.expr()]
            while self.at(","): self.take(); es.append(self.expr())
            old = [self.place(n) if n in self.scope[self.start():] else None for n in ns]
            if any(k is not None for k in old):
                self.new([n for n, k in zip(ns, old) if k is None])
                olds = ", ".join("none" if k is None else f"some {k}" for k in old)
                return f"(.redefine [{', '.join(map(lean_str, ns))}] [{olds}] [{', '.join(es)}])"
            self.new(ns)
            return f"(.define [{', '.join(map(lean_str, ns))}] [{', '.join(es)}])"
        ls = []
        while True:
            if self.at("_"): self.take(); ls.append(".blank")
            else: ls.append(self.expr())
            if self.at(","): self.take()
            else: break
        if self.at("="):
            self.take()
            es = [self.expr()]
            while self.at(","): self.take(); es.append(self.expr())
            return f"(.assign [{', '.join(l if l == '.blank' else self.lhs(l) for l in ls)}] [{', '.join(es)}])"
        assert len(ls) == 1
        if self.at("++"):
            self.take()
            m = re.fullmatch(r"\(\.var (\d+) (\S+)\)", ls[0])
            return f"(.incr {m.group(1)} {m.group(2)})"
        for o, n in (("+=", "add"), ("-=", "sub"), ("*=", "mul")):
            if self.at(o): self.take(); return f"(.assignOp .{n} {self.lhs(ls[0])} {self.expr()})"
        if self.at("|="):
            self.take()
            m = re.fullmatch(r"\(\.index \(\.var (\d+) (\S+)\) (.*)\)", ls[0])
            return f"(.assignIndexOp .bitOr {m.group(1)} {m.group(2)} {m.group(3)} {self.expr()})"
        if ls[0].startswith("set:"): return ls[0][4:]
        return f"(.expr {ls[0]})"
    def if_(self):
        self.take("if"); self.open()
        init = ".skip"
        save = self.i
        depth = 0; j = self.i
        while not (depth == 0 and self.t[j][:2] in (("op", "{"), ("op", ";"))):
            if self.t[j][0] == "op" and self.t[j][1] in "([": depth += 1
            if self.t[j][0] == "op" and self.t[j][1] in ")]": depth -= 1
            j += 1
        if self.t[j][1] == ";": init = self.simple(); self.take(";")
        c = self.expr()
        a = self.block()
        b = ".skip"
        if self.at("else"):
            self.take()
            b = self.if_() if self.at("if") else self.block()
        self.close()
        return f"(.ite {init} {c} {a} {b})"
    def for_(self):
        self.take("for"); self.open()
        j, kinds = self.i, []
        while self.t[j][:2] != ("op", "{"): kinds.append(self.t[j][:2]); j += 1
        if ("id", "range") in kinds:
            i = self.take(); self.take(","); v = self.take(); self.take(":="); self.take("range")
            e = self.expr(); self.new([i, v])
            r = f"(.range {lean_str(i)} {lean_str(v)} {e} {self.body()})"
        elif ("op", ";") in kinds:
            init = self.simple(); self.take(";")
            c = self.expr(); self.take(";")
            post = ".skip" if self.at("{") else self.simple()
            r = f"(.loop {init} {c} {post} {self.body()})"
        else:
            c = self.expr()
            r = f"(.loop .skip {c} .skip {self.body()})"
        self.close()
        return r
    def stmt(self):
        if self.at("if"): return self.if_()
        if self.at("for"): return self.for_()
        if self.at("switch"):
            self.take(); e = self.expr(); self.take("{"); self.open(); self.scope.append(""); cs = self.cases(); self.close(); self.take("}")
            return f"(.switch {e} {cs})"
        if self.at("break"): self.take(); return ".brk"
        if self.at("continue"): self.take(); return ".cont"
        if self.at("return"):
            self.take()
            es = self.exprs(";")
            if not es and self.results: return f"(.retNamed [{', '.join(str(self.place(n)) for n in self.results)}] [{', '.join(map(lean_str, self.results))}])"
            return f"(.ret [{', '.join(es)}])"
        if self.at("defer"):
            self.take()
            e = self.expr()
            m = re.fullmatch(r"\(\.call \.(\w+) (\[.*\])\)", e)
            return f"(.defer .{m.group(1)} {m.group(2)})"
        if self.at("var"):
            self.take()
            if self.at("("):
                self.take(); l = []
                while not self.at(")"):
                    n = self.take(); l.append((n, self.typ())); self.take(";")
                self.take(")"); self.new([n for n, _ in l])
                return "(.declareGroup [" + ", ".join(f"({lean_str(n)}, .{t})" for n, t in l) + "])"
            if self.at("=", 1):
                n = self.take(); self.take(); e = self.expr(); self.new([n])
                return f"(.declareInit {lean_str(n)} {e})"
            ns = [self.take()]
            while self.at(","): self.take(); ns.append(self.take())
            t = self.typ(); self.new(ns)
            return f"(.declare [{', '.join(map(lean_str, ns))}] .{t})"
        return self.simple()

    def decl(self):
        kw = self.take()
        if self.at("("):
            self.take(); l = []
            if self.t[self.i + 3][1] == "iota":
                g = self.take(); t = self.typ(); self.take("="); self.take("iota"); self.take(";"); gs = [g]
                while not self.at(")"): gs.append(self.take()); self.take(";")
                self.take(")"); self.take(";")
                return f"(.iota .{t} [{', '.join('.' + g for g in gs)}])"
            while not self.at(")"):
                g = self.take(); t = "none" if self.at("=") else "some ." + self.typ()
                self.take("="); l.append(f"(.{g}, {t}, {self.expr()})"); self.take(";")
            self.take(")"); self.take(";")
            return f"(.group [{', '.join(l)}])"
        if self.at("=", 1):
            g = self.take(); l = []
            for x in ("=", "[", "]", "string", "{"): self.take(x)
            while not self.at("}"): l.append(lean_bytes(self.take())); self.take(",")
            self.take("}"); self.take(";")
            return f"(.strings .{g} [{', '.join(l)}])"
        g = self.take(); t = self.typ(); self.take("="); e = self.expr(); self.take(";")
        return f"(.{kw} .{g} .{t} {e})"

    def func(self, anonymous=False):
        self.take("func"); self.open()
        recv = None
        if not anonymous:
            if self.at("("): self.take(); n = self.take(); recv = (n, self.typ()); self.take(")")
            assert self.take() == self.name
        self.take("("); ps = []
        while not self.at(")"):
            n = self.take(); ps.append((n, self.typ()))
            if self.at(","): self.take()
        self.take(")")
        rs = []
        if self.at("("):
            self.take()
            while not self.at(")"):
                if self.at("*") or self.at("[") or self.t[self.i + 1][1] in (",", ")"): rs.append((None, self.typ()))
                else: n = self.take(); rs.append((n, self.typ()))
                if self.at(","): self.take()
            self.take(")")
        elif not self.at("{"): rs.append((None, self.typ()))
        self.new(([recv[0]] if recv else []) + [n for n, _ in ps] + [n for n, _ in rs if n])
        self.results = [n for n, _ in rs if n]
        self.take("{")
        self.open()
        ss = self.stmts()
        self.close()
        self.take("}")
        if not anonymous: self.take(";")
        return recv, ps, rs, ss

def find(toks, name):
    for i in range(len(toks)):
        if toks[i][:2] == ("id", "func") and (i == 0 or toks[i - 1][1] == ";"):
            j = i + 1
            if toks[j][1] == "(":
                while toks[j][1] != ")": j += 1
                j += 1
            if toks[j][1] == name:
                depth, k = 0, j
                while True:
                    if toks[k][0] == "op" and toks[k][1] == "{": depth += 1
                    if toks[k][0] == "op" and toks[k][1] == "}":
                        depth -= 1
                        if depth == 0: break
                    k += 1
                return toks[i:k + 2]
    raise SystemExit("no function " + name)

def find_field(toks, name):
    """The function after `name:`."""
    for i in range(len(toks)):
        if toks[i][:2] == ("id", name) and toks[i + 1][:2] == ("op", ":") and toks[i + 2][:2] == ("id", "func"):
            depth, k = 0, i + 2
            while True:
                if toks[k][:2] == ("op", "{"): depth += 1
                if toks[k][:2] == ("op", "}"):
                    depth -= 1
                    if depth == 0: return toks[i + 2:k + 1]
                k += 1
    raise SystemExit("no function " + name)

def decls(toks):
    """The constants and variables in GLOBS: the tokens of their declarations."""
    i = depth = 0
    while i < len(toks):
        k, v, _ = toks[i]
        if k == "op" and v in ("(", "{", "["): depth += 1
        if k == "op" and v in (")", "}", "]"): depth -= 1
        if depth == 0 and k == "id" and v in ("const", "var") and (i == 0 or toks[i - 1][1] == ";"):
            j, d = i, 0
            while not (d == 0 and toks[j][:2] == ("op", ";")):
                if toks[j][0] == "op" and toks[j][1] in "({[": d += 1
                if toks[j][0] == "op" and toks[j][1] in ")}]": d -= 1
                j += 1
            if any(t[0] == "id" and t[1] in GLOBS for t in toks[i:i + 3]): yield toks[i:j + 1]
            i = j
        i += 1

def lean_tok(t):
    k, v, _ = t
    return f".{k} {lean_str(v)}" if k in ("id", "op") else f".{k} {v}" if k != "str" else f".str {lean_bytes(v)}"

def wrap(s, indent, width=125):
    """Break a line at spaces outside of string literals."""
    res, cur = [], ""
    for part in re.findall(r'(?:"[^"]*"|[^" ])+', s):
        if cur and len(cur) + 1 + len(part) > width - indent: res.append(cur); cur = part
        else: cur = cur + " " + part if cur else part
    res.append(cur)
    return ("\n" + " " * indent).join(res)

o = ["import Verif.Model.GoText", "", "/-!", "# The text of the functions behind Extract", "",
     "Written by tools/gen_source.py from strings.go, net.go and fasttld.go; `gen_source.py --check` compares.  For each function", 
     "its statements in the syntax of Model/GoLang.lean, and the tokens of the file.  The theorems say that these belong",
     "together, and that the places of variables are right (Model/GoText.lean).", "-/", "", "namespace Fasttld.GoLang.Source",
     "open Fasttld Fasttld.GoLang", ""]
o0 = o; o = []
dl, dt = [], []
names = []
def write(file, f, ft, anonymous=False):
    """The statements, the function, its tokens, and the theorems."""
    global o
    p = Parser(ft, f)
    if anonymous: p.flags = FLAGS
    recv, ps, rs, ss = p.func(anonymous)
    a, b = ft[0][2], ft[-1][2]
    for n, d in p.defs:
        o += [f"/-- {file}:{a}-{b}: the body of a loop. -/", f"def {n} : Stmt :=", "  " + wrap(d, 2), ""]
    for k, s in enumerate(ss):
        o += [f"/-- {file}:{a}-{b}, statement {k + 1}. -/", f"def {f}_{k + 1} : Stmt :=", "  " + wrap(s, 2), ""]
    seq = "".join(f".seq {f}_{k + 1} <| " for k in range(len(ss))) + ".skip"
    pl = lambda q: f"({lean_str(q[0])}, .{q[1]})"
    o += [f"/-- {file}:{a}-{b} -/", f"def {f}_func : Func where", f"  fn := .{f}"]
    if recv: o.append(f"  recv := some {pl(recv)}")
    o += [f"  params := [{', '.join(map(pl, ps))}]",
          "  results := [" + ", ".join(f"({'none' if n is None else 'some ' + lean_str(n)}, .{t})" for n, t in rs) + "]",
          f"  body := {wrap(seq, 4)}", ""]
    o += [f"/-- {file}:{a}-{b} -/", f"def {f}_tokens : List Tok :=", "  [" + wrap(", ".join(map(lean_tok, ft)), 3) + "]", ""]
    o += [f"theorem {f}_text : {f}_func.{'litToks' if anonymous else 'toks'} = {f}_tokens := by decide +kernel", "",
          f"theorem {f}_scoped : {f}_func.scoped = true := by decide +kernel", ""]

for file, fs in FUNCS:
    toks = lex((repo / file).read_text())
    for d in decls(toks): dl.append(Parser(d, "declaration").decl()); dt += d
    for f in fs: write(file, f, find(toks, f)); names.append(f)
for file, f in COMMANDS: write(file, f, find_field(lex((repo / file).read_text()), f), True)
o += ["/-- The functions with text. -/", "def program : Fn → Option Func"]
o += [f"  | .{f} => some {f}_func" for f in names] + ["  | _ => none", "", "end Fasttld.GoLang.Source", ""]
o0 += ["/-- The constants and variables of the package that the functions use (strings.go, net.go, fasttld.go). -/",
       "def decls : List Decl :=", "  [" + ",\n   ".join(wrap(d, 3) for d in dl) + "]", "",
       "/-- Their tokens. -/", "def decls_tokens : List Tok :=", "  [" + wrap(", ".join(map(lean_tok, dt)), 3) + "]", "",
       "theorem decls_text : decls.flatMap Decl.toks = decls_tokens := by decide +kernel", ""]
o = o0 + o
text = "\n".join(o)

o = ["import Verif.Model.Lines", "", "/-!", "# The files", "",
     "strings.go, net.go, fasttld.go, psl.go, print.go and cmd/fasttld/extract.go, copied unchanged by tools/gen_source.py.", "-/", "",
     "namespace Fasttld.GoLang.Files", "open Fasttld", ""]
for f in ["strings.go", "net.go", "fasttld.go", "psl.go", "print.go", "cmd/fasttld/extract.go"]:
    t = (repo / f).read_text()
    assert '"##' not in t and "\r" not in t
    o += [f"/-- {f} -/", f'def {pathlib.Path(f).stem}Go : List Nat := lines! r##"{t}"##', ""]
files = "\n".join(o + ["end Fasttld.GoLang.Files", ""])

t = (repo / "examples/demo.go").read_text()
assert '"##' not in t and "\r" not in t
demo = "\n".join(["import Verif.Model.Lines", "", "/-!", "# examples/demo.go", "", "Copied unchanged by tools/gen_source.py.", "-/", "",
                  "namespace Fasttld.GoLang.Files", "open Fasttld", "", "/-- examples/demo.go -/",
                  f'def demoGo : List Nat := lines! r##"{t}"##', "", "end Fasttld.GoLang.Files", ""])

for f, t in [(out, text)] + ([(here / "lean/Verif/Model/Files.lean", files), (here / "lean/Verif/Model/DemoFile.lean", demo)]
                             if "--out" not in args else []):
    if not check: f.write_text(t)
    elif f.read_text() != t: sys.exit(f"{f.name} differs")
    else: print(f.name, "is up to date")
