"""Random URLs, run through the second translation (port.py), become Lean #guard commands on the model.

usage: gen_port_tests.py            writes lean/Verif/Tests/Port.lean
       gen_port_tests.py SEED N OUT writes N cases as text, for a longer comparison outside the build
"""
import os, random, sys
sys.path.insert(0, os.path.dirname(os.path.abspath(__file__)))
import port
random.seed(int(sys.argv[1]) if len(sys.argv) > 1 else 20261117)
RULES=[b"com",b"uk",b"co.uk",b"*.ck",b"!www.ck",b"kobe.jp",b"*.kobe.jp",b"!city.kobe.jp",b"a.b.c.d",b"4",b"x.4","世界".encode(),b"x y",b"*.*.zz",b"!q.zz",b"ck.uk",b"*",b"com.uk"]
def lookup(s):
    if b"_" in s: return None
    return s.lower()
def tou(s): return b"bad" if b"^" in s else None
labs=[b"com",b"uk",b"co",b"ck",b"www",b"kobe",b"jp",b"city",b"a",b"b",b"c",b"d",b"4",b"x",b"1",b"255",b"256",b"01",b"-",b"a-",b"-a",b"",b"zz",b"q","世界".encode(),b"x+y",b"x y",b"%63om",b"%2e",b"%",b"%zz",b"!",b"_",b"^",b"*",b"!www",b"A","ŀ".encode(),"İ".encode(),b"\xff",b"\xe3\x80",b"\xe3",b"COM"]
seps=[b".",b".",b".",b".","。".encode(),"．".encode(),"｡".encode(),b"..",b"%2E"]
sch=[b""]*5+[b"http://"]*6+[b"http://",b"https:",b"//",b"/",b"\\\\",b"a.b+c-d:////",b"1://",b"a:b//",b"h:/",b"://",b"A/\\"]
us=[b"",b"",b"",b"u@",b"u:p@",b"u@v@",b"u/@",b"u[@",b"@"]
ports=[b""]*30+[b"",b":80",b":",b":65535",b":65536",b":+5",b":-0",b":-1",b":a",b":99999999999999999999",b":0080"]
paths=[b"",b"",b"/",b"/p?q#f",b"\\x",b"?q@r",b"#f[",b"/[",b"/]"]
ws=[b"",b"",b"",b" ",b"\n",b"\t ",b"\xe2\x80\x8b",b"\xc2\xa0",b"\xef\xbb\xbf",b"\xff",b"\xe2\x80"]
grp=[b"0",b"1",b"ffff",b"FFFFF",b"00001",b"g",b"",b"12345678"]
def v6():
    n=random.choice([2,5,6,7,8,8,8,9]); g=[random.choice(grp[:3] if random.random()<.97 else grp) for _ in range(n)]
    if random.random()<.6 and n: g[random.randrange(n)]=b""
    s=b":".join(g)
    if random.random()<.1: s=b":"+s
    if random.random()<.1: s=s+b":"
    if random.random()<.3: s+=random.choice([b":",b""])+v4()
    return s
def v4():
    return b"".join(random.choice([b"0",b"1",b"255",b"256",b"01",b"9"] if random.random()<.2 else [b"0",b"1",b"255"])+(random.choice(seps) if random.random()<.2 else b".") for _ in range(random.choice([4,4,4,3,5])))[:random.choice([None,-1])]
def host():
    r=random.random()
    if r<.12: return b"["+v6()+random.choice([b"]"]*20+[b"",b"]]"])+random.choice([b""]*9+[b"x"])
    if r<.24: return v4()
    n=random.randint(0,6)
    h=b"".join(random.choice(labs)+ (random.choice(seps) if random.random()<.4 else b".") for _ in range(n))
    return h+random.choice(labs+labs[:8]*4)+random.choice([b"",b"",b"",b".",b"..","。".encode()])
def url():
    if random.random()<.1:
        return bytes(random.choice(b"ac.:/@[]%4-*!\\?# \xe3\x80\x82x") for _ in range(random.randint(0,12)))
    s=random.choice(ws)+random.choice(sch)+random.choice(us)+host()+random.choice(ports)+random.choice(paths)+random.choice(ws)
    if random.random()<.2 and s:
        i=random.randrange(len(s)); s=s[:i]+bytes([random.choice(b"./:@[]%\xe3\x80\x82\xffaZ09-!* ")])+s[i+random.randint(0,1):]
    return s

def case(rules):
    u, ig, pu = url(), random.random() < .2, random.random() < .2
    return u, ig, pu, port.extract((lookup, tou), port.trieConstruct(rules), u, ig, pu)
def text(seed, n, out):
    with open(out, "w") as f:
        for _ in range(n):
            rules = [r for r in RULES if random.random() < random.choice([.5, .9])] if random.random() < .5 else [r for r in RULES if r != b"*"]
            mask = "".join("1" if r in rules else "0" for r in RULES)
            u, ig, pu, (r, e) = case(rules)
            if isinstance(e, tuple): e = e[0] + ":" + e[1].hex()
            res = ",".join(r[x].hex() for x in port.FIELDS) + "," + r["HostType"] + "," + (e or "ok")
            f.write(f"{mask} {u.hex() or '-'} {int(ig)} {int(pu)} {res}\n")
def lst(b): return "[" + ",".join(str(x) for x in b) + "]"
def lean():
    rules = [r for r in RULES if r != b"*"]
    seen, rows = {}, []
    while len(rows) < 300:
        u, ig, pu, (r, e) = case(rules)
        if len(u) > 40: continue
        err = e[0] if isinstance(e, tuple) else e
        key = (err, r["HostType"], bool(r["Suffix"]), bool(r["SubDomain"]), bool(r["Port"]), bool(r["UserInfo"]), bool(r["Scheme"]), bool(r["Path"]), pu)
        if seen.get(key, 0) >= 2: continue
        seen[key] = seen.get(key, 0) + 1
        x = "none" if e is None else f"(some (.{e[0]} {lst(e[1])}))" if isinstance(e, tuple) else f"(some .{e})"
        rows.append(f"#guard row {lst(u)} {str(ig).lower()} {str(pu).lower()}\n  ⟨" + ", ".join(lst(r[f]) for f in port.FIELDS) + f", .{r['HostType']}⟩ {x}")
    head = """import Verif.Model.Extract

/-!
# A second translation (tests, not proofs)

Generated by tools/gen_port_tests.py.  The expected results come from tools/port.py, a translation of Extract into Python
that was made from the Go text, by the author of the model.  The URLs are random.
-/

namespace Fasttld.Tests.Port
open Fasttld

def rules : List Bytes := [
  RULES]

/-- Stand-ins for the IDNA functions, the same as in gen_port_tests.py. -/
def idna : Idna where
  toASCII := some
  lookupASCII := fun s => if s.contains 95 then none else some (s.map fun c => if 65 ≤ c ∧ c ≤ 90 then c + 32 else c)
  toUnicodeErr := fun s => if s.contains 94 then some [98, 97, 100] else none

def row (url : Bytes) (ig pu : Bool) (r : ExtractResult) (e : Option Err) : Bool :=
  match extract idna (buildTrie rules) ⟨url, ig, pu⟩ with
  | .ok x => x = (r, e)
  | .error _ => false

""".replace("RULES", ",\n  ".join(lst(r) for r in rules))
    here = os.path.dirname(os.path.abspath(__file__))
    open(here + "/../lean/Verif/Tests/Port.lean", "w").write(head + "\n".join(rows) + "\n\nend Fasttld.Tests.Port\n")
if len(sys.argv) > 3: text(*[int(sys.argv[1]), int(sys.argv[2]), sys.argv[3]])
else: lean()
