"""Converts the test tables of /repo/fasttld_test.go into Lean #guard commands
(lean/Verif/Tests/Conformance.lean). These are tests of the model, not proofs."""
import re, sys
src = open('/repo/fasttld_test.go', encoding='utf8').read()
pos = 0
def skip(i):
    while True:
        while src[i] in ' \t\n\r,': i += 1
        if src.startswith('//', i):
            i = src.index('\n', i)
        else:
            return i
def gostr(i):
    if src[i] == '`':
        j = src.index('`', i+1)
        return src[i+1:j].encode(), j+1
    assert src[i] == '"'
    i += 1
    out = b''
    while src[i] != '"':
        c = src[i]
        if c == '\\':
            e = src[i+1]
            simple = {'n':10,'t':9,'r':13,'\\':92,'"':34,'f':12,'v':11,'a':7,'b':8,"'":39}
            if e in simple: out += bytes([simple[e]]); i += 2
            elif e == 'u': out += chr(int(src[i+2:i+6],16)).encode('utf8','surrogatepass'); i += 6
            elif e == 'U': out += chr(int(src[i+2:i+10],16)).encode(); i += 10
            elif e == 'x': out += bytes([int(src[i+2:i+4],16)]); i += 4
            else: raise Exception(src[i:i+5])
        else:
            out += c.encode(); i += 1
    return out, i+1
def value(i):
    i = skip(i)
    if src[i] in '"`':
        s, i = gostr(i)
        j = skip(i)
        while src[j] == '+':
            t, i = value(j+1); s += t; j = skip(i)
        return s, i
    m = re.compile(r'errs\[(\d+)\]').match(src, i)
    if m: return ('errs', int(m.group(1))), m.end()
    m = re.compile(r'errors\.New\(').match(src, i)
    if m:
        s, i = gostr(m.end()); return ('err', s), i+1
    m = re.compile(r'url\.EscapeError\(').match(src, i)
    if m:
        s, i = gostr(m.end()); return ('esc', s), i+1
    m = re.compile(r'[A-Za-z0-9.]*').match(src, i)
    name = m.group(0); i = m.end()
    if src[i] == '{':
        i = skip(i+1)
        d = {}
        while src[i] != '}':
            m = re.compile(r'(\w+):').match(src, i)
            assert m, src[i:i+50]
            v, i = value(m.end())
            d[m.group(1)] = v
            i = skip(i)
        return d, i+1
    return ('id', name), i
tables = {}
for m in re.finditer(r'var (\w+) = \[\]extractTest\{', src):
    i = skip(m.end()); rows = []
    while src[i] != '}':
        v, i = value(i); rows.append(v); i = skip(i)
    for r in rows: r['urlParams'].setdefault('URL', b'')
    tables[m.group(1)] = rows
ERRS = {0:'openingBracketNotFirst',1:'closingWithoutOpening',3:'incompleteBrackets',4:'invalidIPv6',5:'trailingAfterIPv6',6:'consecutiveSeparators',8:'invalidCharacters',9:'emptyDomain',10:'invalidPort'}
HT = {'None':'none','HostName':'hostName','IPv4':'iPv4','IPv6':'iPv6'}
def lstr(b):
    if len(b)>0:
        return '[' + ', '.join(str(x) for x in b) + ']'
    return '[]'
import urllib.parse
hosts = set()
puny = {}
uni_err = {}
def unesc(b):
    out=b'';i=0
    while i<len(b):
        if b[i:i+1]==b'%':
            h=b[i+1:i+3]
            if len(h)<2 or not re.fullmatch(rb'[0-9a-fA-F]{2}',h): return None
            out+=bytes([int(h,16)]);i+=3
        elif b[i:i+1]==b'+': out+=b' ';i+=1
        else: out+=b[i:i+1];i+=1
    return out
def approx_host(u):
    # only used to choose which PSL rules and IDNA answers the tests need
    u = u.strip()
    m = re.match(rb'^([A-Za-z][A-Za-z0-9+.-]*:?)?[/\\]{2,}', u)
    if m: u = u[m.end():]
    auth = re.split(rb'[/\\?#\[\]]', u)[0]
    if b'@' in auth: u = u[auth.rindex(b'@')+1:]
    return re.split(rb'[:/\\?#]', u)[0]
def lab(h):
    return re.split('[.。．｡]', h.decode('utf8','replace'))
labels = set()
for t, rows in tables.items():
    for r in rows:
        h = approx_host(r['urlParams']['URL'])
        uh = unesc(h)
        if uh is None: continue
        ls = lab(uh)
        for l in ls: labels.add(l); 
        if r['urlParams'].get('ConvertURLToPunyCode') == ('id','true'):
            try:
                import unicodedata
                ls = [unicodedata.normalize('NFKC', l).lower() for l in ls]
                for l in ls:
                    if l.startswith('xn--') and l == 'xn--0': raise ValueError('invalid punycode label')
                p = '.'.join(l if l.isascii() else 'xn--'+l.encode('punycode').decode() for l in ls)
                puny[uh] = p.encode()
                for l in p.split('.'): labels.add(l)
            except Exception as ex: print('puny', uh, ex, file=sys.stderr)
        e = r.get('err')
        if e and e[0]=='err' and e[1].startswith(b'idna'):
            uni_err[uh] = e[1]
# rules
pub=[];priv=[];cur=pub
for line in open('/repo/test/public_suffix_list.dat',encoding='utf8'):
    line=line.strip()
    if line=='// ===BEGIN PRIVATE DOMAINS===': cur=priv
    if not line or line.startswith('//'): continue
    a='.'.join(l if l.isascii() else 'xn--'+l.encode('punycode').decode() for l in line.split('.'))
    cur.append(a)
    if a!=line: cur.append(line)
# keep every rule whose labels (apart from wildcard and exception marks) all occur in some test, and
# all rules of the top-level domains with few rules
def tld(r): return r.split('.')[-1]
cnt={}
for r in pub+priv: cnt[tld(r)]=cnt.get(tld(r),0)+1
def keep(r):
    ls=[l.lstrip('!') for l in r.split('.')]
    return tld(r) in labels and (cnt[tld(r)]<=40 or all(l in labels or l=='*' for l in ls))
kp=[r for r in pub if keep(r)]; kq=[r for r in priv if keep(r)]
out=[]
w=out.append
w('import Verif.Model.Extract\n')
w('''/-!
# Conformance tests (tests, not proofs)

Generated by tools/gen_tests.py from the tables of /repo/fasttld_test.go:227-770.  Each `#guard` runs
the executable model of Extract on one row and compares the returned struct and error with the row.
The rule list is the part of /repo/test/public_suffix_list.dat whose labels occur in the rows; the
IDNA answers needed by the rows are tables.
-/

namespace Fasttld.Tests
open Fasttld
''')
w('def s (t : String) : Bytes := t.toUTF8.toList\n')
def lean_string(t):
    return '"'+t.replace('\\','\\\\').replace('"','\\"')+'"'
def chunk(name, rs):
    w(f'def {name} : List Bytes := (([')
    w(',\n'.join('  '+lean_string(r) for r in rs))
    w(']) : List String).map s\n')
chunk('pubRules',kp); chunk('privRules',kq)
w('def puny : List (Bytes × Bytes) := [')
w(',\n'.join(f'  ({lstr(a)}, {lstr(b)})' for a,b in puny.items()))
w(']\n')
w('def uniErr : List (Bytes × Bytes) := [')
w(',\n'.join(f'  ({lstr(a)}, {lstr(b)})' for a,b in uni_err.items()))
w(']\n')
w('''def idna : Idna where
  toASCII := fun x => some x
  lookupASCII := fun x => puny.lookup x
  toUnicodeErr := fun x => uniErr.lookup x

def pubTrie : Trie := buildTrie pubRules
def allTrie : Trie := buildTrie (pubRules ++ privRules)

/-- One row of the table. -/
def row (priv : Bool) (p : URLParams) (expected : ExtractResult) (err : Option Err) : Bool :=
  match extract idna (if priv then allTrie else pubTrie) p with
  | .ok r => r == (expected, err)
  | .error _ => false
''')
n=0
for t, rows in tables.items():
    w(f'\n/-! ## {t} -/\n')
    for r in rows:
        p=r['urlParams']; ex=r['expected']
        def b(x): return 'true' if x==('id','true') else 'false'
        ef=[]
        for k,v in ex.items():
            if k=='HostType': ef.append(f'hostType := .{HT[v[1]]}')
            else:
                kk=k[0].lower()+k[1:]
                ef.append(f'{kk} := {lstr(v)}')
        e=r.get('err')
        if e is None or e==('id','nil'): es='none'
        elif e[0]=='errs': es=f'(some .{ERRS[e[1]]})'
        elif e[0]=='esc': es=f'(some (.badEscape {lstr(e[1])}))'
        elif e[1].startswith(b'invalid URL escape'):
            m=re.match(rb'invalid URL escape "(.*)"$',e[1]); es=f'(some (.badEscape {lstr(m.group(1))}))'
        else: es=f'(some (.idna {lstr(e[1])}))'
        pf=[f'url := {lstr(p["URL"])}']
        if 'IgnoreSubDomains' in p: pf.append(f'ignoreSubDomains := {b(p["IgnoreSubDomains"])}')
        if 'ConvertURLToPunyCode' in p: pf.append(f'convertURLToPunyCode := {b(p["ConvertURLToPunyCode"])}')
        w('-- '+repr(p['URL'].decode('utf8','replace')))
        w(f'#guard row {b(r.get("includePrivateSuffix"))} {{ {", ".join(pf)} }}\n  {{ {", ".join(ef)} }} {es}' if ef else
          f'#guard row {b(r.get("includePrivateSuffix"))} {{ {", ".join(pf)} }}\n  {{}} {es}')
        n+=1
w('\nend Fasttld.Tests')
open('/verif/lean/Verif/Tests/Conformance.lean','w',encoding='utf8').write('\n'.join(out)+'\n')
print(n,'rows',len(kp),len(kq),'rules',len(puny),len(uni_err))
