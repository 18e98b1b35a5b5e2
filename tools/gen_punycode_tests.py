"""Writes lean/Verif/Tests/Punycode.lean: the labels of /repo/fallback.go that are not in ASCII, and some random ones, with
the Punycode forms that Python's codec gives.  Also compares these with the forms in the comments of the list."""
import random, re
labels, prev, seen = [], '', 0
for line in open('/repo/fallback.go', encoding='utf8'):
    line = line.strip()
    if line and not line.startswith('//'):
        for l in line.split('.'):
            if not l.isascii() and l not in labels and re.fullmatch(r'[^\s`"()]+', l):
                labels.append(l)
        m = prev and re.match(r'// (xn--\S+) \(', prev)
        if m and not line.isascii() and '.' not in line:
            assert m.group(1) == 'xn--' + line.encode('punycode').decode(), (prev, line)
            seen += 1
        prev = ''
    if line.startswith('// xn--'):
        prev = line
random.seed(1)
def rnd():
    r = random.random()
    if r < .3: return chr(random.choice([45] + list(range(97, 123)) + list(range(48, 58))))
    if r < .6: return chr(random.randrange(0x80, 0x800))
    if r < .9: return chr(random.choice(list(range(0x800, 0xd800)) + list(range(0xe000, 0x10000))))
    return chr(random.randrange(0x10000, 0x110000))
for _ in range(200):
    l = ''.join(rnd() for _ in range(random.randrange(1, 30)))
    if not l.isascii():
        labels.append(l)
out = '''import Verif.Spec.Punycode

/-!
# Punycode (tests, not proofs)

Generated by tools/gen_punycode_tests.py.  All labels of the built-in list that are not in ASCII, and random ones, with
what Python's codec gives for them.
-/

namespace Fasttld.Tests.Punycode
open Fasttld Fasttld.Spec

'''
show = lambda b: '[' + ','.join(str(x) for x in b) + ']'
for l in labels:
    out += '#guard Punycode.label %s == %s\n' % (show(l.encode()), show(b'xn--' + l.encode('punycode')))
out += '\nend Fasttld.Tests.Punycode\n'
open('/verif/lean/Verif/Tests/Punycode.lean', 'w', encoding='utf8').write(out)
print(len(labels), 'labels', seen, 'comments compared')
