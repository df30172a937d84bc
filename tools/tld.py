#!/usr/bin/env python3
"""Writes lean/Verif/Model/TldTable.lean from /repo/src/tld.h."""
import re
s = open('/repo/src/tld.h').read()
size = int(re.search(r'#define HSK_TLD_SIZE (\d+)', s).group(1))
a = s.index('HSK_TLD_NAMES[]'); b = s.index('};', a)
names = re.findall(r'"([^"]*)"', s[a:b])
a = s.index('HSK_TLD_DATA[]'); b = s.index('};', a)
body = s[a:b]; body = body[body.index('{') + 1:]
data = []
for e in body.split(','):
    parts = re.findall(r'"((?:\\x[0-9a-f]{2})*)"', e)
    if parts: data.append("".join(parts).replace("\\x", ""))
out = open('/verif/lean/Verif/Model/TldTable.lean', 'w')
out.write('''import Verif.Base
/-
The tables of src/tld.h, written by tools/tld.py. A byte string b is the number whose
base-256 digits are 1 and then b. Lists are cut into parts of 100.
-/
namespace Verif.Tld

/-- HSK_TLD_SIZE (src/tld.h:6). -/
def tableSize : Nat := %d

''' % size)
def table(name, doc, items):
    k = 0
    for i in range(0, len(items), 100):
        out.write('def %s%d : List Nat := [\n  ' % (name, k))
        out.write(',\n  '.join('0x01' + x for x in items[i:i+100]))
        out.write(']\n'); k += 1
    out.write('\n/-- %s -/\ndef %s : List Nat :=\n  %s\n\n' % (doc, name, ' ++ '.join('%s%d' % (name, j) for j in range(k))))
table('names', 'HSK_TLD_NAMES (src/tld.h:8-1491) without the final NULL.', [n.encode().hex() for n in names])
table('data', 'HSK_TLD_DATA (src/tld.h:1493-26999) without the final NULL and the NUL that ends each literal.', data)
out.write('end Verif.Tld\n')
