#!/usr/bin/env python3
"""Writes lean/Verif/Model/EcmultTable.lean from src/secp256k1/ecmult_static_context.h,
and lean/Verif/Lemmas/EcmultHints.lean, the points 2^k G for k = 1, ..., 256."""
import re, sys

src = sys.argv[1] if len(sys.argv) > 1 else '/repo/src/secp256k1/ecmult_static_context.h'
out = '/verif/lean/Verif/'
rows, row, lines = [], None, []
for no, l in enumerate(open(src), 1):
    if l.strip() == '{':
        row, first = [], no
    elif l.strip().startswith('SC('):
        row.append([int(x) for x in re.findall(r'(\d+)u', l)])
        assert len(row[-1]) == 16
    elif l.strip() in ('},', '}') and row is not None:
        assert len(row) == 16
        rows.append(row); lines.append((first, no)); row = None
assert len(rows) == 64
with open(out + 'Model/EcmultTable.lean', 'w') as f:
    f.write('''import Verif.Model.Ec52
/-
The table of `src/secp256k1/ecmult_static_context.h`, made by tools/table.py.
-/
namespace Verif.EcmultGen
open Verif.Field52 Verif.Ec52

/-- HSK_SECP256K1_FE_STORAGE_CONST (src/secp256k1/field_5x52.h:40-45). -/
def storageConst (d7 d6 d5 d4 d3 d2 d1 d0 : Nat) : Storage := ⟨d0 ||| d1 <<< 32, d2 ||| d3 <<< 32, d4 ||| d5 <<< 32, d6 ||| d7 <<< 32⟩

/-- `SC`, HSK_SECP256K1_GE_STORAGE_CONST (src/secp256k1/group.h:39). -/
def sc (a b c d e f g h i j k l m n o p : Nat) : Pubkey := ⟨storageConst a b c d e f g h, storageConst i j k l m n o p⟩

''')
    for j, r in enumerate(rows):
        f.write(f'/-- hsk_secp256k1_ecmult_static_context[{j}] (src/secp256k1/ecmult_static_context.h:{lines[j][0]}-{lines[j][1]}). -/\n')
        f.write(f'def row{j} : List Pubkey := [\n' + ',\n'.join('  sc ' + ' '.join(map(str, e)) for e in r) + ']\n\n')
    f.write('/-- hsk_secp256k1_ecmult_static_context (src/secp256k1/ecmult_static_context.h:5-1158). -/\ndef table : List (List Pubkey) := [\n  '
            + ',\n  '.join(', '.join(f'row{j}' for j in range(k, k + 8)) for k in range(0, 64, 8)) + ']\n\nend Verif.EcmultGen\n')

p = 2**256 - 2**32 - 977
P = (0x79BE667EF9DCBBAC55A06295CE870B07029BFCDB2DCE28D959F2815B16F81798, 0x483ADA7726A3C4655DA4FBFC0E1108A8FD17B448A68554199C47D08FFB10D4B8)
pts = []
for _ in range(256):
    x, y = P
    m = 3 * x * x * pow(2 * y, -1, p) % p
    x3 = (m * m - 2 * x) % p
    P = (x3, (m * (x - x3) - y) % p)
    pts.append(P)
with open(out + 'Lemmas/EcmultHints.lean', 'w') as f:
    f.write('''/-
The points 2^k G for k = 1, ..., 256, by fours, made by tools/table.py. That they are these points is checked in Lemmas/EcmultTable.
-/
namespace Verif.Lemmas.EcmultTable

/-- Four points, each twice the one before. -/
structure Four where
  x1 : Nat
  y1 : Nat
  x2 : Nat
  y2 : Nat
  x3 : Nat
  y3 : Nat
  x4 : Nat
  y4 : Nat

''')
    for k in range(4):
        f.write(f'def hints{k} : List Four := [\n')
        f.write(',\n'.join('  ⟨' + ',\n    '.join(f'{hex(x)}, {hex(y)}' for x, y in pts[64*k+4*i:64*k+4*i+4]) + '⟩' for i in range(16)))
        f.write(']\n\n')
    def num(d):
        return sum(v << (32 * (7 - i)) for i, v in enumerate(d))
    e = rows[62][0]
    x, y = num(e[:8]), num(e[8:])
    m = 3 * x * x * pow(2 * y, -1, p) % p
    x3 = (m * m - 2 * x) % p
    y3 = (m * (x - x3) - y) % p
    f.write(f'/-- Twice the first entry of the last row but one. -/\ndef wx : Nat := {hex(x3)}\ndef wy : Nat := {hex(y3)}\n\n')
    f.write('def hints : List Four := hints0 ++ hints1 ++ hints2 ++ hints3\n\nend Verif.Lemmas.EcmultTable\n')
