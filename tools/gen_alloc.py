#!/usr/bin/env python3
"""Writes the shipped allocation coefficients of reservoirs as Lean literals.

Reads from /repo/input_data/static_input: routing_order.csv, alloc_coeff_by_routorder.csv,
  land_water_fractions/watergap_22e_reservoir_and_regulated_lake_area.nc,
  reservoir_regulated_lake/reservoir_routing_{era5,w5e5}/watergap_22e_{era5,w5e5}_mean_inflow.nc4
and writes
  lean/Verif/Model/AllocData.lean   the coefficients of every row of the routing order
  lean/Verif/Props/AllocCert.lean   for every row the reservoirs that supply it
Every file written is read back and compared with its source.
"""
import csv, os, re
from decimal import Decimal
from hdf5 import datasets
S = '/repo/input_data/static_input/'
L = os.path.join(os.path.dirname(os.path.abspath(__file__)), '..', 'lean', 'Verif')

def grid(path):
    found = [r for r in datasets(S + path) if r['type'] and r['dims'][-2:] == (360, 720)]
    assert len(found) == 1 and len(found[0]['data']) == 259200, path
    return found[0]['data']

R = [list(map(int, r)) for r in list(csv.reader(open(S + 'routing_order.csv')))[1:]]
A = list(csv.reader(open(S + 'alloc_coeff_by_routorder.csv')))[1:]
assert [int(a[0]) for a in A] == [r[0] for r in R] and all(len(a) == 6 for a in A)
A = [[Decimal(v) * 10 ** 6 for v in a[1:]] for a in A]
assert all(v == int(v) and 0 <= v <= 10 ** 6 for a in A for v in a)
A = [tuple(int(v) for v in a) for a in A]
ix = [r[1] * 720 + r[2] for r in R]
n = len(R)
at = {(r[1], r[2]): k for k, r in enumerate(R)}
out = [at.get((r[4], r[5])) for r in R]
area = grid('land_water_fractions/watergap_22e_reservoir_and_regulated_lake_area.nc')
res = [area[i] > 0 for i in ix]
idle = set()
for st in ('era5', 'w5e5'):
    q = grid('reservoir_regulated_lake/reservoir_routing_%s/watergap_22e_%s_mean_inflow.nc4' % (st, st))
    idle |= set(k for k in range(n) if res[k] and not q[ix[k]] > 0)
print('no mean inflow', sorted(idle))

HEAD = 'import Verif.Model.DataTree\n\n/-! Generated by `tools/gen_alloc.py`. -/\n\nnamespace WG\n\nset_option maxRecDepth 100000\n\n'

def tree(leaves):
    if len(leaves) == 1:
        return '(.leaf %s)' % leaves[0]
    w = 1
    while w * 2 < len(leaves):
        w *= 2
    return '(.node %d %s\n %s)' % (w, tree(leaves[:w]), tree(leaves[w:]))

def table(name, doc, rows, width, per=64):
    assert all(len(r) == width for r in rows)
    leaves = []
    for a in range(0, len(rows), per):
        leaves.append((''.join(rows[a:a + per] + ['0' * width] * (per - len(rows[a:a + per])))).lstrip('0') or '0')
    s = '/-- %s -/\ndef %s : DTree :=\n %s\n\n' % (doc, name, tree(leaves))
    back = [int(b) for b in re.findall(r'leaf (\d+)', s)]
    assert all(back[k // per] // 10 ** (width * (per - 1 - k % per)) % 10 ** width == int(rows[k]) for k in range(len(rows)))
    return s

def single(name, doc, leaves):
    s = '/-- %s -/\ndef %s : DTree :=\n %s\n\n' % (doc, name, tree([str(l) for l in leaves]))
    assert [int(b) for b in re.findall(r'leaf (\d+)', s)] == list(leaves)
    return s

kinds = [(10 ** 6,) * 5]
kinds += sorted(set(A) - set(kinds))
assert len(kinds) < 1000
num = {a: j for j, a in enumerate(kinds)}
o = HEAD
o += table('allocData', 'For every row of the routing order the place of its coefficients in `allocTable` (3 digits); 64 rows to a leaf, the first row in\n'
  'the leading digits.', ['%03d' % num[a] for a in A], 3)
o += single('allocTable', 'Five coefficients in millionths (7 digits each), that of the next cell in the leading digits.',
  [int(''.join('%07d' % v for v in a)) for a in kinds])
open(os.path.join(L, 'Model/AllocData.lean'), 'w').write(o + 'end WG\n')

serve = [[] for k in range(n)]
for k in range(n):
    if res[k]:
        c = out[k]
        for j in range(5):
            if c is None or (res[c] and c not in idle):
                break
            assert not res[c]
            serve[c].append(k)
            c = out[c]
recs = [()] + sorted(set(tuple(s) for s in serve if s))
assert len(recs) < 10000 and max(map(len, recs)) <= 8
lab = {s: j for j, s in enumerate(recs)}
o = HEAD
o += table('serveData', 'For every row of the routing order the place of the list of its reservoirs in `serveTable` (4 digits); 64 rows to a leaf, the\n'
  'first row in the leading digits.', ['%04d' % lab[tuple(s)] for s in serve], 4)
o += single('serveTable', 'Lists of rows of reservoirs, each plus one (5 digits), the first in the last digits.',
  [sum((k + 1) * 10 ** (5 * i) for i, k in enumerate(s)) for s in recs])
open(os.path.join(L, 'Props/AllocCert.lean'), 'w').write(o + 'end WG\n')
print(len(kinds), 'kinds', len(recs), 'lists', sum(1 for s in serve if s), 'cells supplied')
