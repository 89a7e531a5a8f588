#!/usr/bin/env python3
"""Writes the shipped outflow cells of the neighbours of every cell as Lean literals.

Reads /repo/input_data/static_input/neigbouringcells_outflow_latlon.csv and writes
  lean/Verif/Model/NeighbourData.lean   a row for every row of the file
  lean/Verif/Props/NeighbourCheck1.lean to NeighbourCheck4.lean   the pieces of the check
The data file is read back and compared with its source.
"""
import csv, os, re
S = '/repo/input_data/static_input/'
L = os.path.join(os.path.dirname(os.path.abspath(__file__)), '..', 'lean', 'Verif')
N = [list(map(int, r)) for r in list(csv.reader(open(S + 'neigbouringcells_outflow_latlon.csv')))[1:]]
assert all(r[0] == k and len(r) == 17 and all(0 <= x < 1000 for x in r[1:]) for k, r in enumerate(N))

def tree(leaves):
    if len(leaves) == 1:
        return '(.leaf %s)' % leaves[0]
    w = 1
    while w * 2 < len(leaves):
        w *= 2
    return '(.node %d %s\n %s)' % (w, tree(leaves[:w]), tree(leaves[w:]))

rows = [''.join('%03d' % x for x in r[1:]) for r in N]
leaves = [str(int(''.join(ch + ['0' * 48] * (32 - len(ch))))) for ch in (rows[i:i + 32] for i in range(0, len(rows), 32))]
P = os.path.join(L, 'Model/NeighbourData.lean')
with open(P, 'w') as o:
    o.write('import Verif.Model.DataTree\n\n/-! Generated by `tools/gen_neighbours.py`. -/\n\nnamespace WG\n\nset_option maxRecDepth 100000\n\n'
            '/-- The rows of `/repo/input_data/static_input/neigbouringcells_outflow_latlon.csv` without the first column: 32 rows to a leaf,\n'
            'each as 48 digits: `cell1_x`, `cell1_y`, ..., `cell8_x`, `cell8_y` (3 each). -/\n'
            'def neighbourData : DTree :=\n %s\n\nend WG\n' % tree(leaves))
back = [int(x) for x in re.findall(r'\.leaf (\d+)\)', open(P).read())]
for k, r in enumerate(N):
    s = '%048d' % (back[k // 32] // 10 ** (48 * (31 - k % 32)) % 10 ** 48)
    assert [int(s[3 * i:3 * i + 3]) for i in range(16)] == r[1:]
for n in range(4):
    with open(os.path.join(L, 'Props/NeighbourCheck%d.lean' % (n + 1)), 'w') as o:
        o.write('import Verif.Props.NeighbourCheck\n\n/-! Rows %d to %d of the table, see `Verif.Props.NeighbourCheck`. -/\n\nnamespace WG\n' % (n * 16855, n * 16855 + 16854))
        for b in range(n * 16855, (n + 1) * 16855, 3371):
            o.write('\ntheorem neighbours_%d : checkFrom nbCheck %d 3371 = true := by decide +kernel\n' % (b, b))
        o.write('\nend WG\n')
print(len(rows), 'rows written, read back and compared')
