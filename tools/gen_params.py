#!/usr/bin/env python3
"""Writes the shipped land cover fractions, soil data, river lengths and calibrated parameters as Lean literals.

Reads from /repo/input_data/static_input: routing_order.csv, land_water_fractions, watergap_22e_gloresfrac_1901_2025.nc, soil_storage,
  watergap_22e_{landcover,aridhumid}.nc4, watergap_22e_continentalarea.nc, river_static_data/watergap_22e_river_length.nc4,
and /repo/model/WaterGAP_2.2e_global_parameters_gswp3_w5e5.nc, and writes
  lean/Verif/Model/FractionData.lean   fractions of every row of the routing order, reservoir fractions by year
  lean/Verif/Model/ParamData.lean      soil data, parameters, river length, cell areas
Numbers are written as the 32 bits of their binary32 representation; the parameters, which are binary64, as multiples of 2^-59. Every file
written is read back and compared with its source.  In the parameter file the reader (hdf5.py) sees no names: the exponent gamma, the areal
and the station correction factor and the Priestley-Taylor coefficient are the only fields that vary over the routed cells.
"""
import csv, os, re, struct
from fractions import Fraction
from hdf5 import datasets
S = '/repo/input_data/static_input/'
P = '/repo/model/WaterGAP_2.2e_global_parameters_gswp3_w5e5.nc'
L = os.path.join(os.path.dirname(os.path.abspath(__file__)), '..', 'lean', 'Verif')
N = 259200

def bits(x):
    b = struct.unpack('<I', struct.pack('<f', x))[0]
    assert 0 <= b < 0x7f800000 and val(b) == x, x
    return b

def val(b):
    return struct.unpack('<f', struct.pack('<I', b))[0]

R = [list(map(int, r)) for r in list(csv.reader(open(S + 'routing_order.csv')))[1:]]
ix = [r[1] * 720 + r[2] for r in R]

def grid(path, n=1):
    ds = list(datasets(S + path))
    found = [r for r in ds if r['type'] and r['dims'][-2:] == (360, 720)]
    assert len(found) == 1 and len(found[0]['data']) == n * N, path
    lat = [r['data'] for r in ds if r['type'] and r['dims'] == (360,)]
    lon = [r['data'] for r in ds if r['type'] and r['dims'] == (720,)]
    assert all(lat[0][i] == 89.75 - i / 2 for i in range(360)) and all(lon[0][i] == -179.75 + i / 2 for i in range(720)), path
    return found[0]['data']

def col(path):
    d = grid(path)
    return [d[i] for i in ix]

F = 'land_water_fractions/watergap_22e_'
cont, glolak, reglak, glowet, locwet, loclak, locres = [col(F + n) for n in (
  'contfrac_global.nc', 'glolak.nc4', 'reglak.nc4', 'glowet.nc4', 'locwet.nc4', 'loclak.nc4', 'locres.nc4')]
glores = grid('watergap_22e_gloresfrac_1901_2025.nc', 125)
Q = 'soil_storage/watergap_22e_'
tawc, built, factor, maxrech, texture = [col(Q + n) for n in ('tawc.nc4', 'builtup_area_frac.nc4', 'gw_factor_corr.nc4', 'max_recharge.nc4', 'texture.nc')]
cover, arid = col('watergap_22e_landcover.nc4'), col('watergap_22e_aridhumid.nc4')
area, length = col('watergap_22e_continentalarea.nc'), col('river_static_data/watergap_22e_river_length.nc4')
par = [[r['data'][i] for i in ix] for r in datasets(P) if r['type'] and r['dims'] == (360, 720)]
vary = [c for c in par if len(set(c)) > 1]
const = sorted(set(c[0] for c in par if len(set(c)) == 1))
gamma, = [c for c in vary if min(c) == 0.1 and max(c) == 5]
cfa, = [c for c in vary if min(c) == 0.5 and max(c) == 1.5]
cfs, = [c for c in vary if max(c) > 11]
pt, = [c for c in vary if set(c) == {1.26, 1.74}]
rest = [sorted(set(c)) for c in vary if c not in (gamma, cfa, cfs, pt)]
print('constant parameters', const, 'others that vary', rest)
assert all(p == (1.74 if a == 1 else 1.26) for p, a in zip(pt, arid)) and set(arid) == {0, 1}

HEAD = 'import Verif.Model.DataTree\n\n/-! Generated by `tools/gen_params.py`. -/\n\nnamespace WG\n\nset_option maxRecDepth 100000\n\n'

def tree(leaves):
    if len(leaves) == 1:
        return '(.leaf %s)' % leaves[0]
    w = 1
    while w * 2 < len(leaves):
        w *= 2
    return '(.node %d %s\n %s)' % (w, tree(leaves[:w]), tree(leaves[w:]))

def table(name, doc, rows, width, per=16):
    """`per` rows to a leaf, the first row in the leading digits."""
    assert all(len(r) == width for r in rows)
    leaves = []
    for a in range(0, len(rows), per):
        leaves.append((''.join(rows[a:a + per] + ['0' * width] * (per - len(rows[a:a + per])))).lstrip('0') or '0')
    s = '/-- %s -/\ndef %s : DTree :=\n %s\n\n' % (doc, name, tree(leaves))
    back = [int(b) for b in re.findall(r'leaf (\d+)', s)]
    assert all(back[k // per] // 10 ** (width * (per - 1 - k % per)) % 10 ** width == int(rows[k]) for k in range(len(rows)))
    return s

def single(name, doc, leaves):
    s = '/-- %s -/\ndef %s : DTree :=\n %s\n\n' % (doc, name, tree([str(l) for l in leaves]))
    assert [int(b) for b in re.findall(r'leaf (\d+)', s)] == list(leaves)
    return s

# fractions: rare water bodies and reservoir years in a list of records
rec, num = [0], []
most = 0
for k, i in enumerate(ix):
    hist, last = [], 0.0
    for y in range(125):
        v = glores[y * N + i]
        assert v == v and v >= 0
        if v != last:
            assert v > last
            hist.append((y + 1, bits(v)))
            last = v
    most = max(most, len(hist))
    n = 0
    for y, b in hist:
        n = n * 10 ** 13 + y * 10 ** 10 + b
    # newest year in the last digits
    n = n * 10 ** 30 + bits(glolak[k]) * 10 ** 20 + bits(reglak[k]) * 10 ** 10 + bits(locres[k])
    if n == 0:
        num.append(0)
    else:
        num.append(len(rec))
        rec.append(n)
print(len(rec), 'records, at most', most, 'changes')
assert len(rec) < 10000
rows = ['%010d%010d%010d%010d%04d' % (bits(cont[k]), bits(glowet[k]), bits(locwet[k]), bits(loclak[k]), num[k]) for k in range(len(R))]
out = HEAD
out += table('fractionData', 'For every row of the routing order: the fraction of the continent, of global wetlands, local wetlands and local lakes (10 digits\n'
  'each, bits of the binary32 number, in percent) and the number of the record in `rareData` (4 digits); 16 rows to a leaf, the first row in the leading digits.', rows, 44)
out += single('rareData', 'Records of rarer water bodies: local reservoirs in the last 10 digits, then regulated lakes and global lakes (10 digits each,\n'
  'bits of the binary32 number, in percent), then the fractions of reservoirs, the newest year in the last 13 digits: year since 1900 (3 digits) and\n'
  'bits of the fraction from this year on (10 digits).', rec)
open(os.path.join(L, 'Model/FractionData.lean'), 'w').write(out + 'end WG\n')

def dictionary(c, conv):
    vals = sorted(set(c))
    at = {v: j for j, v in enumerate(vals)}
    return [conv(v) for v in vals], [at[v] for v in c]

def fixed(x):
    n = Fraction(x) * 2 ** 59
    assert n.denominator == 1
    return int(n)

tables = []
for name, c, conv, what in (
    ('gammaData', gamma, fixed, 'Values of the runoff coefficient gamma, times 2^59.'),
    ('cfaData', cfa, fixed, 'Values of the areal correction factor, times 2^59.'),
    ('cfsData', cfs, fixed, 'Values of the station correction factor, times 2^59.'),
    ('tawcData', tawc, bits, 'Values of the total available water content (mm), bits of the binary32 number.'),
    ('builtData', built, bits, 'Values of the fraction of built-up area, bits of the binary32 number.'),
    ('factorData', factor, bits, 'Values of the groundwater recharge factor, bits of the binary32 number.')):
    v, index = dictionary(c, conv)
    tables.append((name, what, v, index))
assert all(x == int(x) and 0 <= x < 1000 for x in maxrech) and all(x == int(x) and -2 <= x < 90 for x in texture)
assert all(x == int(x) and 0 < x < 100 for x in cover)
ids = [t[3] for t in tables]
print([len(t[2]) for t in tables])
rows = ['%05d%03d%03d%04d%04d%04d%03d%02d%02d%d%010d' % (ids[0][k], ids[1][k], ids[2][k], ids[3][k], ids[4][k], ids[5][k],
        int(maxrech[k]), int(texture[k]) + 2, int(cover[k]), int(arid[k]), bits(length[k])) for k in range(len(R))]
out = HEAD
for name, what, v, index in tables:
    out += single(name, what, v)
by = {}
for k in range(len(R)):
    assert by.setdefault(R[k][1], area[k]) == area[k]
out += single('areaData', 'Area of a cell (km²) by the row of the grid (0: no routed cell there), bits of the binary32 number.',
  [bits(by[i]) if i in by else 0 for i in range(360)])
out += table('paramData', 'For every row of the routing order the places of its values in `gammaData` (5 digits), `cfaData` (3), `cfsData` (3), `tawcData` (4),\n'
  '`builtData` (4) and `factorData` (4), the maximal groundwater recharge in 1/100 mm (3), texture + 2 (2), land cover (2), arid (1) and the river length (10, bits of the\n'
  'binary32 number); 16 rows to a leaf, the first row in the leading digits.', rows, 41)
open(os.path.join(L, 'Model/ParamData.lean'), 'w').write(out + 'end WG\n')

# exceptions, for the statements
fr = Fraction
n = len(R)
tot = lambda k: fr(glolak[k]) + fr(glowet[k]) + fr(loclak[k]) + fr(locwet[k])
last = [glores[124 * N + i] for i in ix]
plain = [k for k in range(n) if tot(k) + fr(reglak[k]) > fr(cont[k])]
resv = [k for k in range(n) if tot(k) + fr(locres[k]) + fr(last[k]) > fr(cont[k])]
print('do not fit', len(plain), len(resv), plain == resv, plain)
print('excess', float(max(max(tot(k) + fr(reglak[k]) - fr(cont[k]), tot(k) + fr(locres[k]) + fr(last[k]) - fr(cont[k])) for k in plain)))
for nm, o, lw in (('plain', lambda k: fr(glowet[k]) + fr(loclak[k]) + fr(locwet[k]), lambda k: fr(cont[k]) - fr(glolak[k]) - fr(reglak[k])),
              ('res', lambda k: fr(glowet[k]) + fr(loclak[k]) + fr(locwet[k]) + fr(locres[k]), lambda k: fr(cont[k]) - fr(glolak[k]) - fr(last[k]))):
    bad = [k for k in range(n) if k not in plain and cfa[k] != 1 and not (lw(k) == 0 or o(k) < lw(k))]
    print(nm, 'flooded with cfa > 1', [k for k in bad if cfa[k] > 1], 'cfa < 1', [k for k in bad if cfa[k] < 1])
    print(nm, 'among those that do not fit, cfa', [(k, cfa[k]) for k in plain if cfa[k] != 1])
