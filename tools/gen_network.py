#!/usr/bin/env python3
"""Writes the shipped river network as Lean literals.

Reads /repo/input_data/static_input/{routing_order.csv,upstream_cells_for_grid_arcid.csv,ArcID_GCRC_Lon_Lat.txt} and writes
  lean/Verif/Model/RoutingData.lean    the rows of routing_order.csv, digits of the six columns side by side
  lean/Verif/Model/UpstreamData.lean   the positive entries of upstream_cells_for_grid_arcid.csv
  lean/Verif/Model/ArcidData.lean      longitude and latitude of ArcID_GCRC_Lon_Lat.txt
  lean/Verif/Model/StationData.lean    the stations of stations.csv
  lean/Verif/Props/NetworkCert.lean    a certificate: position in the routing order and height of every cell of the grid
Every file written is read back and compared with its source.
"""
import csv, os, re
S = '/repo/input_data/static_input/'
L = os.path.join(os.path.dirname(os.path.abspath(__file__)), '..', 'lean', 'Verif')

def ints(path):
    return [list(map(int, r)) for r in list(csv.reader(open(path)))[1:]]

R = ints(S + 'routing_order.csv')
U = ints(S + 'upstream_cells_for_grid_arcid.csv')
A = [l.split(',') for l in open(S + 'ArcID_GCRC_Lon_Lat.txt').read().split()[1:]]
N = len(R)
assert len(U) == N and len(A) == N
assert all(u[0] == i + 1 for i, u in enumerate(U)) and all(int(a[0]) == i + 1 for i, a in enumerate(A))

def tree(leaves):
    if len(leaves) == 1:
        return '(.leaf %s)' % leaves[0]
    w = 1
    while w * 2 < len(leaves):
        w *= 2
    return '(.node %d %s\n %s)' % (w, tree(leaves[:w]), tree(leaves[w:]))

def chunks(rows, c):
    return [rows[i:i + c] for i in range(0, len(rows), c)]

def write(path, name, doc, leaves):
    with open(os.path.join(L, path), 'w') as o:
        o.write('import Verif.Model.DataTree\n\n/-! Generated by `tools/gen_network.py`. -/\n\nnamespace WG\n\nset_option maxRecDepth 100000\n\n')
        o.write('/-- %s -/\ndef %s : DTree :=\n %s\n\nend WG\n' % (doc, name, tree(leaves)))

def leaves_of(path):
    return [int(x, 0) if x.startswith('0x') else int(x) for x in re.findall(r'\.leaf (0x[0-9a-f]+|\d+)\)', open(os.path.join(L, path)).read())]

# routing order: 64 rows of 22 digits in a leaf, the first row in front; the last leaf is filled up with zeros
rows = ['%05d%03d%03d%05d%03d%03d' % tuple(r) for r in R]
write('Model/RoutingData.lean', 'routingData', 'The rows of `/repo/input_data/static_input/routing_order.csv` in the order of the file, 64 to a leaf, each as 22 digits:\n'
      '`rout_order_arcid` (5), `Lat_index_routorder` (3), `Lon_index_routorder` (3), `outflow_cell_arcid` (5),\n'
      '`Lat_index_outflowcell` (3), `Lon_index_outflowcell` (3).',
      [str(int(''.join(ch + ['0' * 22] * (64 - len(ch))))) for ch in chunks(rows, 64)])
back = leaves_of('Model/RoutingData.lean')
for k, r in enumerate(R):
    s = '%022d' % (back[k // 64] // 10 ** (22 * (63 - k % 64)) % 10 ** 22)
    assert [int(s[:5]), int(s[5:8]), int(s[8:11]), int(s[11:16]), int(s[16:19]), int(s[19:])] == r

# upstream table: 16 rows in a leaf, from the last digit on: number of entries (1), entries (5 each)
def urow(u):
    v = [x for x in u[1:] if x > 0]
    return ''.join('%05d' % x for x in reversed(v)) + str(len(v))
write('Model/UpstreamData.lean', 'upstreamData', 'The rows of `/repo/input_data/static_input/upstream_cells_for_grid_arcid.csv`, which are numbered from 1 on (`Arc_ID`), 16\n'
      'to a leaf, read from the last digit on: the number of positive entries (1 digit), then these entries (5 digits each).',
      [str(int(''.join(urow(u) for u in reversed(ch)))) for ch in chunks(U, 16)])
back = leaves_of('Model/UpstreamData.lean')
for k, u in enumerate(U):
    n = back[k // 16]
    for _ in range(k % 16):
        n //= 10 ** (1 + 5 * (n % 10))
    c, n, v = n % 10, n // 10, []
    for _ in range(c):
        v.append(n % 10 ** 5); n //= 10 ** 5
    assert v == [x for x in u[1:] if x > 0]

# coordinates: 64 rows of 10 digits in a leaf
def hund(x, s):
    v = round((float(x) + s) * 100)
    assert abs(v / 100 - s - float(x)) < 1e-9
    return v
rows = ['%05d%05d' % (hund(a[2], 180), hund(a[3], 90)) for a in A]
write('Model/ArcidData.lean', 'arcidData', 'The rows of `/repo/input_data/static_input/ArcID_GCRC_Lon_Lat.txt`, which are numbered from 1 on (`ArcID`), 64 to a leaf,\n'
      'each as 10 digits: `Lon` + 180 and `Lat` + 90, both in hundredths of a degree (5 digits each).',
      [str(int(''.join(ch + ['0' * 10] * (64 - len(ch))))) for ch in chunks(rows, 64)])
back = leaves_of('Model/ArcidData.lean')
for k, a in enumerate(A):
    v = back[k // 64] // 10 ** (10 * (63 - k % 64)) % 10 ** 10
    assert abs((v // 10 ** 5) / 100 - 180 - float(a[2])) < 1e-9 and abs((v % 10 ** 5) / 100 - 90 - float(a[3])) < 1e-9

# stations: 64 of 10 digits in a leaf
T = list(csv.DictReader(open(S + 'stations.csv')))
rows = ['%05d%05d' % (hund(t['lon'], 180), hund(t['lat'], 90)) for t in T]
write('Model/StationData.lean', 'stationData', 'The %d rows of `/repo/input_data/static_input/stations.csv`, 64 to a leaf, each as 10 digits: `lon` + 180 and `lat` + 90,\n'
      'both in hundredths of a degree (5 digits each).' % len(T),
      [str(int(''.join(ch + ['0' * 10] * (64 - len(ch))))) for ch in chunks(rows, 64)])
back = leaves_of('Model/StationData.lean')
for k, t in enumerate(T):
    v = back[k // 64] // 10 ** (10 * (63 - k % 64)) % 10 ** 10
    assert abs((v // 10 ** 5) / 100 - 180 - float(t['lon'])) < 1e-9 and abs((v % 10 ** 5) / 100 - 90 - float(t['lat'])) < 1e-9
print(len(T), 'stations')

# certificate
pos = {(r[1], r[2]): k for k, r in enumerate(R)}
h = [0] * N
for k, r in enumerate(R):
    if r[3]:
        p = pos[(r[4], r[5])]
        h[p] = max(h[p], h[k] + 1)
assert max(h) < 128
cert = []
for lat in range(360):
    n = 0
    for lon in range(720):
        if (lat, lon) in pos:
            k = pos[(lat, lon)]
            n += (k * 128 + h[k]) << (24 * lon)
    cert.append(hex(n))
write('Props/NetworkCert.lean', 'networkCert', 'A certificate, checked in `Verif.Props.NetworkCheck`: a leaf for every row of the grid with, for every cell, its position in\n'
      'the routing order times 128 plus the number of cells of the longest river above it.', cert)
print(N, 'rows written, read back and compared')
