#!/bin/bash
# Writes /verif/AXIOMS.md: the axioms every theorem named in MANIFEST.json depends on, as printed by Lean.
cd "$(dirname "$0")/../lean" || exit 1
T=$(mktemp /tmp/axXXXX.lean)
{ echo "import Verif"; python3 -c "
import json
for c in json.load(open('../MANIFEST.json'))['claims']:
    for t in c['theorems']: print('#print axioms',t)"; } > "$T"
lake env lean "$T" > /tmp/ax_out.txt 2>&1
python3 - <<'P'
import re,collections
s=open('/tmp/ax_out.txt').read()
d=collections.OrderedDict()
for m in re.finditer(r"'(WG\.\w+)' (?:depends on axioms:\s*\[([^\]]*)\]|does not depend on any axioms)",s):
    d[m[1]]=', '.join(sorted(x.strip() for x in (m[2] or '').split(',') if x.strip())) or '(none)'
g=collections.defaultdict(list)
for k,v in d.items(): g[v].append(k)
o='# Axioms of the property theorems\n\nGenerated by `tools/gen_axioms.sh` from `#print axioms`.\n'
for v,ks in sorted(g.items(),key=lambda z:-len(z[1])): o+='\n## %s — %d theorems\n\n%s\n'%(v,len(ks),', '.join('`%s`'%k for k in ks))
open('../AXIOMS.md','w').write(o)
print({v:len(k) for v,k in g.items()}, 'errors' if 'error' in s else '')
P
rm -f "$T"
