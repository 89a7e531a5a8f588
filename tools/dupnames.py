import re,glob,collections
d=collections.defaultdict(list)
for f in glob.glob('/verif/lean/Verif/**/*.lean',recursive=True):
    for l in open(f):
        m=re.match(r'(?:@\[[^\]]*\] *)?(?:noncomputable )?(private )?(?:def|theorem|lemma|structure|abbrev|inductive) ([A-Za-z_][\w.\']*)',l)
        if m and not m[1]: d[m[2]].append(f)
for k,v in d.items():
    if len(v)>1: print(k,v)
