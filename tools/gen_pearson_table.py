"""Print the rows (10 x skewness, 10000 x k) of /repo/misc/K_PEARSON_3.csv for a return period of 1.5 years
as the Lean module lean/Verif/Model/PearsonTable.lean."""
import csv
from fractions import Fraction as F
rows=list(csv.reader(open('/repo/misc/K_PEARSON_3.csv')))[4:]
items=[]
for r in rows:
    if not r or r[0]=='' : continue
    a=F(r[0])*10; b=F(r[5])*10000
    assert a.denominator==1 and b.denominator==1
    items.append('(%d, %d)'%(a,b))
print('''/-!
# Pearson III table

Generated by `tools/gen_pearson_table.py` from `/repo/misc/K_PEARSON_3.csv`, column of the return period 1.5 years.
-/

namespace WG

/-- Skewness times 10 and k value times 10000; `/repo/misc/K_PEARSON_3.csv:5-65`, read by
`/repo/misc/bankfull_flow.py:118-122`. -/
def pearsonTable : List (Int × Int) :=''')
line='  ['
for i,t in enumerate(items):
    t=t+(',' if i+1<len(items) else ']')
    if len(line)+len(t)>108: print(line.rstrip()); line='   '
    line+=t+' '
print(line.rstrip())
print('\nend WG')
