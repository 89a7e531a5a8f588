"""Extract the argument, parameter, dictionary and load tables of the restart code from /repo
(read as text) and print them as Lean definitions (pasted into lean/Verif/Model/RestartTables.lean)."""
import ast, re
R='/repo/'
def tree(f): return ast.parse(open(R+f).read())
OBJ={'land_water_frac':'land','vertical_waterbalance':'vert','lateral_waterbalance':'lat'}
# call
args=[]
for n in ast.walk(tree('run_watergap.py')):
    if isinstance(n,ast.Call) and isinstance(n.func,ast.Attribute) and n.func.attr=='savestate':
        for a in n.args[1:]: args.append(OBJ[a.value.id]+'.'+a.attr)
params=[];dicts=[]
for n in ast.walk(tree('model/utility/restart_watergap.py')):
    if isinstance(n,ast.FunctionDef) and n.name=='savestate':
        params=[a.arg for a in n.args.args][2:]
        for s in n.body:
            if isinstance(s,ast.Assign) and isinstance(s.value,ast.Dict):
                for k,v in zip(s.value.keys,s.value.values):
                    dicts.append((s.targets[0].id,k.value,v.id))
loads=[]
G=[]
for n in ast.walk(tree('run_watergap.py')):
    if isinstance(n,ast.Call) and isinstance(n.func,ast.Attribute) and n.func.attr.startswith('update_') and n.func.attr.endswith('_restart'):
        G.append((n.func.attr,OBJ[n.func.value.id],n.args[0].slice.value))
for f in ('model/land_surfacewater_fraction_init.py','model/verticalwaterbalance/waterbalance_vertical_init.py','model/lateralwaterbalance/waterbalance_lateral.py'):
    for n in ast.walk(tree(f)):
        if isinstance(n,ast.FunctionDef) and any(g[0]==n.name for g in G):
            g=[g for g in G if g[0]==n.name][0]
            for s in n.body:
                if isinstance(s,ast.Assign):
                    loads.append((g[1]+'.'+s.targets[0].attr,g[2],s.value.slice.value))
def pack(items):
    out='';line='  ['
    for i,it in enumerate(items):
        t=it+(',' if i+1<len(items) else ']')
        if len(line)+len(t)+1>108: out+=line.rstrip()+'\n';line='   '
        line+=(' ' if not line.endswith('[') and line.strip() else '')+t
    return out+line
q=lambda s:'"%s"'%s
print("""/-!
# Tables of the restart code

Extracted from /repo by `tools/gen_restart_tables.py` (syntax trees of the Python files): which attribute
is passed to which parameter of `savestate`, under which key it is stored and which attribute is loaded from
which key.  Attributes carry the object they belong to: `land`, `vert` or `lat`.
-/

namespace WG

/-- The arguments of the call of `savestate` after the date, in order: /repo/run_watergap.py:346-392. -/
def saveArgs : List String :=""")
print(pack([q(a) for a in args]))
print("""
/-- The parameters of `savestate` after the date, in order: /repo/model/utility/restart_watergap.py:47-68. -/
def saveParams : List String :=""")
print(pack([q(a) for a in params]))
print("""
/-- The entries (dictionary, key, parameter) of the saved state:
/repo/model/utility/restart_watergap.py:166-226. -/
def saveDict : List (String × String × String) :=""")
print(pack(['(%s, %s, %s)'%tuple(map(q,d)) for d in dicts]))
print("""
/-- The assignments (attribute, dictionary, key) of the three update functions:
/repo/model/land_surfacewater_fraction_init.py:418-429,
/repo/model/verticalwaterbalance/waterbalance_vertical_init.py:402-413,
/repo/model/lateralwaterbalance/waterbalance_lateral.py:992-1019, /repo/run_watergap.py:206-212. -/
def loadTable : List (String × String × String) :=""")
print(pack(['(%s, %s, %s)'%tuple(map(q,d)) for d in loads]))
print("\nend WG")
