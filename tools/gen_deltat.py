# Generates lean/Verif/Data/DeltaT.lean from the text of dynamical.py (parsed, never executed).
import ast
from fractions import Fraction as F
path='/repo/src/astronomia/dynamical.py'
src=open(path).read()
tbl=[n for n in ast.parse(src).body if isinstance(n,ast.Assign) and n.targets[0].id=='_tbl'][0]
def num(e):
    if isinstance(e,ast.UnaryOp) and isinstance(e.op,ast.USub): return -num(e.operand)
    assert isinstance(e,ast.Constant)
    return F(ast.get_source_segment(src,e))
rows=[tuple(num(x) for x in r.elts) for r in tbl.value.elts]
out=["import Mathlib.Data.Int.Notation","","/-! Generated by tools/gen_deltat.py from dynamical.py; do not edit. -/","",
"namespace Verif.Data","",
""]
out.pop()
items=[]
for a,b in rows:
    assert (a*4).denominator==1 and (b*10000).denominator==1
    items.append(f"({a*4}, {b*10000})")
N=100
names=[]
for k in range(0,len(items),N):
    nm=f"deltaTRaw{k//N}"
    names.append(nm)
    blk=items[k:k+N]
    lines=["  "+", ".join(blk[i:i+5]) for i in range(0,len(blk),5)]
    out.append(f"/-- `dynamical.py` {tbl.value.elts[k].lineno}-{tbl.value.elts[min(k+N,len(rows))-1].lineno}: part of `_tbl`. -/")
    out.append(f"def {nm} : List (ℤ × ℤ) := [\n"+",\n".join(lines)+"]\n")
out.append(f"/-- `dynamical.py` {tbl.lineno}-{tbl.end_lineno} `_tbl`: Julian Day times 4 and seconds times 10000. -/")
out.append("def deltaTRaw : List (ℤ × ℤ) := List.flatten [\n  "+", ".join(names)+"]")
out+=["","end Verif.Data",""]
open('/verif/lean/Verif/Data/DeltaT.lean','w').write("\n".join(out))
