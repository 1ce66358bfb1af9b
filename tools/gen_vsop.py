# Generates lean/Verif/Data/Vsop/*.lean from the text of vsop87d_dict.py (parsed, never executed).
import ast
from fractions import Fraction as F
src=open('/repo/src/astronomia/vsop87d_dict.py').read()
lines=src.split('\n')
tbl=[n for n in ast.parse(src).body if isinstance(n,ast.Assign) and n.targets[0].id=='_planets'][0]
def num(e):
    assert isinstance(e,ast.Constant) and e.lineno==e.end_lineno
    v=F(lines[e.lineno-1][e.col_offset:e.end_col_offset])*10**11
    assert v.denominator==1 and v>=0
    return v.numerator
N=100
planets={}
for k,v in zip(tbl.value.keys,tbl.value.values):
    p,d=(x.value for x in k.elts)
    planets.setdefault(p,[]).append((d,k,v))
for p,ds in planets.items():
    out=["import Mathlib.Data.Nat.Notation","",
    f"/-! Generated by tools/gen_vsop.py from vsop87d_dict.py; do not edit.",
    "Each row is amplitude, phase and frequency in units of 1e-11. -/","","namespace Verif.Data",""]
    for d,k,v in ds:
        series=[]
        for i,s in enumerate(v.elts):
            blocks=[]
            for j in range(0,len(s.elts),N):
                blk=s.elts[j:j+N]
                nm=f"{p.lower()}{d}{i}_{j//N}"
                blocks.append(nm)
                rows=["("+", ".join(str(num(x)) for x in r.elts)+")" for r in blk]
                assert all(len(r.elts)==3 for r in blk)
                out.append(f"/-- `vsop87d_dict.py` {blk[0].lineno}-{blk[-1].end_lineno}. -/")
                out.append(f"def {nm} : List (ℕ × ℕ × ℕ) := [\n"+",\n".join("  "+", ".join(rows[q:q+2]) for q in range(0,len(rows),2))+"]\n")
            snm=f"{p.lower()}{d}{i}"
            series.append(snm)
            out.append(f"/-- `vsop87d_dict.py` {s.lineno}-{s.end_lineno}. -/")
            body=blocks[0] if len(blocks)==1 else "List.flatten [\n  "+", ".join(blocks)+"]"
            out.append(f"def {snm} : List (ℕ × ℕ × ℕ) := {body}\n")
        out.append(f"/-- `vsop87d_dict.py` {k.lineno}-{v.end_lineno} `_planets[(\"{p}\", \"{d}\")]`. -/")
        out.append(f"def {p.lower()}{d} : List (List (ℕ × ℕ × ℕ)) :=\n  ["+", ".join(series)+"]\n")
    out+=["end Verif.Data",""]
    open(f'/verif/lean/Verif/Data/Vsop/{p}.lean','w').write("\n".join(out))
