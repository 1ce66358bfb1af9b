# Generates lean/Verif/Data/{Nutation,Lunar,Equinox}.lean from the text of nutation.py, lunar.py and
# equinox.py (parsed, never executed).
import ast
from fractions import Fraction as F
def load(f):
    src=open('/repo/src/astronomia/'+f).read()
    return src,ast.parse(src)
def get(t,name):
    return [n for n in t.body if isinstance(n,ast.Assign) and n.targets[0].id==name][0]
def num(src,e):
    if isinstance(e,ast.UnaryOp) and isinstance(e.op,ast.USub): return -num(src,e.operand)
    assert isinstance(e,ast.Constant)
    return F(ast.get_source_segment(src,e))
def table(src,node,name,typ,doc,f,scale=None):
    rows=[]
    for r in node.value.elts:
        v=[num(src,x) for x in r.elts] if scale is None else scale(src,r)
        assert all(F(x).denominator==1 for x in v)
        rows.append("("+", ".join(str(x) for x in v)+")")
    body=",\n".join("  "+", ".join(rows[i:i+3]) for i in range(0,len(rows),3))
    return f"/-- `{f}` {node.lineno}-{node.end_lineno} `{node.targets[0].id}`: {doc}. -/\ndef {name} : List ({typ}) := [\n{body}]\n"
def write(name,f,parts):
    open(f'/verif/lean/Verif/Data/{name}.lean','w').write(
    f"import Mathlib.Data.Int.Notation\n\n/-! Generated by tools/gen_tables.py from {f}; do not edit. -/\n\nnamespace Verif.Data\n\n"+"\n".join(parts)+"\nend Verif.Data\n")
Z=lambda n:" × ".join(["ℤ"]*n)
src,t=load('nutation.py')
write('Nutation','nutation.py',[table(src,get(t,'_tbl'),'nutationTable',Z(9),'D, M, M1, F, omega, psiK, psiT, epsK, epsT','nutation.py')])
src,t=load('lunar.py')
write('Lunar','lunar.py',[table(src,get(t,'_tblLR'),'lunarLR',Z(6),'D, M, M1, F, l, r','lunar.py'),
 table(src,get(t,'_tblB'),'lunarB',Z(5),'D, M, M1, F, b','lunar.py')])
src,t=load('equinox.py')
def terms(src,r):
    a,b,c=r.elts
    for x in (b,c):
        assert isinstance(x,ast.Call) and x.func.id=='d_to_r'
    return [num(src,a),num(src,b.args[0])*1000,num(src,c.args[0])*1000]
parts=[]
for nm,ln in (('_approx_1000','approx1000'),('_approx_3000','approx3000')):
    node=get(t,nm)
    rows=[]
    for k,v in zip(node.value.keys,node.value.values):
        z=[num(src,x)*10**5 for x in v.elts]
        assert all(x.denominator==1 for x in z)
        rows.append(f'  ("{k.value}", ['+", ".join(map(str,z))+"])")
    parts.append(f"/-- `equinox.py` {node.lineno}-{node.end_lineno} `{nm}`, in units of 1e-5. -/\ndef {ln} : List (String × List ℤ) := [\n"+",\n".join(rows)+"]\n")
parts.append(table(src,get(t,'_terms'),'equinoxTerms',Z(3),'amplitude; phase and frequency (arguments of `d_to_r`) in units of 0.001 degree','equinox.py',terms))
write('Equinox','equinox.py',parts)
