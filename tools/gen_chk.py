"""Writes lean/Verif/Spec/Vsop87Chk.lean and lean/Verif/Lemmas/Chk/*.lean.

The check values are read from tests/vsop87.chk of the project; the number of whole turns in the
longitudes is found by evaluating the series of lean/Verif/Data/Vsop.
"""
import math
import re
from decimal import Decimal, getcontext
from fractions import Fraction as F

D = "/verif/lean/Verif/Data/"
def load(planet,dim):
    t=open(D+'Vsop/'+planet+'.lean').read()
    rows={}
    for m in re.finditer(r'def (\w+) : List \(ℕ × ℕ × ℕ\) := \[(.*?)\]',t,re.S):
        rows[m.group(1)]=[tuple(map(int,x)) for x in re.findall(r'\((\d+), (\d+), (\d+)\)',m.group(2))]
    out=[]
    for k in range(7):
        s=[]; j=0
        while f'{planet.lower()}{dim}{k}_{j}' in rows:
            s+=rows[f'{planet.lower()}{dim}{k}_{j}']; j+=1
        if s: out.append(s)
    return out

getcontext().prec=80
# pi by Machin
def arctan_inv(n):
    x=Decimal(1)/n; s=x; k=1; t=x
    while abs(t)>Decimal(10)**-75:
        t=-t/(n*n); k+=2; s+=t/k
    return s
pi=4*(4*arctan_inv(5)-arctan_inv(239))
N=[int(Decimal(2)**128*(2*pi)**(2*k)/math.factorial(2*k)) for k in range(12)]
INV=int(Decimal(2)**144*Decimal(10)**-12/(2*pi)+Decimal('0.5'))

def cosN(n):
    f=((n*INV)>>80)&(2**64-1)
    if f>2**63: f=2**64-f
    neg=f>2**62
    if neg: f=2**63-f
    g=f*f; h=0
    for a in reversed(N[1:]): h=a-((h*g)>>128)
    v=(h*g)>>128
    return v if neg else 2**129-v
lines=open('/repo/tests/vsop87.chk').read().split('\n')
refs=[]
i=0
while i<len(lines):
    f=lines[i].split()
    if f and f[0]=='VSOP87D':
        p=f[1].capitalize(); jd=float(f[2][2:]); g=lines[i+1].split()
        refs.append((p,jd,g[1],g[4],g[7]))
    i+=1
P=['Mercury','Venus','Earth','Mars','Jupiter','Saturn','Uranus','Neptune']
out=open('/verif/lean/Verif/Spec/Vsop87Chk.lean','w')
out.write('''import Mathlib.Data.Int.Notation

/-!
# Published check values of the planetary theory

The `VSOP87D` entries of `tests/vsop87.chk`, the file of check values which the authors of the
theory (Bretagnon and Francou, Bureau des Longitudes) distribute with it.  They are not computed
from the tables of the program.
-/

namespace Verif

/-- Planet, Julian day, heliocentric longitude and latitude (radians) and distance (astronomical
units), all three in units of `1e-10`, the last digit given in the file. -/
structure ChkEntry where
  planet : String
  jd : ℤ
  l : ℤ
  b : ℤ
  r : ℤ

''')
tabs={}
for p in P:
    rs=[x for x in refs if x[0]==p]
    assert len(rs)==10
    out.write(f'/-- `tests/vsop87.chk`, `VSOP87D {p.upper()}`. -/\ndef chk{p} : List ChkEntry := [\n')
    rows=[]; data={d:[] for d in 'LBR'}
    for _,jd,l,b,r in rs:
        k=round((2451545-jd)/36525); assert jd==2451545-36525*k
        I=lambda v:int(Decimal(v)*10**10)
        rows.append(f'  ⟨"{p}", {int(jd)}, {I(l)}, {I(b)}, {I(r)}⟩')
        for d,v in zip('LBR',(l,b,r)):
            if (p,d) not in tabs: tabs[p,d]=load(p,d)
            t=10**25+I(v)*10**10
            if d=='L':
                x=F(0)
                for i,s in enumerate(tabs[p,d]):
                    S=sum(a*cosN(abs(10*B-k*C)) for a,B,C in s)
                    x+=F(-k,10)**i*(F(S,2**128)-sum(a for a,_,_ in s))/10**11
                m=-round((x-F(v))/2/F(314159265358979323846264338327950288,10**35))
                assert m>=0
                t-=m*628318530717958647692
                data[d].append((k,t,m))
            else: data[d].append((k,t))
    out.write(',\n'.join(rows)+']\n\n')
    o=open(f'/verif/lean/Verif/Lemmas/Chk/{p}.lean','w')
    q=p.lower()
    o.write(f'''import Verif.Lemmas.ChkEntry

/-!
# The check values of {p}
-/

namespace Verif

/-- What is to be computed for the entries of `chk{p}`. -/
def target{p} : List ChkTarget := [
''')
    o.write(',\n'.join(f"  ⟨{data['L'][i][0]}, {data['L'][i][1]}, {data['L'][i][2]}, {data['B'][i][1]}, {data['R'][i][1]}⟩" for i in range(10))+']\n\n')
    for d in 'LBR':
        o.write(f'theorem chk_{q}{d} : allN Data.{q}{d} (target{p}.map ChkTarget.{d}) = true := by decide +kernel\n\n')
        o.write(f'theorem small_{q}{d} : smallN Data.{q}{d} = true := by decide +kernel\n\n')
    o.write(f'''theorem match_{q} : matchOk "{p}" chk{p} target{p} = true := by decide +kernel

theorem chk_{q} : ∀ e ∈ chk{p}, Meets e :=
  meets_of rfl rfl rfl match_{q} small_{q}L small_{q}B small_{q}R chk_{q}L chk_{q}B chk_{q}R

end Verif
''')
out.write('/-- All entries. -/\ndef vsop87Chk : List ChkEntry :=\n  '+' ++ '.join('chk'+p for p in P)+'\n\nend Verif\n')
