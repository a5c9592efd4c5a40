# Writes lean/Verif/Normal/Data.lean from the literals of /repo/src/util/rng/{f,d}randn_table.{cc,h}.
import re
from fractions import Fraction
out=open('/verif/lean/Verif/Normal/Data.lean','w')
out.write('''import Verif.Normal.Model

/-!
The literals of the tables of the normal generators, in units of 10^-44 (generated by tools/gen_zig.py).
-/
namespace Verif.Normal

''')
for name,n in(('frandn',65),('drandn',257)):
    s=open(f'/repo/src/util/rng/{name}_table.cc').read()
    h=open(f'/repo/src/util/rng/{name}_table.h').read()
    lines=s.split('\n')
    def tab(v,doc):
        i=s.index(f'{name}_zig_{v}['); t=s[i:s.index('};',i)]
        l0=s[:i].count('\n')+1; l1=l0+t.count('\n')
        a=re.findall(r'(\d\.\d+e[+-]\d+)f?',t)
        k=[Fraction(q)*10**44 for q in a]
        assert len(a)==n and all(q.denominator==1 for q in k)
        out.write(f'/-- `{name}_zig_{v}`, /repo/src/util/rng/{name}_table.cc:{l0}-{l1}. -/\n')
        out.write(f'def {name}{v.upper()} : List ℕ := [\n'+',\n'.join('  '+str(q.numerator) for q in k)+']\n\n')
    tab('x',''); tab('y','')
    r=re.search(name.upper()+r'_R\s+\((\S+?)f?\)',h).group(1)
    l=h[:h.index(name.upper()+'_R')].count('\n')+1
    out.write(f'/-- `{name.upper()}_R`, /repo/src/util/rng/{name}_table.h:{l}. -/\n')
    out.write(f'def {name}R : ℕ := {(Fraction(r)*10**44).numerator}\n\n')
out.write('end Verif.Normal\n')
