import sys
sys.path.insert(0,'/root/work')
from h5 import H5
from decimal import Decimal
def dec(xs):
    ds=[Decimal(repr(float(x))) for x in xs]
    sc=max(0,max(-d.normalize().as_tuple().exponent if d!=0 else 0 for d in ds))
    out=[]
    for d in ds:
        v=d.scaleb(sc); assert v==int(v); out.append(int(v))
    return out,sc
def fmt(xs):
    o,s=dec(xs)
    lines=[];cur='';
    for i,v in enumerate(o):
        t=str(v)+(', ' if i<len(o)-1 else '')
        if len(cur)+len(t)>112: lines.append(cur.rstrip()); cur=''
        cur+=t
    lines.append(cur)
    body='\n    '.join(lines)
    return f'⟨[{body}], {s}⟩'
B='/repo/pyrtlib/_lineshape/'
OUT='/verif/lean/Verif/Model/'
# water
h=H5(B+'h2o_lineshape.nc'); w=open(OUT+'TablesWater.lean','w')
w.write('''import Verif.Model.TableBase

/-!
# Line tables of water vapour

Contents of `pyrtlib/_lineshape/h2o_lineshape.nc` (read with a small HDF5 reader), one group per model, in the order of
the file.  Column `c` of `mtx` is entry `c` of `cols`.  Every number is the shortest decimal of the stored float.
-/

namespace Verif.Model

''')
names=[]
for g,a in h.links(h.root).items():
    L=h.links(a); dims,_,m=h.data(L['mtx']); ctr=h.data(L['ctr'])[2]; rl=h.data(L['reftline'])[2]
    ex=[]
    if 'd2air' in L: ex=[h.data(L['d2air'])[2][0],h.data(L['d2self'])[2][0]]
    names.append(g)
    w.write(f'/-- Group `{g}`. -/\ndef water{g} : RawTable where\n  rows := {dims[0]}\n  cols := [\n')
    cols=[fmt([m[i*dims[1]+c] for i in range(dims[0])]) for c in range(dims[1])]
    w.write(',\n'.join('    '+c for c in cols)+']\n')
    w.write(f'  ctr := {fmt(ctr)}\n  reftline := {fmt(rl)}\n  extra := {fmt(ex) if ex else "⟨[], 0⟩"}\n\n')
w.write('/-- The groups of the file, in its order. -/\ndef waterGroups : List (String × RawTable) := [\n'+',\n'.join(f'  ("{n}", water{n})' for n in names)+']\n\nend Verif.Model\n'); w.close()
# ozone
h=H5(B+'o3_lineshape.nc'); w=open(OUT+'TablesOzone.lean','w')
w.write('''import Verif.Model.TableBase

/-!
# Line tables of ozone

Contents of `pyrtlib/_lineshape/o3_lineshape.nc`, one group per model, in the order of the file.  Only the columns 0-6 of
`mtx` (those read by `o3ll.py`) are reproduced.
-/

namespace Verif.Model

''')
names=[]
for g,a in h.links(h.root).items():
    L=h.links(a); dims,_,m=h.data(L['mtx']); rl=h.data(L['reftline'])[2]
    names.append(g)
    w.write(f'/-- Group `{g}`. -/\ndef ozone{g} : RawTable where\n  rows := {dims[0]}\n  cols := [\n')
    cols=[fmt([m[i*dims[1]+c] for i in range(dims[0])]) for c in range(7)]
    w.write(',\n'.join('    '+c for c in cols)+']\n')
    w.write(f'  ctr := ⟨[], 0⟩\n  reftline := {fmt(rl)}\n  extra := ⟨[], 0⟩\n\n')
w.write('/-- The groups of the file, in its order. -/\ndef ozoneGroups : List (String × RawTable) := [\n'+',\n'.join(f'  ("{n}", ozone{n})' for n in names)+']\n\nend Verif.Model\n'); w.close()
# oxygen
h=H5(B+'o2_lineshape.nc'); w=open(OUT+'TablesOxygen.lean','w')
w.write('''import Verif.Model.TableBase

/-!
# Line tables of oxygen

Contents of `pyrtlib/_lineshape/o2_lineshape.nc`: the variables of each group, in the order of the file.  `wb300` and `x`
are stored in single precision; the decimals are those of the resulting double.
-/

namespace Verif.Model

''')
names=[]
for g,a in h.links(h.root).items():
    names.append(g)
    w.write(f'/-- Group `{g}`. -/\ndef oxygen{g} : List (String × Col) := [\n')
    it=[]
    for v,b in h.links(a).items():
        r=h.data(b)
        if r[0]=='other': continue
        it.append(f'  ("{v}", {fmt(r[2])})')
    w.write(',\n'.join(it)+']\n\n')
w.write('/-- The groups of the file, in its order. -/\ndef oxygenGroups : List (String × List (String × Col)) := [\n'+',\n'.join(f'  ("{n}", oxygen{n})' for n in names)+']\n\nend Verif.Model\n'); w.close()
