"""Generates lean/Verif/Data/Fixed.lean: for every group of the default table that has one, an operation (a product of
generators and a centring translation) that leaves a point where it is. Untrusted: the kernel checks the result.
Run: python3 gen_fixed.py"""
import os
here=os.path.dirname(os.path.abspath(__file__))
__file__=here+'/gen_rows.py'
exec(open(here+'/gen_rows.py').read().split('# ---------------------------------------------------------------- output')[0])
FREE=[1,4,7,9,19,29,33,76,78,144,145,169,170]
CO=[0,6,12,18,3,9,15,21,8,16,4,20,2,10,14,22]
def fixed(R,t):
    for x in CO:
        for y in CO:
            for z in CO:
                q=mv(R,(x,y,z))
                if all((q[i]+2*t[i]-(x,y,z)[i])%24==0 for i in range(3)): return (x,y,z)
rows=[]
for i,s in enumerate(DHALL):
    lat,G=gens(s)
    best=None
    for l in (1,2,3,4):
        for w in itertools.product(range(len(G)),repeat=l):
            R,t=ID,(0,0,0)
            for k in w:
                S,u=G[k]
                t=tuple(a+b for a,b in zip(mv(R,u),t)); R=mm(R,S)
            if R==ID: continue
            for v in LAT[lat]:
                p=fixed(R,tuple(a+b for a,b in zip(t,v)))
                if p is not None: best=(w,v,p); break
            if best: break
        if best: break
    assert (best is None)==(i+1 in FREE),(i+1,s,best)
    if best: rows.append((i,)+best)
def V(v): return '⟨%s⟩'%', '.join(map(str,v))
out='''import Verif.Proofs.Fixed

/-! # Operations with fixed points (written by tools/gen_fixed.py) -/

namespace Verif

def fixRows : List FixRow := [
'''+',\n'.join('  ⟨%d, [%s], %s, %s⟩'%(i,', '.join(map(str,w)),V(v),V(p)) for i,w,v,p in rows)+''']

end Verif
'''
open(here+'/../lean/Verif/Data/Fixed.lean','w').write(out)
print(len(rows),max(len(r[1]) for r in rows))
