"""Generates lean/Verif/Data/Mirror.lean: for every group of the default table without improper operations a change of basis
of negative determinant to the group of opposite hand. Untrusted: the kernel checks the result. Run: python3 gen_mirror.py"""
import os
here=os.path.dirname(os.path.abspath(__file__))
__file__=here+'/gen_rows.py'
exec(open(here+'/gen_rows.py').read().split('# ---------------------------------------------------------------- output')[0].replace('if d*len','if abs(d)*len'))
PAIRS=[(76,78),(91,95),(92,96),(144,145),(151,153),(152,154),(169,170),(171,172),(178,179),(180,181),(212,213)]
ENA={}
for a,b in PAIRS: ENA[a]=b; ENA[b]=a
gs=[group(s) for s in DHALL]; gg=[gens(s) for s in DHALL]
cand=[]
for v in itertools.product((-1,0,1),repeat=9):
    A=(v[0:3],v[3:6],v[6:9])
    if det(A)==-1: cand.append((A,1))
hex_=[]
cand.sort(key=lambda c:(c[0]!=NEG,sum(abs(x) for r in c[0] for x in r)))
def moves(P,D,q):
    c=red_move(smul(2,P),tuple(D*x for x in q),2*D)
    A=smul(-1,adj(P)); Aq=mv(A,q)
    e=red_move(smul(2*D,A),tuple(-D*x for x in Aq),2)
    return c,e
def V(v): return '⟨%s⟩'%', '.join(map(str,v))
def M(m): return '⟨%s⟩'%', '.join(str(x) for r in m for x in r)
def mov(m): return '⟨%s, %s, %d⟩'%(M(m[0]),V(m[1]),m[2])
out=[]
for i,s in enumerate(DHALL):
    if any(det(r)==-1 for r in gs[i][1]): continue
    j=ENA.get(i+1,i+1)-1
    r=find(i,j)
    assert r,(i+1,s)
    c,e=moves(*r)
    out.append('⟨%d, %s, %s⟩'%(i,mov(c),mov(e)))
print(len(out))
open(HERE+'/Data/Mirror.lean','w').write("""import Verif.Proofs.Mirror

/-! # Changes of basis to the group of opposite hand (written by tools/gen_mirror.py) -/

namespace Verif

def mirrorRows : List MirrorRow := [
  %s]

end Verif
"""%',\n  '.join(out))
