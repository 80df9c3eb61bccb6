import pickle,math
exec(open('/verif/tools/gen_classification.py').read().split("class Cls")[0])
out,pairs=pickle.load(open('/tmp/cl/stage2.pkl','rb'))
def v(x): return '⟨'+', '.join(str(int(y)) for y in x)+'⟩'
T=''
for nm in ('cubic','hex'):
    E=grab(nm+'Explicit');rows=[]
    idx={e:i for i,e in enumerate(E)}
    for si,s in enumerate(subs(nm)):
        ci,X,rs=pairs[nm,si,'P']; o=out[ci]
        A=X if det(X)>0 else tuple(-x for x in X)
        a=toint(A); assert det(a)==1
        rr=[idx[toint(r)] for r in rs]
        rr+= [idx[one]]*(3-len(rr))
        for j,r in enumerate(rr): assert mul(a,E[r])==mul(o['gens'][j],a) and r in s
        rows.append('⟨%d, %s, %s⟩'%(ci,v(a),v(rr)))
    T+='/-- For every subgroup of `%sSubs`. -/\ndef %sPairs : List Pair := [\n  %s]\n\n'%(nm,nm,',\n  '.join(rows))
head='''import Verif.Proofs.ArithPair

/-!
# From subgroups to arithmetic classes

Generated by tools/gen_classification4.py.
-/

namespace Verif.Arith

'''
open('/verif/lean/Verif/Data/ArithPairs.lean','w').write(head+T+'end Verif.Arith\n')
