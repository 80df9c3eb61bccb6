import pickle,math
from fractions import Fraction as Fr
out,pairs=pickle.load(open('/tmp/cl/stage2.pkl','rb'))
def v(x): return '⟨'+', '.join(str(int(y)) for y in x)+'⟩'
def tri(f,x): return '⟨'+', '.join(f(y) for y in x)+'⟩'
def lst(f,x): return '['+', '.join(f(y) for y in x)+']'
def w(x): return '['+', '.join(map(str,x))+']'
L=[]
for ci,o in enumerate(out):
    N=o['N']; d=o['d']
    den=[N]
    for a,(ri,X,q,ws) in o['comp'].items(): den+=[Fr(x).denominator for x in q]
    M=math.lcm(*den,*d)
    S=o['S']
    s=[[S[i][3*b+j]*N for i in range(3) for j in range(3)] for b in range(3)]
    assert all(Fr(x).denominator==1 for b in s for x in b)
    words=list(o['W'].values())
    terms=[]
    for l in range(len(d)):
        e=o['e'][l];c=o['c'][l]
        terms.append('⟨%d, %s, %s⟩'%(d[l],tri(v,[e[0:3],e[3:6],e[6:9]]),lst(v,[c[3*j:3*j+3] for j in range(len(o['rels']))])))
    def vec(a):
        r=[sum(Fr(a[b]*o['e'][l][i],d[l]) for b,l in enumerate(o['big'])) for i in range(9)]
        return [[x*M for x in r[3*b:3*b+3]] for b in range(3)]
    reps=lst(lambda a:tri(v,vec(a)),o['reps'])
    certs=[]
    for a in o['tup']:
        ri,X,q,ws=o['comp'][a]
        certs.append('⟨%d, %s, %s, %s⟩'%(ri,v(X),v([x*M for x in q]),tri(w,ws)))
    L.append('/-- Class %d. -/\ndef k%02d : Cls where\n  gens := %s\n  words := %s\n  rels := %s\n  terms := [%s]\n  s := %s\n  n := %d\n  m := %d\n  reps := %s\n  certs := [\n    %s]\n'%(ci,ci,
      tri(v,o['gens']),lst(w,words),lst(lambda r:'(%s, %s)'%(w(r[0]),w(r[1])),o['rels']),',\n    '.join(terms),tri(v,s),N,M,reps,',\n    '.join(certs)))
head='''import Verif.Proofs.ArithClass

/-!
# The arithmetic classes a notation can have

Generated by tools/gen_classification.py, gen_classification2.py and gen_classification3.py.
-/

namespace Verif.Arith

'''
open('/verif/lean/Verif/Data/Arith.lean','w').write(head+'\n'.join(L)+'\n/-- All classes. -/\ndef classes : List Cls := ['+', '.join('k%02d'%i for i in range(len(out)))+']\n\nend Verif.Arith\n')
