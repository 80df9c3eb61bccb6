"""Writes Data/Superlattice.lean: for every arithmetic class (Data/Arith.lean), p = 2, 3 and every subgroup W of (Z/p)^3 either
nothing (W is not invariant) or how the class over the lattice Z^3 + W/p is a class again."""
import re,itertools,math,sys,pickle,os
src=open('/verif/tools/gen_classification.py').read()
exec(src.split("letters='PABCIRF'")[0])
exec('# integer linear algebra'+src.split('# integer linear algebra')[1].split('class Cls')[0])
A=open('/verif/lean/Verif/Data/Arith.lean').read()
classes=[]
class Cls: pass
for m in re.finditer(r'gens := ⟨⟨([-\d, ]+)⟩, ⟨([-\d, ]+)⟩, ⟨([-\d, ]+)⟩⟩',A):
    c=Cls();c.gens=[tuple(map(int,x.split(','))) for x in m.groups()];c.S=closure(c.gens);c.P=set(c.S);c.prof=prof(c.P);classes.append(c)
assert len(classes)==73
def find(P):
    pf=prof(P)
    for bound in (1,2,3):
        for ci,c in enumerate(classes):
            if c.prof!=pf: continue
            gens=[g for g in c.gens if g!=one]
            for rs in itertools.product(*[[r for r in P if key(r)==key(g)] for g in gens]):
                if len(closure(rs))!=len(P): continue
                for X in itertools.islice(conjugators(rs,gens,bound),1):
                    Xi=toint(inv(X))
                    if {mul(mul(X,r),Xi) for r in P}==c.P:
                        it=iter(rs)
                        return ci,X,[one if g==one else next(it) for g in c.gens]
    return None
def vec(p,i): return (i//(p*p),i//p%p,i%p)
def idx(p,v): return (v[0]%p)*p*p+(v[1]%p)*p+v[2]%p
def table(p):
    n=p**3
    M=[[idx(p,[a+b for a,b in zip(vec(p,i),vec(p,j))]) for j in range(n)] for i in range(n)]
    T=0
    for i in range(n):
        for j in range(n): T|=M[i][j]<<(6*(48*i+j))
    def span(H,gens):
        S=set(H);q=list(H)
        while q:
            x=q.pop()
            for g in gens:
                y=M[x][g]
                if y not in S: S.add(y);q.append(y)
        return frozenset(S)
    z=frozenset([0]);sb={z:[]};todo=[z]
    while todo:
        H=todo.pop()
        for r in range(n):
            if r not in H:
                K=span(H|{r},sb[H]+[r])
                if K not in sb: sb[K]=sb[H]+[r];todo.append(K)
    out=sorted(sb.items(),key=lambda kv:(len(kv[0]),sum(1<<i for i in kv[0])))
    place={H:i for i,(H,g) in enumerate(out)}
    ups=lambda H,g: sorted({place[span(H|{r},g+[r])] for r in range(n) if r not in H})
    return T,[(sum(1<<i for i in H),sorted(H),g,ups(H,g)) for H,g in out]
def basis(p,W):
    """columns: reduced basis of Z^3 + W/p"""
    vs=[tuple(Fr(x,p) for x in vec(p,i)) for i in W]
    vs+=[tuple(x-y for x,y in zip(v,s)) for v in vs for s in itertools.product((0,1),repeat=3)]+[(1,0,0),(0,1,0),(0,0,1)]
    vs=sorted(set(v for v in vs if any(v)),key=lambda v:(sum(x*x for x in v),[-x for x in v]))
    vol=Fr(1,len(W))
    for t in itertools.combinations(vs[:40],3):
        d=det(cols(*t))
        if abs(d)==vol: return cols(*t)
def cols(a,b,c): return (a[0],b[0],c[0],a[1],b[1],c[1],a[2],b[2],c[2])
def v(x): return '⟨'+', '.join(str(int(y)) for y in x)+'⟩'
def lst(x): return '['+', '.join(map(str,x))+']'
cache={}
T='';N=0
for p in (2,3):
    tab,sb=table(p)
    print(p,len(sb))
    T+='/-- The addition table of (ℤ/%d)³, six bits per entry. -/\ndef add%dTable : Nat :=\n  0x%x\n\n'%(p,p,tab)
    T+='/-- The subgroups, as sets of bits. -/\ndef add%dMasks : List Nat :=\n  [%s]\n\n'%(p,', '.join(hex(x[0]) for x in sb))
    T+='/-- The subgroups: elements, generators, and the places of the groups generated with one more element. -/\ndef add%dSubs : List (Nat × List Nat × List Nat × List Nat) := [\n'%p+',\n'.join('  (0x%x, %s, %s, %s)'%(m,lst(e),lst(g),lst(u)) for m,e,g,u in sb)+']\n\n'
    names=[]
    for ci,c in enumerate(classes):
        ents=[]
        for m,W,_,_ in sb:
            Ws=set(W)
            if not all(idx(p,mv(g,vec(p,i))) in Ws for g in c.gens for i in W): ents.append('none'); continue
            B=basis(p,W);Bi=inv(B)
            Q=[toint(mul(mul(Bi,r),B)) for r in c.P]
            k=tuple(sorted(Q))
            if k not in cache: cache[k]=find(Q)
            f=cache[k]
            assert f,(ci,p,W)
            cj,X,rs=f
            Am=mul(X,Bi)
            if det(Am)<0: Am=tuple(-x for x in Am)
            d=math.lcm(*[Fr(x).denominator for x in Am]); a=toint(tuple(x*d for x in Am))
            ws=[c.S[toint(mul(mul(B,r),Bi))] for r in rs]
            Ai=inv(Am)
            b=[[p*Ai[3*i+j] for i in range(3)] for j in range(3)]
            assert all(isint(x) for x in b)
            ents.append('some ⟨%d, %s, %d, ⟨%s⟩, ⟨%s⟩⟩'%(cj,v(a),d,', '.join(map(lst,ws)),', '.join(map(v,b)))); N+=1
        # runs of none
        T+='/-- Class %d. -/\ndef up%d_%02d : List (Option Up) := [\n  %s]\n\n'%(ci,p,ci,', '.join(ents) if all(e=='none' for e in ents) else ',\n  '.join(ents).replace('none,\n  ','none, '))
        names.append('up%d_%02d'%(p,ci))
        print(p,ci,len(c.P),sum(e!='none' for e in ents),flush=True)
    T+='/-- All classes. -/\ndef ups%d : List (List (Option Up)) := [%s]\n\n'%(p,', '.join(names))
print(N,len(T))
head='''import Verif.Proofs.Superlattice

/-!
# Lattices between a lattice and its half or third

Generated by tools/gen_superlattice.py.
-/

namespace Verif.Arith

'''
open('/verif/lean/Verif/Data/Superlattice.lean','w').write(head+T+'end Verif.Arith\n')
