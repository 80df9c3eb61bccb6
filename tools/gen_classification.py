"""Certificates for Proofs/Arithmetic*.lean: arithmetic classes of the groups and lattices a notation can have, their
cocycles modulo shifts, and the representatives of the 230 types."""
import re,itertools,sys,math
from fractions import Fraction as Fr
sys.path.insert(0,'/verif/tools')
V='/verif/lean/Verif/'
t=open(V+'Proofs/Inverse.lean').read()
def grab(name):
    s=t[t.index('def %s '%name):]; s=s[:s.index(']')]
    return [tuple(map(int,x.split(','))) for x in re.findall(r'⟨([-\d, ]+)⟩',s)]
sub=open(V+'Proofs/Subgroups.lean').read()
def subs(name):
    s=sub[sub.index('def %sSubs '%name):]; s=s[:s.index(')]')]
    return [[int(x) for x in m.split(',')] for m in re.findall(r'\(0x[0-9a-f]+, \[([\d, ]+)\]',s)]
one=(1,0,0,0,1,0,0,0,1)
def mul(a,b): return tuple(sum(a[3*i+k]*b[3*k+j] for k in range(3)) for i in range(3) for j in range(3))
def mv(a,v): return tuple(sum(a[3*i+k]*v[k] for k in range(3)) for i in range(3))
def det(a): return a[0]*(a[4]*a[8]-a[5]*a[7])-a[1]*(a[3]*a[8]-a[5]*a[6])+a[2]*(a[3]*a[7]-a[4]*a[6])
def adj(a):
    c=lambda i,j,k,l:a[i]*a[j]-a[k]*a[l]
    return (c(4,8,5,7),c(2,7,1,8),c(1,5,2,4),c(5,6,3,8),c(0,8,2,6),c(2,3,0,5),c(3,7,4,6),c(1,6,0,7),c(0,4,1,3))
def inv(a):
    d=det(a); return tuple(Fr(x,1)/d for x in adj(a))
def tr(a): return a[0]+a[4]+a[8]
def isint(a): return all(Fr(x).denominator==1 for x in a)
def toint(a): return tuple(int(x) for x in a)
letters='PABCIRF'
H=Fr(1,2)
cent={'P':[],'A':[(0,H,H)],'B':[(H,0,H)],'C':[(H,H,0)],'I':[(H,H,H)],'R':[(Fr(2,3),Fr(1,3),Fr(1,3))],'F':[(0,H,H),(H,0,H),(H,H,0)]}
# primitive bases (columns)
def cols(a,b,c): return (a[0],b[0],c[0],a[1],b[1],c[1],a[2],b[2],c[2])
prim={'P':one,'A':cols((1,0,0),(0,H,H),(0,H,-H)),'B':cols((H,0,H),(0,1,0),(H,0,-H)),'C':cols((H,H,0),(H,-H,0),(0,0,1)),
'I':cols((-H,H,H),(H,-H,H),(H,H,-H)),'R':cols((Fr(2,3),Fr(1,3),Fr(1,3)),(Fr(-1,3),Fr(1,3),Fr(1,3)),(Fr(-1,3),Fr(-2,3),Fr(1,3))),
'F':cols((0,H,H),(H,0,H),(H,H,0))}
for l in letters:
    vol={'P':1,'A':2,'B':2,'C':2,'I':2,'R':3,'F':4}[l]
    assert abs(det(prim[l]))*vol==1,l
    for v in cent[l]+[(1,0,0),(0,1,0),(0,0,1)]: assert isint(mv(inv(prim[l]),v)),(l,v)
# integer linear algebra
def hnf_kernel(rows,n):
    """integer basis of {x : rows x = 0}"""
    A=[[Fr(x) for x in r] for r in rows]; piv=[];r=0
    for c in range(n):
        p=next((i for i in range(r,len(A)) if A[i][c]!=0),None)
        if p is None: continue
        A[r],A[p]=A[p],A[r]; k=A[r][c]; A[r]=[x/k for x in A[r]]
        for i in range(len(A)):
            if i!=r and A[i][c]!=0:
                k=A[i][c]; A[i]=[x-k*y for x,y in zip(A[i],A[r])]
        piv.append(c); r+=1
    free=[c for c in range(n) if c not in piv]
    bas=[]
    for f in free:
        x=[Fr(0)]*n; x[f]=Fr(1)
        for i,c in enumerate(piv): x[c]=-A[i][f]
        bas.append(x)
    # saturate: lattice of integer points = Z^n ∩ span: use SNF of scaled basis
    if not bas: return []
    m=math.lcm(*[x.denominator for b in bas for x in b]); B=[[int(x*m) for x in b] for b in bas]
    d,U,Vv=snf(B)  # U B V = D ; B = U^-1 D V^-1 ; saturated span = rows of V^-1 first r
    Vi=minv(Vv)
    return [Vi[i] for i in range(len(B))]
def minv(M):
    n=len(M);A=[[Fr(x) for x in M[i]]+[Fr(int(i==j)) for j in range(n)] for i in range(n)]
    for c in range(n):
        p=next(i for i in range(c,n) if A[i][c]!=0); A[c],A[p]=A[p],A[c]
        k=A[c][c]; A[c]=[x/k for x in A[c]]
        for i in range(n):
            if i!=c and A[i][c]!=0:
                k=A[i][c]; A[i]=[x-k*y for x,y in zip(A[i],A[c])]
    R=[r[n:] for r in A]
    assert all(x.denominator==1 for r in R for x in r)
    return [[int(x) for x in r] for r in R]
def matmul(A,B): return [[sum(a*b for a,b in zip(r,c)) for c in zip(*B)] for r in A]
def snf(M):
    m=len(M);n=len(M[0]);A=[r[:] for r in M]
    U=[[int(i==j) for j in range(m)] for i in range(m)];W=[[int(i==j) for j in range(n)] for i in range(n)]
    def radd(i,j,k):
        A[i]=[x+k*y for x,y in zip(A[i],A[j])];U[i]=[x+k*y for x,y in zip(U[i],U[j])]
    def cadd(i,j,k):
        for r in A: r[i]+=k*r[j]
        for r in W: r[i]+=k*r[j]
    def rswap(i,j): A[i],A[j]=A[j],A[i];U[i],U[j]=U[j],U[i]
    def cswap(i,j):
        for r in A: r[i],r[j]=r[j],r[i]
        for r in W: r[i],r[j]=r[j],r[i]
    t0=0
    while t0<min(m,n):
        cand=[(abs(A[i][j]),i,j) for i in range(t0,m) for j in range(t0,n) if A[i][j]]
        if not cand: break
        _,i,j=min(cand); rswap(t0,i);cswap(t0,j)
        done=True
        for i in range(t0+1,m):
            if A[i][t0]: radd(i,t0,-(A[i][t0]//A[t0][t0])); done&=A[i][t0]==0
        for j in range(t0+1,n):
            if A[t0][j]: cadd(j,t0,-(A[t0][j]//A[t0][t0])); done&=A[t0][j]==0
        if not done: continue
        bad=next(((i,j) for i in range(t0+1,m) for j in range(t0+1,n) if A[i][j]%A[t0][t0]),None)
        if bad: radd(t0,bad[0],1); continue
        if A[t0][t0]<0:
            A[t0]=[-x for x in A[t0]];U[t0]=[-x for x in U[t0]]
        t0+=1
    d=[A[i][i] for i in range(min(m,n)) if A[i][i]]
    assert matmul(matmul(U,M),W)==A
    return d,U,W
def conjugators(rs,gs,bound=1,limit=None):
    """integer X with X r = g X, det 1 (negated if det -1)"""
    rows=[]
    for r,g in zip(rs,gs):
        for i in range(3):
            for j in range(3):
                row=[0]*9
                for k in range(3):
                    row[3*i+k]+=r[3*k+j]; row[3*k+j]-=g[3*i+k]
                rows.append(row)
    B=hnf_kernel(rows,9)
    if not B: return
    cs=sorted(itertools.product(range(-bound,bound+1),repeat=len(B)),key=lambda c:(max(map(abs,c)),sum(map(abs,c))))
    for c in cs:
        X=tuple(sum(c[i]*B[i][j] for i in range(len(B))) for j in range(9))
        d=det(X)
        if d==1: yield X
        elif d==-1: yield tuple(-x for x in X)
def closure(gens):
    S={one:()};q=[one]
    for x in q:
        for i,g in enumerate(gens):
            y=mul(x,g)
            if y not in S: S[y]=S[x]+(i,); q.append(y)
    return S
def min_gens(P):
    P=sorted(P);n=len(P)
    order=lambda g: next(k for k in range(1,7) if pw(g,k)==one)
    ps=sorted(P,key=lambda g:(-order(g),sum(map(abs,g))))
    for k in (0,1,2,3):
        for gs in itertools.combinations(ps,k):
            if len(closure(gs))==n: return list(gs)
def pw(g,k):
    r=one
    for _ in range(k): r=mul(r,g)
    return r
key=lambda g:(det(g),tr(g))
def prof(P):
    from collections import Counter
    return tuple(sorted(Counter(map(key,P)).items()))
class Cls: pass
classes=[]
def find(P):
    """class index and X, with X r_j = g_j X"""
    Ps=set(P);pf=prof(P)
    for ci,c in enumerate(classes):
        if c.prof!=pf: continue
        for rs in itertools.product(*[[r for r in P if key(r)==key(g)] for g in c.gens]):
            if len(closure(rs))!=len(P): continue
            for X in itertools.islice(conjugators(rs,c.gens),1):
                Xi=toint(inv(X))
                if {mul(mul(X,r),Xi) for r in P}==c.P: return ci,X,rs
    return None
pairs={}
for nm in ('cubic','hex'):
    E=grab(nm+'Explicit')
    for si,s in enumerate(subs(nm)):
        P=[E[i] for i in s]
        for l in letters:
            B=prim[l];Bi=inv(B)
            Q=[mul(mul(Bi,r),B) for r in P]
            if not all(map(isint,Q)):
                pairs[nm,si,l]=None; continue
            Q=[toint(q) for q in Q]
            f=find(Q)
            if f is None:
                c=Cls();c.P=set(Q);c.prof=prof(Q);c.gens=min_gens(Q);c.name=(nm,si,l);classes.append(c)
                f=find(Q)
                assert f
            pairs[nm,si,l]=(f[0],f[1],f[2])
print(len(classes),sum(1 for p in pairs.values() if p),len(pairs))
if __name__=='__main__':
    import pickle
    pickle.dump((classes and [(c.P,c.gens,c.name) for c in classes],pairs),open('/tmp/cl/stage1.pkl','wb'))
