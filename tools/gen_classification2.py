import pickle,itertools,math,sys
from fractions import Fraction as Fr
exec(open('/verif/tools/gen_classification.py').read().split("pairs={}")[0])
cl,pairs=pickle.load(open('/tmp/cl/stage1.pkl','rb'))
zero9=(0,)*9
def madd(a,b,k=1): return tuple(x+k*y for x,y in zip(a,b))
def sym(word,gens):
    """rotation and coefficients (three 3x3 matrices) of the product of a word"""
    R=one;C=[zero9]*3
    for i in word:
        C=[madd(C[j],R) if j==i else C[j] for j in range(3)]
        R=mul(R,gens[i])
    return R,C
def rowsof(C): # 3 rows of length 9
    return [[C[j][3*r+k] for j in range(3) for k in range(3)] for r in range(3)]
def lattice_inv(rows):
    rows=[r for r in rows if any(r)]
    if not rows: return (0,())
    d,_,_=snf(rows); return (len(d),tuple(d))
import random
def index(rows):
    r=lattice_inv(rows); return r
total=0;nt=0
out=[]
for ci,(P,gens,name) in enumerate(cl):
    gens=list(gens)+[one]*(3-len(gens)) if True else gens
    k=len([g for g in gens if g!=one])
    W=closure(gens[:k])
    assert set(W)==P
    rels=[((i,),()) for i in range(k,3)]
    allr=[]
    for x,w in W.items():
        for i in range(k):
            y=mul(x,gens[i])
            if W[y]!=w+(i,): allr.append((w+(i,),W[y]))
    def rr(r):
        (R1,C1),(R2,C2)=sym(r[0],gens),sym(r[1],gens); assert R1==R2
        return rowsof([madd(a,b,-1) for a,b in zip(C1,C2)])
    full=lattice_inv(sum([rr(r) for r in rels+allr],[]))
    allr.sort(key=lambda r:len(r[0])+len(r[1]))
    chosen=rels+allr
    # greedy removal from the longest
    for r in sorted(allr,key=lambda r:-len(r[0])-len(r[1])):
        c2=[x for x in chosen if x!=r]
        if c2 and lattice_inv(sum([rr(x) for x in c2],[]))==full: chosen=c2
    rels=chosen
    R=sum([rr(r) for r in rels],[])
    d,U,Wm=snf(R)
    Wi=minv(Wm)
    r=len(d)
    # y = Wi v ; U R Wm = D ; (U R v)_l = d_l y_l ; v = Wm y
    e=[[Wm[i][l] for i in range(9)] for l in range(r)]
    c=[U[l] for l in range(r)]
    # D s for the rest
    D=[[int(i==j)-gens[b][3*i+j] for j in range(3)] for b in range(3) for i in range(3)]
    rest=[[Fr(int(i==j))-sum(Fr(e[l][i]*sum(c[l][m]*R[m][j] for m in range(len(R))),d[l]) for l in range(r)) for j in range(9)] for i in range(9)]
    # solve D S = rest : S 3x9
    # least: gaussian elimination on D augmented
    A=[[Fr(x) for x in D[i]]+rest[i] for i in range(9)]
    piv=[];row=0
    for cc in range(3):
        p=next((i for i in range(row,9) if A[i][cc]!=0),None)
        if p is None: continue
        A[row],A[p]=A[p],A[row]; kk=A[row][cc];A[row]=[x/kk for x in A[row]]
        for i in range(9):
            if i!=row and A[i][cc]!=0:
                kk=A[i][cc];A[i]=[x-kk*y for x,y in zip(A[i],A[row])]
        piv.append(cc);row+=1
    assert all(not any(A[i]) for i in range(row,9)),name
    S=[[Fr(0)]*9 for _ in range(3)]
    for i,cc in enumerate(piv): S[cc]=A[i][3:]
    N=math.lcm(*[x.denominator for q in S for x in q],*d)
    big=[l for l in range(r) if d[l]>1]
    tup=list(itertools.product(*[range(d[l]) for l in big]))
    nt+=len(tup)
    def vec(a): # rational cocycle on gens
        v=[sum(Fr(a[b]*e[l][i],d[l]) for b,l in enumerate(big)) for i in range(9)]
        return v
    def reduce(v):
        Rv=[sum(R[m][j]*v[j] for j in range(9)) for m in range(len(R))]
        assert all(x.denominator==1 for x in map(Fr,Rv))
        y=[sum(c[l][m]*Rv[m] for m in range(len(R))) for l in range(r)]
        a=tuple(int(y[l])%d[l] for l in big)
        s=[sum(S[i][j]*v[j] for j in range(9)) for i in range(3)]
        w=vec(a)
        for b in range(3):
            gs=mv(gens[b],s)
            assert all(Fr(v[3*b+i]-(s[i]-gs[i])-w[3*b+i]).denominator==1 for i in range(3))
        return a,s
    def evalw(word,v):
        Rr=one;T=(0,0,0)
        for i in word:
            T=tuple(x+y for x,y in zip(T,mv(Rr,v[3*i:3*i+3])));Rr=mul(Rr,gens[i])
        return Rr,T
    # normaliser elements with small entries
    norms=[]
    Pk=sorted(P)
    for rs in itertools.product(*[[x for x in Pk if key(x)==key(g)] for g in gens[:k]]):
        if len(closure(rs))!=len(P): continue
        for X in itertools.islice(conjugators(rs,gens[:k]),60 if k else 60):
            norms.append((X,tuple(W[x] for x in rs)+tuple(() for _ in range(3-k))))
    # keep only those normalising (automatic); BFS
    comp={};reps=[]
    best={}
    for a0 in tup:
        if a0 in comp: continue
        ri=len(reps);reps.append(a0)
        comp[a0]=(ri,one,(Fr(0),)*3,tuple((i,) for i in range(k))+((),)*(3-k));
        q=[a0]
        for a in q:
            v=vec(a)
            for X,ws in norms:
                z=[]
                for j in range(3):
                    Rj,T=evalw(ws[j],v)
                    assert mul(X,Rj)==mul(gens[j],X)
                    z+=list(mv(X,T))
                a2,s=reduce(z)
                if a2 in comp: continue
                # map X: a -> a2 ; want map a2 -> rep : inverse X, then a -> rep
                # conj by (X, q=-s): v(a) -> v(a2).   inverse affine: X^-1, X^-1 s
                Xi=toint(inv(X)); 
                r0,Y,qq,_=comp[a]
                Z=mul(Y,Xi)
                # (Y,qq) o (Xi, Xi s): translation = Y Xi s + qq
                qz=tuple(x+y for x,y in zip(mv(Z,s),qq))
                Zi=toint(inv(Z))
                wz=tuple(W[mul(mul(Zi,gens[j]),Z)] for j in range(3))
                comp[a2]=(ri,Z,qz,wz);q.append(a2)
    # verify
    for a,(ri,X,q,ws) in comp.items():
        v=vec(a);u=vec(reps[ri])
        for j in range(3):
            Rj,T=evalw(ws[j],v)
            assert mul(X,Rj)==mul(gens[j],X) and det(X)==1
            gq=mv(gens[j],q);XT=mv(X,T)
            assert all(Fr(XT[i]+q[i]-gq[i]-u[3*j+i]).denominator==1 for i in range(3))
    total+=len(reps)
    print(ci,name,len(P),k,[d[l] for l in big],len(tup),len(reps),'rels',len(rels),'N',N,len(norms),flush=True)
    out.append(dict(P=P,gens=gens,W=W,rels=rels,d=d,e=e,c=c,S=S,N=N,big=big,tup=tup,comp=comp,reps=reps))
print(total,nt)
pickle.dump((out,pairs),open('/tmp/cl/stage2.pkl','wb'))
