"""Generates lean/Verif/Data/Functionals.lean, lean/Verif/Rows/Chunk*.lean, Rows/All.lean and Rows/Pairs.lean: for every Hall
symbol of the two tables the literal data (invariant, change of basis) that the kernel checks. The search below is
untrusted; only the Lean checks count. Run: python3 /verif/tools/gen_rows.py"""
import re, itertools, os
HERE = os.path.dirname(os.path.dirname(os.path.abspath(__file__))) + '/lean/Verif'
src=open(HERE + '/Data/Tables.lean').read()
def tab(name):
    m=re.search(r'def '+name+r' : List String := \[(.*?)\n\]',src,re.S)
    return [eval('"'+x+'"') for x in re.findall(r'"((?:[^"\\]|\\.)*)"',m.group(1))]
NUM=tab('numberAndChoice');HM=tab('hmFull');HALL=tab('hallName')
DN=tab('defaultNumberAndChoice');DHM=tab('defaultHmFull');DHALL=tab('defaultHallName')
VAR=tab('variantNames')
LAT={'P':[(0,0,0)],'A':[(0,0,0),(0,6,6)],'B':[(0,0,0),(6,0,6)],'C':[(0,0,0),(6,6,0)],'I':[(0,0,0),(6,6,6)],
 'R':[(0,0,0),(8,4,4),(4,8,8)],'F':[(0,0,0),(0,6,6),(6,0,6),(6,6,0)]}
TR=dict(a=(6,0,0),b=(0,6,0),c=(0,0,6),n=(6,6,6),u=(3,0,0),v=(0,3,0),w=(0,0,3),d=(3,3,3))
def cols(a,b,c): return tuple((a[i],b[i],c[i]) for i in range(3))
def rotm(f,d,a):
    if f==1: return cols((1,0,0),(0,1,0),(0,0,1))
    T={(2,'','x'):((1,0,0),(0,-1,0),(0,0,-1)),(2,'','y'):((-1,0,0),(0,1,0),(0,0,-1)),(2,'','z'):((-1,0,0),(0,-1,0),(0,0,1)),
    (2,"'",'x'):((-1,0,0),(0,0,-1),(0,-1,0)),(2,"'",'y'):((0,0,-1),(0,-1,0),(-1,0,0)),(2,"'",'z'):((0,-1,0),(-1,0,0),(0,0,-1)),
    (2,'"','x'):((-1,0,0),(0,0,1),(0,1,0)),(2,'"','y'):((0,0,1),(0,-1,0),(1,0,0)),(2,'"','z'):((0,1,0),(1,0,0),(0,0,-1)),
    (3,'','x'):((1,0,0),(0,0,1),(0,-1,-1)),(3,'','y'):((-1,0,-1),(0,1,0),(1,0,0)),(3,'','z'):((0,1,0),(-1,-1,0),(0,0,1)),
    (4,'','x'):((1,0,0),(0,0,1),(0,-1,0)),(4,'','y'):((0,0,-1),(0,1,0),(1,0,0)),(4,'','z'):((0,1,0),(-1,0,0),(0,0,1)),
    (6,'','x'):((1,0,0),(0,1,1),(0,-1,0)),(6,'','y'):((0,0,-1),(0,1,0),(1,0,1)),(6,'','z'):((1,1,0),(-1,0,0),(0,0,1))}
    if f==3 and d=='*': return cols((0,1,0),(0,0,1),(1,0,0))
    return cols(*T[(f,d,a)])
def parse(s):
    minus=s.startswith('-'); s2=s[1:] if minus else s
    lat=s2[0]; rest=s2[1:]
    m=re.search(r'\(([^)]*)\)',rest)
    shift=(0,0,0)
    if m: shift=tuple(int(x) for x in m.group(1).split()); rest=rest[:m.start()]
    syms=[]
    for tok in rest.split():
        mm=re.fullmatch(r"(-?)([12346])([xyz'\"*]?)([1-5]?)([abcnuvwd]*)",tok)
        assert mm,(s,tok)
        mi,f,ax,sub,let=mm.groups()
        d=ax if ax in ("'",'"','*') and ax else ''
        a=ax if ax in 'xyz' and ax else None
        syms.append([bool(mi),int(f),d,a,int(sub) if sub else 0,let])
    if syms and syms[0][3] is None: syms[0][3]='z'
    if len(syms)>1 and syms[1][1]==2:
        if syms[0][1] in(2,4): syms[1][3]='x'
        elif syms[0][1] in(3,6):
            syms[1][2]=syms[1][2] or "'"; syms[1][3]='z'
    if len(syms)>2 and syms[2][1]==3: syms[2][2]='*'
    for x in syms:
        if x[3] is None: x[3]='z'   # check
    return minus,lat,syms,shift
def mm(A,B): return tuple(tuple(sum(A[i][k]*B[k][j] for k in range(3)) for j in range(3)) for i in range(3))
def mv(A,v): return tuple(sum(A[i][k]*v[k] for k in range(3)) for i in range(3))
ID=((1,0,0),(0,1,0),(0,0,1)); NEG=((-1,0,0),(0,-1,0),(0,0,-1))
SCREW={(3,1):4,(3,2):8,(4,1):3,(4,3):9,(6,1):2,(6,2):4,(6,4):8,(6,5):10}
def gens(s):
    minus,lat,syms,v=parse(s)
    G=[]
    if minus: G.append((NEG,(0,0,0)))
    for mi,f,d,a,sub,let in syms:
        R=rotm(f,d,a); t=[0,0,0]
        if sub and f>2:
            t['xyz'.index(a)]=SCREW[(f,sub)]
        w=[sum(TR[c][i] for c in let)%12 for i in range(3)]
        t=[t[i]+w[i] for i in range(3)]
        if mi: R=mm(NEG,R)
        Rv=mv(R,v)
        G.append((R,tuple((t[i]-Rv[i]+v[i])%12 for i in range(3))))
    return lat,G
def group(s):
    lat,G=gens(s)
    L={ID:(0,0,0)}; todo=[ID]
    while todo:
        R=todo.pop(0)
        for (S,t) in G:
            Q=mm(R,S)
            u=tuple((x+y)%12 for x,y in zip(mv(R,t),L[R]))
            if Q not in L: L[Q]=u; todo.append(Q)
            else:
                d=tuple((a-b)%12 for a,b in zip(u,L[Q]))
                assert d in LAT[lat],(s,d)
    return lat,L

# ---------------------------------------------------------------- rows
def num(s): return int(s.split(':')[0])
FULLR=[(num(NUM[i]),NUM[i],HALL[i]) for i in range(len(HALL))]
EXTRA=[(num(DN[i]),DN[i],s) for i,s in enumerate(DHALL) if s not in HALL]
R=FULLR+EXTRA
gs=[group(s) for _,_,s in R]; gg=[gens(s) for _,_,s in R]
ref={}
for i,(n,_,_) in enumerate(FULLR): ref.setdefault(n,i)

# ---------------------------------------------------------------- invariants under a change of origin
cl={}
for i,(l,L) in enumerate(gs): cl.setdefault((l,frozenset(L)),[]).append(i)
def gen(S):
    S=list(S)
    def closure(g):
        C={ID};todo=[ID]
        while todo:
            x=todo.pop()
            for y in g:
                z=mm(x,y)
                if z not in C: C.add(z);todo.append(z)
        return C
    for k in range(0,4):
        for g in itertools.combinations(sorted(S),k):
            if len(closure(g))==len(S): return list(g)
def intkernel(M):
    m=len(M);n=len(M[0]) if m else 0
    A=[list(r)+[1 if i==j else 0 for j in range(m)] for i,r in enumerate(M)]
    r=0
    for c in range(n):
        while True:
            nz=[i for i in range(r,m) if A[i][c]!=0]
            if not nz: break
            p=min(nz,key=lambda i:abs(A[i][c]))
            A[r],A[p]=A[p],A[r]
            done=True
            for i in range(r+1,m):
                q=A[i][c]//A[r][c]
                if q: A[i]=[a-q*b for a,b in zip(A[i],A[r])]
                if A[i][c]!=0: done=False
            if done: r+=1;break
    return [row[n:] for row in A[r:]]
DUAL={'P':[(1,0,0),(0,1,0),(0,0,1)],'A':[(1,0,0),(0,1,1),(0,0,2)],'B':[(0,1,0),(1,0,1),(0,0,2)],'C':[(0,0,1),(1,1,0),(0,2,0)],
   'I':[(1,0,1),(0,1,1),(0,0,2)],'F':[(1,1,1),(0,2,0),(0,0,2)],'R':[(1,1,0),(0,1,-1),(0,0,3)]}
table={}
for (l,S),idx in cl.items():
    g=gen(S); M=[];basis=[]
    for Rr in g:
        for phi in DUAL[l]:
            M.append([phi[j]-sum(phi[i]*Rr[i][j] for i in range(3)) for j in range(3)]); basis.append((Rr,phi))
    funcs=[]
    for y in (intkernel(M) if M else []):
        f={}
        for c,(Rr,phi) in zip(y,basis):
            if c:
                o=f.get(Rr,(0,0,0)); f[Rr]=tuple(a+c*b for a,b in zip(o,phi))
        funcs.append([(Rr,p) for Rr,p in f.items() if any(p)])
    table[(l,S)]=funcs
def val(i,f):
    L=gs[i][1]
    return sum(sum(a*b for a,b in zip(p,L[Rr])) for Rr,p in f)%12
red={}
for k,idx in cl.items():
    F=table[k]; keep=list(range(len(F)))
    def coll(keep):
        d={}
        for i in idx: d.setdefault(tuple(val(i,F[j]) for j in keep),set()).add(23 if R[i][2]=='I 2ac 2bc' else R[i][0])
        return sum(len(x)-1 for x in d.values())
    base=coll(keep)
    for j in keep[::-1]:
        k2=[x for x in keep if x!=j]
        if coll(k2)==base: keep=k2
    red[k]=[F[j] for j in keep]
def code(r):
    c=0
    for row in r:
        for x in row: c=c*3+x+1
    return c
def rkey(S): return sum(2**(code(r)%61) for r in S)
LI=dict(P=0,A=1,B=2,C=3,I=4,R=5,F=6)
def gkey(i):
    l,L=gs[i]; S=frozenset(L); a=0
    for f in red[(l,S)]: a=13*a+val(i,f)
    return (a*2**64+rkey(S))*7+LI[l]

# ---------------------------------------------------------------- changes of basis
def det(A): return A[0][0]*(A[1][1]*A[2][2]-A[1][2]*A[2][1])-A[0][1]*(A[1][0]*A[2][2]-A[1][2]*A[2][0])+A[0][2]*(A[1][0]*A[2][1]-A[1][1]*A[2][0])
def adj(A):
    (a,b,c),(d,e,f),(g,h,i)=A
    return ((e*i-f*h,c*h-b*i,b*f-c*e),(f*g-d*i,a*i-c*g,c*d-a*f),(d*h-e*g,b*g-a*h,a*e-b*d))
cand=[];hex_=[]
for v in itertools.product((-1,0,1),repeat=9):
    A=(v[0:3],v[3:6],v[6:9]); d=det(A)
    if d==1: cand.append((A,1))
    if d==3: hex_.append((A,1)); hex_.append((adj(A),3))
cand.sort(key=lambda c:(c[0]!=ID,sum(abs(x) for r in c[0] for x in r)))
def latt_ok(P,D,l,l2):
    for v in list(LAT[l])+[(12,0,0),(0,12,0),(0,0,12)]:
        w=mv(P,v)
        if not any(all((w[k]-D*u[k])%(12*D)==0 for k in range(3)) for u in LAT[l2]): return False
    return True
QSS=[list(itertools.product(range(0,24,k),repeat=3)) for k in (24,6,3,4,2)]
def find(i,j,only_id=False):
    """phi X = P X/D + q/2 (twelfths) from the group i to the group j"""
    l,L=gs[i]; _,G=gg[i]; l2,L2=gs[j]
    if len(L)!=len(L2): return None
    H = hex_ if ((l=='R')!=(l2=='R')) else []
    for P,D in ([(ID,1)] if only_id else cand+H):
        d=det(P); A=adj(P); ok=True; conj=[]
        for (S,t) in G:
            M=mm(mm(P,S),A)
            if any(x%d for r in M for x in r): ok=False;break
            M=tuple(tuple(x//d for x in r) for r in M)
            if M not in L2: ok=False;break
            conj.append((M,t))
        if not ok or not latt_ok(P,D,l,l2): continue
        if d*len(LAT[l2]) != D**3*len(LAT[l]): continue
        for qs in QSS:
          for (M,t) in conj:
            Pt=mv(P,t); cs=[tuple(L2[M][k]+u[k] for k in range(3)) for u in LAT[l2]]
            nq=[]
            for q in qs:
                Mq=mv(M,q)
                b=[2*Pt[k]+D*q[k]-D*Mq[k] for k in range(3)]
                if any(all((b[k]-2*D*c[k])%(24*D)==0 for k in range(3)) for c in cs): nq.append(q)
            qs=nq
            if not qs: break
          if qs: break
        if qs:
            q=min(qs,key=lambda v:(sum(x!=0 for x in v),any(x%2 for x in v),sum(v)))
            return P,D,q
    return None
def smul(k,A): return tuple(tuple(k*x for x in r) for r in A)
from math import gcd
def red_move(a,q,d):
    g=d
    for x in list(q)+[x for r in a for x in r]: g=gcd(g,abs(x))
    return tuple(tuple(x//g for x in r) for r in a),tuple(x//g for x in q),d//g
def moves(P,D,q):
    c=red_move(smul(2,P),tuple(D*x for x in q),2*D)
    A=adj(P); Aq=mv(A,q)
    e=red_move(smul(2*D,A),tuple(-D*x for x in Aq),2*det(P))
    return c,e

# ---------------------------------------------------------------- output
def V(v): return '⟨%s⟩'%', '.join(map(str,v))
def M(m): return '⟨%s⟩'%', '.join(str(x) for r in m for x in r)
IDM=(ID,(0,0,0),1)
def mov(m): return 'idM' if m==IDM else '⟨%s, %s, %d⟩'%(M(m[0]),V(m[1]),m[2])
def S(s): return '"%s"'%s.replace('\\','\\\\').replace('"','\\"')
bad=[((1,0,0),(1,-1,0),(0,0,-1)),((-1,1,0),(0,1,0),(0,0,-1)),((-1,0,0),(-1,1,0),(0,0,1)),((1,-1,0),(0,-1,0),(0,0,1))]
HEAD='/-! Generated by tools/gen_rows.py; checked by the kernel. -/\n\nnamespace Verif\n\n'
out='import Verif.Proofs.RowCheck\n\n'+HEAD+'/-- Invariants for each lattice and set of rotations (untrusted; checked by `FunctionalTable.Good`). -/\ndef functionals : FunctionalTable := [\n'
ents=[]
for (l,Sx),F in red.items():
    if not F: continue
    ents.append('  (.%s, %d, [%s])'%(l,rkey(Sx),',\n    '.join('[%s]'%', '.join('(%s, %s)'%(M(r),V(p)) for r,p in f) for f in F)))
out+=',\n'.join(ents)+']\n\ntheorem functionals_good : functionals.Good = true := by decide +kernel\n\nend Verif\n'
open(HERE+'/Data/Functionals.lean','w').write(out)
os.makedirs(HERE+'/Rows',exist_ok=True)
rows=[];w=[]
for j,(n,c,s) in enumerate(R):
    i=ref[n]; r=find(i,j)
    if r is None:
        assert s=='I 2ac 2ab',s
        i=j; r=(ID,1,(0,0,0))
    c_,e_=moves(*r)
    shown=not any(b in gs[j][1] for b in bad)
    rows.append('⟨%d, %s, %s, %d, %s, %s, %s⟩'%(n,S(R[i][2]),S(s),gkey(j),str(shown).lower(),mov(c_),mov(e_)))
    w.append(len(gs[j][1])**1.3+3)
tot=sum(w); NCH=16; chunks=[[]]; acc=0
for r,x in zip(rows,w):
    if acc>tot/NCH*len(chunks): chunks.append([])
    chunks[-1].append(r); acc+=x
names=[]
for k,ch in enumerate(chunks):
    nm='Chunk%02d'%(k+1); names.append(nm)
    open(HERE+'/Rows/%s.lean'%nm,'w').write('import Verif.Data.Functionals\n\n'+HEAD+
     '/-- Rows of the tables. -/\ndef rows%02d : List Row := [\n  %s]\n\ntheorem rows%02d_ok : rows%02d.all (rowCheck functionals) = true := by decide +kernel\n\nend Verif\n'%(k+1,',\n  '.join(ch),k+1,k+1))
al=''.join('import Verif.Rows.%s\n'%n for n in names)+'\n'+HEAD
al+='/-- All rows: the full table in its order, then the symbols that occur only in the default table. -/\ndef allRows : List Row :=\n  '+' ++ '.join('rows%02d'%(k+1) for k in range(len(chunks)))+'\n\n'
al+='theorem allRows_ok : allRows.all (rowCheck functionals) = true := by\n  unfold allRows\n  simp only [List.all_append, Bool.and_eq_true]\n  exact '
al+='('*0
pr='rows01_ok'
for k in range(1,len(chunks)): pr='⟨%s, rows%02d_ok⟩'%(pr,k+1)
al+=pr+'\n\n'
al+='/-- The position in `allRows` of each row of the default table. -/\ndef defaultIndices : List Nat := [\n  '+', '.join(str(HALL.index(s) if s in HALL else len(HALL)+[x[2] for x in EXTRA].index(s)) for s in DHALL)+']\n\nend Verif\n'
open(HERE+'/Rows/All.lean','w').write(al)
# pairs
idx={}
for i,(_,_,s) in enumerate(R): idx.setdefault(s,i)
codeHall=dict(zip(NUM,HALL)); prs=[]
for c,s in zip(DN,DHALL):
    f=codeHall[c]
    if f==s: continue
    r=find(idx[f],idx[s],True)
    if r is None: assert c=='24'; continue
    c_,e_=moves(*r)
    prs.append('⟨%s, %s, %s, %s⟩'%(S(f),S(s),mov(c_),mov(e_)))
other=[]
for a,b in [('I 2 2','I 2ac 2bc'),('I 2b 2c','I 2ac 2ab'),('A 2 -2c','A 2 -2b'),('A 2 -2ac','A 2 -2ab'),('F 2 -2d','F 2 -2yd')]:
    for x in (a,b): R.append((0,'',x)); gs.append(group(x)); gg.append(gens(x))
    c_,e_=moves(*find(len(R)-2,len(R)-1,True))
    other.append('⟨%s, %s, %s, %s⟩'%(S(a),S(b),mov(c_),mov(e_)))
open(HERE+'/Rows/Pairs.lean','w').write('import Verif.Proofs.RowCheck\n\n'+HEAD+'/-- Symbols listed under the same code in the two tables, when they differ, with the change of origin. -/\ndef tablePairs : List Pair := [\n  %s]\n\ntheorem tablePairs_ok : tablePairs.all pairCheck = true := by decide +kernel\n\n/-- Other pairs of symbols. -/\ndef otherPairs : List Pair := [\n  %s]\n\ntheorem otherPairs_ok : otherPairs.all pairCheck = true := by decide +kernel\n\nend Verif\n'%(',\n  '.join(prs),',\n  '.join(other)))
print(len(rows),len(chunks),len(prs))
