import re,itertools
t=open('/verif/lean/Verif/Proofs/Inverse.lean').read()
def grab(name):
    s=t[t.index('def %s '%name):]; s=s[:s.index(']')]
    return [tuple(map(int,x.split(','))) for x in re.findall(r'⟨([-\d, ]+)⟩',s)]
def mul(a,b): return tuple(sum(a[3*i+k]*b[3*k+j] for k in range(3)) for i in range(3) for j in range(3))
one=(1,0,0,0,1,0,0,0,1)
def run(name):
    E=grab(name); n=len(E); ix={e:i for i,e in enumerate(E)}
    M=[[ix[mul(a,b)] for b in E] for a in E]
    T=0
    for i in range(n):
        for j in range(n): T|=M[i][j]<<(6*(48*i+j))
    id_=ix[one]
    def span(H,gens):
        S=set(H);q=list(H)
        while q:
            x=q.pop()
            for g in gens:
                y=M[x][g]
                if y not in S: S.add(y);q.append(y)
        return frozenset(S)
    subs={frozenset([id_]):[]};todo=[frozenset([id_])]
    while todo:
        H=todo.pop()
        for r in range(n):
            if r not in H:
                K=span(H|{r},subs[H]+[r])
                # closure under right mult by gens, starting with H and r
                if K not in subs: subs[K]=subs[H]+[r];todo.append(K)
    print(name,n,id_,len(subs), max(len(g) for g in subs.values()))
    out=sorted(subs.items(),key=lambda kv:(len(kv[0]),sum(1<<i for i in kv[0])))
    place={H:i for i,(H,g) in enumerate(out)}
    ups=lambda H,g: sorted({place[span(H|{r},g+[r])] for r in range(n) if r not in H},key=lambda i:i)
    return T,id_,[(sum(1<<i for i in H),sorted(H),g,ups(H,g)) for H,g in out]
A=run('cubicExplicit');B=run('hexExplicit')
def lst(x): return '['+', '.join(map(str,x))+']'
with open('/tmp/sg/data.lean','w') as f:
    for nm,(T,i,S) in (('cubic',A),('hex',B)):
        f.write('/-- The multiplication table of `%sExplicit`, six bits per entry. -/\ndef %sTable : Nat :=\n  0x%x\n\n'%(nm,nm,T))
        f.write('/-- The subgroups, as sets of bits. -/\ndef %sMasks : List Nat :=\n  [%s]\n\n'%(nm,',\n   '.join(hex(x[0]) for x in S)))
        f.write('/-- The subgroups: elements, generators, and the places of the groups generated with one more element. -/\ndef %sSubs : List (Nat × List Nat × List Nat × List Nat) := [\n'%nm+',\n'.join('  (0x%x, %s, %s, %s)'%(m,lst(e),lst(g),lst(u)) for m,e,g,u in S)+']\n\n')
def det(a): return a[0]*(a[4]*a[8]-a[5]*a[7])-a[1]*(a[3]*a[8]-a[5]*a[6])+a[2]*(a[3]*a[7]-a[4]*a[6])
codes={(1,3):0,(1,-1):1,(1,0):2,(1,1):3,(1,2):4,(-1,-3):5,(-1,1):6,(-1,0):7,(-1,-1):8,(-1,-2):9}
with open('/tmp/sg/data.lean','a') as f:
    for nm in ('cubic','hex'):
        E=grab(nm+'Explicit'); K=sum(codes[(det(e),e[0]+e[4]+e[8])]<<(4*i) for i,e in enumerate(E))
        f.write('/-- The kinds of the elements of `%sExplicit`, four bits each. -/\ndef %sKinds : Nat :=\n  0x%x\n\n'%(nm,nm,K))
