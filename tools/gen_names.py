"""Generates lean/Verif/Rows/Names*.lean and Rows/AllNames.lean: for every Hall symbol of the two tables its Hermann-Mauguin
name with the bits of its symbols and of some symbols its group has no operation for. The search is untrusted; only the Lean
checks count. Run: python3 /verif/tools/gen_names.py"""
import re, itertools, os
exec(open('/verif/tools/gen_rows.py').read().split('# ---------------------------------------------------------------- rows')[0])
def det3(a,b,c): return a[0]*(b[1]*c[2]-b[2]*c[1])-a[1]*(b[0]*c[2]-b[2]*c[0])+a[2]*(b[0]*c[1]-b[1]*c[0])
def det(R): return det3(*R)
def order(R):
    P=R
    for k in range(1,13):
        if P==ID: return k
        P=mm(P,R)
def turn(d,k,R):
    if det(R)!=1 or order(R)!=k or mv(R,d)!=d: return False
    if k<3: return True
    return any(det3(d,x,mv(R,x))>0 for x in ID)
def read(hm):
    s=hm.split(':'); suf=s[1].strip() if len(s)>1 else ''
    t=s[0].split(); lat=t[0]; t=t[1:]
    rh= suf=='R'
    if len(t)>=2 and t[1] in('3','-3'): D=[(0,0,1),(1,1,1),(1,-1,0)]
    elif rh: D=[(1,1,1),(1,-1,0)]
    elif t[0][0] in '346' or t[0][:2] in('-3','-4','-6'): D=[(0,0,1),(1,0,0),(1,-1,0)]
    elif t[0] in('1','-1') and len(t)==1: D=[(0,0,1)]
    else: D=[(1,0,0),(0,1,0),(0,0,1)]
    els=[]
    if len(t)>len(D): return None
    for d,tok in zip(D,t):
        for q in tok.split('/'):
            if q=='1': continue
            if q[0]=='-': els.append((d,'bar',int(q[1:])))
            elif q[0].isdigit(): els.append((d,'ax',int(q[0]),int(q[1:] or 0)))
            else: els.append((d,'pl',q))
    return lat,rh,els,len(t)==len(D) or None
def neg(R): return mm(NEG,R)
def glides(d,g,rh):
    pm=(1,-1)
    if g=='m': return [(0,0,0)]
    if g in 'abc':
        if rh: return [(12*s,)*3 for s in pm] if g=='c' else []
        e=[0,0,0]; e['abc'.index(g)]=12
        return [tuple(e),tuple(-x for x in e)]
    h=12 if g=='n' else 6
    if d==(1,0,0): return [(0,h*a,h*b) for a in pm for b in pm]
    if d==(0,1,0): return [(h*a,0,h*b) for a in pm for b in pm]
    if d==(0,0,1): return [(h*a,h*b,0) for a in pm for b in pm]
    if d==(1,-1,0): return [(h*a,h*a,h*b) for a in pm for b in pm]
    return []
def lin(e,R):
    d=e[0]
    if e[1]=='ax': return turn(d,e[2],R)
    if e[1]=='bar': return turn(d,e[2],neg(R)) if e[2]>1 else R==NEG
    return turn(d,2,neg(R))
def iter_tr(R,t,k):
    s=(0,0,0)
    for _ in range(k): s=tuple(a+b for a,b in zip(mv(R,s),t))
    return s
def check(hm,hall):
    lat,L=group(hall)
    r=read(hm)
    if r is None: return 'unreadable'
    l,rh,els,full=r
    out=[]
    if (('P' if rh else l)!=lat): out.append('lattice')
    for e in els:
        found=False
        for R,t in L.items():
            if not lin(e,R): continue
            if e[1]=='bar': found=True;break
            k=e[2] if e[1]=='ax' else 2
            targets=[tuple(12*e[3]*x for x in e[0])] if e[1]=='ax' else glides(e[0],e[2],rh)
            for v in LAT[lat]:
                for kk in itertools.product((0,-1,1),repeat=3):
                    tt=tuple(a+b+12*c for a,b,c in zip(t,v,kk))
                    if iter_tr(R,tt,k) in targets: found=True;break
                if found: break
            if found: break
        if not found: out.append(e)
    gens=[R for R in L if any(lin(e,R) for e in els)]
    C={ID};todo=[ID]
    while todo:
        x=todo.pop()
        for y in gens:
            z=mm(x,y)
            if z not in C: C.add(z);todo.append(z)
    if len(C)!=len(L): out.append(('gen',len(C),len(L)))
    return out, len(gens)

def num(s): return int(s.split(':')[0])
EXTRA=[i for i,s in enumerate(DHALL) if s not in HALL]
R=[(num(NUM[i]),HM[i],HALL[i]) for i in range(530)]+[(num(DN[i]),DHM[i],DHALL[i]) for i in EXTRA]
x,y,z,xy,xyz=(1,0,0),(0,1,0),(0,0,1),(1,-1,0),(1,1,1)
vs=open(HERE+'/Proofs/NameCheck.lean').read(); vs=vs[vs.index('def vocab'):]; vs=vs[:vs.index(')]')+1]
VOC=[]
for rh,d,k,a in re.findall(r"\((true|false), (\w+), \.(axis|bar|plane) ([^)]*)\)",vs):
    d=globals()[d]; rh=rh=='true'
    if k=='axis': e=(d,'ax')+tuple(map(int,a.split()))
    elif k=='bar': e=(d,'bar',int(a))
    else: e=(d,'pl',a.strip("'"))
    VOC.append((rh,e))
assert len(VOC)==50
gc={}
g0=group
def group(s):
    if s not in gc: gc[s]=g0(s)
    return gc[s]
def present(rh,e,s):
    lat,L=group(s)
    for Q,t in L.items():
        if not lin(e,Q): continue
        if e[1]=='bar': return True
        k=e[2] if e[1]=='ax' else 2
        targets=[tuple(12*e[3]*c for c in e[0])] if e[1]=='ax' else glides(e[0],e[2],rh)
        for v in LAT[lat]:
            for kk in itertools.product((0,-1,1),repeat=3):
                tt=tuple(a+b+12*c for a,b,c in zip(t,v,kk))
                if iter_tr(Q,tt,k) in targets: return True
    return False
oks=[];words=[]
for i,(n,h,s) in enumerate(R):
    r=check(h,s); oks.append(r[0]==[])
    l,rh,els,_=read(h); words.append({VOC.index((rh,e)) for e in els if (rh,e) in VOC})
print([i for i in range(545) if not oks[i]])
MERGE={24:23,199:197}
mg=lambda n: MERGE.get(n,n)
cl={}
for i,(n,h,s) in enumerate(R):
    l,L=group(s); cl.setdefault((l,frozenset(L)),[]).append(i)
absent=[set() for _ in R]
for k,v in cl.items():
    for j in v:
        need=[words[i] for i in v if oks[i] and mg(R[i][0])!=mg(R[j][0])]
        if not need: continue
        pr={w:present(*VOC[w],R[j][2]) for w in set().union(*need)}
        need=[{w for w in q if not pr[w]} for q in need]
        assert all(need),(R[j],)
        while need:
            w=max(sorted(set().union(*need)),key=lambda w:sum(w in q for q in need))
            absent[j].add(w); need=[q for q in need if w not in q]
def S(s): return '"%s"'%s.replace('\\','\\\\').replace('"','\\"')
bits=lambda q: sum(1<<w for w in q)
rows=['⟨%s, %s, %s, %d, %d⟩'%(S(s),S(h),str(oks[i]).lower(),bits(words[i]),bits(absent[i])) for i,(n,h,s) in enumerate(R)]
w=[len(group(s)[1])**1.7+3 for n,h,s in R]
tot=sum(w); NCH=10; chunks=[[]]; acc=0
for r,c in zip(rows,w):
    if acc>tot/NCH*len(chunks): chunks.append([])
    chunks[-1].append(r); acc+=c
HEAD='/-! Generated by tools/gen_names.py; checked by the kernel. -/\n\nnamespace Verif.HM\n\n'
for k,ch in enumerate(chunks):
    open(HERE+'/Rows/Names%02d.lean'%(k+1),'w').write('import Verif.Proofs.NameCheck\n\n'+HEAD+
     '/-- Rows with their names. -/\ndef names%02d : List NameRow := [\n  %s]\n\ntheorem names%02d_ok : names%02d.all NameRow.check = true := by decide +kernel\n\nend Verif.HM\n'%(k+1,',\n  '.join(ch),k+1,k+1))
al=''.join('import Verif.Rows.Names%02d\n'%(k+1) for k in range(len(chunks)))+'\n'+HEAD
al+='/-- All rows with their names, in the order of `allRows`. -/\ndef allNames : List NameRow :=\n  '+' ++ '.join('names%02d'%(k+1) for k in range(len(chunks)))+'\n\n'
pr='names01_ok'
for k in range(1,len(chunks)): pr='⟨%s, names%02d_ok⟩'%(pr,k+1)
al+='theorem allNames_ok : allNames.all NameRow.check = true := by\n  unfold allNames\n  simp only [List.all_append, Bool.and_eq_true]\n  exact '+pr+'\n\nend Verif.HM\n'
open(HERE+'/Rows/AllNames.lean','w').write(al)
print(len(rows),len(chunks),max(len(a) for a in absent),[len(c) for c in chunks])
