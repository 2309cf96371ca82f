"""Rewrites the polynomial subexpressions of the derivatives of R in terms of
w = X^2+Y^2+Z^2-a^2, u_i = X dX_i + Y dY_i + Z dZ_i, g_i = Z dZ_i, p_ij = dX_i dX_j + dY_i dY_j + dZ_i dZ_j, z_ij = dZ_i dZ_j."""
from fractions import Fraction as F
import re
def nm(v): return v.replace('fd_ks_','').rstrip('_')
def mul(p,q):
    r={}
    for m,a in p.items():
        dm=dict(m)
        for n,b in q.items():
            d=dict(dm)
            for v,e in n: d[v]=d.get(v,0)+e
            k=tuple(sorted((v,e) for v,e in d.items() if e))
            r[k]=r.get(k,0)+a*b
    return {k:v for k,v in r.items() if v}
def add(p,q,s=1):
    r=dict(p)
    for k,v in q.items(): r[k]=r.get(k,0)+s*v
    return {k:v for k,v in r.items() if v}
def at(n): return {((n,1),):F(1)}
def cst(c): return {():F(c)} if c else {}
def powi(p,n):
    r=cst(1)
    for _ in range(n): r=mul(r,p)
    return r
def num(s): return F(s[:-1] if s.endswith('.') else s)
def poly(e):
    k=e[0]
    if k=='num': return cst(num(e[1]))
    if k=='neg': return {m:-v for m,v in poly(e[1]).items()}
    if k=='+': return add(poly(e[1]),poly(e[2]))
    if k=='-': return add(poly(e[1]),poly(e[2]),-1)
    if k=='*': return mul(poly(e[1]),poly(e[2]))
    if k=='/':
        b=poly(e[2]); assert list(b)==[()]; return mul(poly(e[1]),cst(1/b[()]))
    if k=='pow': return powi(poly(e[1]),int(num(e[2][1])))
    if k in('call','var'):
        v=nm(e[1])
        if v=='a_BH': return at('a')
        if re.match('dd+[XYZ]',v): return {}
        return at(v)
    raise Exception(e)
def defi(v):
    """definition of an invariant as a polynomial"""
    if v=='w': return add(add(add(powi(at('X'),2),powi(at('Y'),2)),powi(at('Z'),2)),powi(at('a'),2),-1)
    i=[int(c) for c in v[1:]]
    if v[0]=='u': 
        r={}
        for b in 'XYZ': r=add(r,mul(at(b),at('d%s_D%d'%(b,i[0]))))
        return r
    if v[0]=='e': return mul(at('X'),at('dX_D%d'%i[0]))
    if v[0]=='g': return mul(at('Z'),at('dZ_D%d'%i[0]))
    if v[0]=='p':
        r={}
        for b in 'XYZ': r=add(r,mul(at('d%s_D%d'%(b,i[0])),at('d%s_D%d'%(b,i[1]))))
        return r
    if v[0]=='z': return mul(at('dZ_D%d'%i[0]),at('dZ_D%d'%i[1]))
    raise Exception(v)
INVN=re.compile(r'^(w|[uge]\d|[pz]\d\d)$')
def expand(p):
    r={}
    for m,c in p.items():
        t=cst(c)
        for v,e in m:
            t=mul(t,powi(defi(v) if INVN.match(v) else at(v),e))
        r=add(r,t)
    return r
def pull(p,b,invs):
    """eliminate the letter b: pairs (db_i, b) then (db_i db_j) then b^2"""
    changed=True
    while changed:
        changed=False
        for m,c in list(p.items()):
            d=dict(m)
            ds=[v for v in d if re.match('d%s_D'%b,v)]
            if ds and b in d: mono={ds[0]:1,b:1}; iv=invs('u',ds[0])
            elif len(ds)>=1 and (len(ds)>1 or d[ds[0]]>=2):
                x,y=(ds[0],ds[1]) if len(ds)>1 else (ds[0],ds[0])
                mono={}; mono[x]=mono.get(x,0)+1; mono[y]=mono.get(y,0)+1
                iv=invs('p',*sorted((x,y)))
            elif d.get(b,0)>=2: mono={b:2}; iv=invs('w')
            else: continue
            for v,e in mono.items(): d[v]-=e
            rest={tuple(sorted((v,e) for v,e in d.items() if e)):c}
            p=dict(p); del p[m]
            p=add(p,mul(rest,iv)); changed=True
            break
    return p
def inX(k,*v):
    i=[x[-1] for x in v]
    if k=='u': r=at('u'+i[0]); s=[('Y','dY_D'+i[0]),('Z','dZ_D'+i[0])]
    elif k=='p': i=sorted(i); r=at('p'+i[0]+i[1]); s=[('d%s_D%s'%(b,i[0]),'d%s_D%s'%(b,i[1])) for b in 'YZ']
    else: r=add(at('w'),powi(at('a'),2)); s=[('Y','Y'),('Z','Z')]
    for a,b in s: r=add(r,mul(at(a),at(b)),-1)
    return r
def inZ(k,*v):
    i=sorted(x[-1] for x in v)
    if k=='u': return at('g'+i[0])
    if k=='p': return at('z'+i[0]+i[1])
    return powi(at('Z'),2)
def pullZ(p):
    changed=True
    while changed:
        changed=False
        for m,c in list(p.items()):
            d=dict(m); ds=[v for v in d if v.startswith('dZ_D')]
            if ds and 'Z' in d: mono={ds[0]:1,'Z':1}; iv=inZ('u',ds[0])
            elif ds and (len(ds)>1 or d[ds[0]]>=2):
                x,y=(ds[0],ds[1]) if len(ds)>1 else (ds[0],ds[0])
                mono={}; mono[x]=mono.get(x,0)+1; mono[y]=mono.get(y,0)+1; iv=inZ('p',x,y)
            else: continue
            for v,e in mono.items(): d[v]-=e
            rest={tuple(sorted((v,e) for v,e in d.items() if e)):c}
            p=dict(p); del p[m]; p=add(p,mul(rest,iv)); changed=True; break
    return p
def terms(e,s=1):
    if e[0]=='+': return terms(e[1],s)+terms(e[2],s)
    if e[0]=='-': return terms(e[1],s)+terms(e[2],-s)
    if e[0]=='neg': return terms(e[1],-s)
    return [(s,e)]
def hassum(e):
    return e[0] in '+-' and e[0]!='neg' or any(hassum(a) for a in e[1:] if isinstance(a,tuple))
def clean(p): return not any(not INVN.match(v) and v!='a' for m in p for v,_ in m)
def elim(p):
    p=pullZ(pull(p,'X',inX))
    return p if clean(p) else None
def inv(e):
    """polynomial in the invariants (and a) equal to e"""
    k=e[0]
    if k=='num': return cst(num(e[1]))
    if k=='neg': return {m:-v for m,v in inv(e[1]).items()}
    if k in('+','-'):
        ts=terms(e)
        flat={};res={}
        for s,t in ts:
            if hassum(t): 
                r=None
                try: r=inv(t)
                except Exception: r=None
                if r is None: flat=add(flat,poly(t),s)
                else: res=add(res,r,s)
            else: flat=add(flat,poly(t),s)
        f=elim(flat)
        if f is None: raise Exception(('sum',e))
        return add(res,f)
    if k in('*','/'):
        if k=='/': return mul(inv(e[1]),cst(1/poly(e[2])[()]))
        # collect factors
        fs=[]
        def go(x):
            if x[0]=='*': go(x[1]); go(x[2])
            else: fs.append(x)
        go(e)
        simple=cst(1); r=cst(1)
        for x in fs:
            if hassum(x): r=mul(r,inv(x))
            else: simple=mul(simple,poly(x))
        s=elim(simple)
        if s is None:
            # a single X dX_i or Y dY_i: e_i = X dX_i
            if len(simple)==1:
                (m,c),=simple.items(); d=dict(m)
                for b in 'XY':
                    ds=[v for v in d if v.startswith('d%s_D'%b)]
                    if len(d)==2 and len(ds)==1 and d==({b:1,ds[0]:1}):
                        i=ds[0][-1]
                        q=at('e'+i) if b=='X' else add(add(at('u'+i),at('e'+i),-1),at('g'+i),-1)
                        return mul(mul(cst(c),q),r)
            raise Exception(('prod',e))
        return mul(r,s)
    if k=='pow':
        if hassum(e[1]): return powi(inv(e[1]),int(num(e[2][1])))
    p=elim(poly(e))
    if p is None: raise Exception(('atom',e))
    return p
