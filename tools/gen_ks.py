#!/usr/bin/env python3
"""Generates Verif/Model/Gen/Ks*.lean (the Kerr-Schild functions of /repo, one definition per C function) and
Verif/Lemmas/Gen/Ks*.lean (one differentiation lemma per function and direction)."""
import os,sys,re
sys.path.insert(0,os.path.dirname(__file__))
from ksparse import FUN,GAM,LINES
from fractions import Fraction as F
OUT=os.path.join(os.path.dirname(__file__),'..','lean','Verif')
ALL=dict(FUN); ALL.update(GAM)
PARAM=dict(M_BH='P.M',a_BH='P.a',phiy='P.phiy',phiz='P.phiz',Bx='P.Bx',By='P.By',Bz='P.Bz',B2='P.B2',Lambda='P.Lam')
def nm(v): return v.replace('fd_ks_','').rstrip('_')
TEXT={}
def strip(e):
    return e
# the two square roots of fd_KerrSchild_R_X_Y_Z.c
import ksparse
w='-Power(Pattern(a,BH),2) + Power(fd_ks_X(x,y,z),2) + Power(fd_ks_Y(x,y,z),2) + Power(fd_ks_Z(x,y,z),2)'
T_AST=ksparse.parse('4*Power(Pattern(a,BH),2)*Power(fd_ks_Z(x,y,z),2) + Power(%s,2)'%w)
S_AST=ksparse.parse('%s + Power(4*Power(Pattern(a,BH),2)*Power(fd_ks_Z(x,y,z),2) + Power(%s,2),0.5)'%(w,w))
def num(s):
    if len(s)>8:
        k=round(float(s)/0.707106781186548*2); assert abs(k*0.707106781186548/2-float(s))<1e-12
        return 'P.lit' if k==2 else '(%s * P.lit)'%(k//2 if k%2==0 else '%d / 2'%k)
    f=F(s if not s.endswith('.') else s[:-1])
    return str(f.numerator) if f.denominator==1 else '(%d / %d)'%(f.numerator,f.denominator)
# precedence: 1 add, 2 mul, 3 neg.. 4 atom
def root(e,n2):
    b={'T':'Tq P q','S':'Sq P q'}
    if e==T_AST: s='Tq P q'
    elif e==S_AST: s='Sq P q'
    else: s='√(%s)'%L(e,0)
    if n2==1: return s,(3 if s[0]!='√' else 3)
    if n2==-1: return '(%s)⁻¹'%s,4
    return ('(%s) ^ %d'%(s,n2) if n2>0 else '((%s) ^ %d)⁻¹'%(s,-n2)),3
def L(e,p=0):
    s,q=L0(e)
    return '(%s)'%s if q<p else s
def L0(e):
    k=e[0]
    if k=='num':
        s=num(e[1]); return s,4
    if k=='neg': return '-'+L(e[1],3),1
    if k in '+-' and k!='neg': return L(e[1],1)+' %s '%k+L(e[2],2),1
    if k in '*/': return L(e[1],2)+' %s '%k+L(e[2],3),2
    if k=='pow':
        x=e[2]; sg=1
        if x[0]=='neg': sg=-1; x=x[1]
        n=F(x[1])*sg
        if n.denominator==1:
            assert n>0
            return '%s ^ %d'%(L(e[1],4),int(n)),3
        return root(e[1],int(2*n))
    if k=='sqrt': return root(e[1],1)
    if k=='cos': return 'Real.cos '+L(e[1],4),3
    if k=='sin': return 'Real.sin '+L(e[1],4),3
    if k in('call','var'):
        v=e[1]
        if v in PARAM: return PARAM[v],4
        if k=='var' and v in('x','y','z'): return 'q %d'%'xyz'.index(v),3
        return nm(v)+' P q',3
    raise Exception(e)
def wrap(s,w=170):
    out=[];ln='  '
    for t in s.split(' '):
        if len(ln)+len(t)+1>w: out.append(ln); ln='    '
        ln+=(' ' if ln.strip() else '')+t
    out.append(ln)
    return '\n'.join(out)
def definition(n):
    f,a,b=LINES[n]
    return '/-- Free_Data/%s:%d-%d `%s` -/\nnoncomputable def %s (P : Par) (q : Pt) : ℝ :=\n%s\n'%(f,a,b,('fd_ks_'+n if n in FUN else '_'+n+'[ijk]'),n,wrap(L(ALL[n])))
def base(n):
    m=re.match(r'(d*)(X|Y|Z|R|K\d|H|k\d|kt|c|gamma)(?:_((?:D\d)*))?$',n)
    return m.group(1),m.group(2),tuple(int(i) for i in re.findall(r'D(\d)',m.group(3) or ''))
INDEX={}
for n in ALL:
    d,b,ix=base(n); INDEX[len(d),b,ix]=n
def look(k,b,ix):
    """the stored component for derivative indices ix (symmetric in all but the last of a third derivative)"""
    if (k,b,ix) in INDEX: return INDEX[k,b,ix]
    pre=ix[:2] if b=='gamma' else ()
    r=ix[len(pre):]
    for c in ((r[1],r[0])+r[2:],):
        if (k,b,pre+c) in INDEX: return INDEX[k,b,pre+c]
    raise KeyError((k,b,ix))
def child(n,l):
    d,b,ix=base(n)
    return look(len(d)+1,b,ix+(l,))
def table(b):
    o=[]
    o.append('/-- the first derivatives of `%s` -/\nnoncomputable def d%s (P : Par) : Fin 3 → Pt → ℝ\n'%(b,b)+'\n'.join('  | %d, q => %s P q'%(i,look(1,b,(i,))) for i in range(3))+'\n')
    o.append('/-- the second derivatives of `%s`: D1D0 is kept as D0D1 -/\nnoncomputable def dd%s (P : Par) : Fin 3 → Fin 3 → Pt → ℝ\n'%(b,b)+'\n'.join('  | %d, %d, q => %s P q'%(i,j,look(2,b,(i,j))) for i in range(3) for j in range(3))+'\n')
    o.append('/-- the third derivatives of `%s` -/\nnoncomputable def ddd%s (P : Par) : Fin 3 → Fin 3 → Fin 3 → Pt → ℝ\n'%(b,b)+'\n'.join('  | %d, %d, %d, q => %s P q'%(i,j,k,look(3,b,(i,j,k))) for i in range(3) for j in range(3) for k in range(3))+'\n')
    return '\n'.join(o)
def gtable():
    o=[]
    s=lambda i,j:(min(i,j),max(i,j))
    o.append('/-- the metric components: D1D0 is kept as D0D1 -/\nnoncomputable def gam (P : Par) : Fin 3 → Fin 3 → Pt → ℝ\n'+'\n'.join('  | %d, %d, q => %s P q'%(i,j,INDEX[0,'gamma',s(i,j)]) for i in range(3) for j in range(3))+'\n')
    o.append('/-- the first derivatives of the metric -/\nnoncomputable def dgam (P : Par) : Fin 3 → Fin 3 → Fin 3 → Pt → ℝ\n'+'\n'.join('  | %d, %d, %d, q => %s P q'%(i,j,k,INDEX[1,'gamma',s(i,j)+(k,)]) for i in range(3) for j in range(3) for k in range(3))+'\n')
    o.append('/-- the second derivatives of the metric -/\nnoncomputable def ddgam (P : Par) : Fin 3 → Fin 3 → Fin 3 → Fin 3 → Pt → ℝ\n'+'\n'.join('  | %d, %d, %d, %d, q => %s P q'%(i,j,k,l,look(2,'gamma',s(i,j)+(k,l))) for i in range(3) for j in range(3) for k in range(3) for l in range(3))+'\n')
    o.append('/-- the third derivatives of the metric -/\nnoncomputable def dddgam (P : Par) : Fin 3 → Fin 3 → Fin 3 → Fin 3 → Fin 3 → Pt → ℝ\n'+'\n'.join('  | %d, %d, %d, %d, %d, q => %s P q'%(i,j,k,l,m,look(3,'gamma',s(i,j)+(k,l,m))) for i in range(3) for j in range(3) for k in range(3) for l in range(3) for m in range(3))+'\n')
    return '\n'.join(o)
HEAD='''/-!
Generated by tools/gen_ks.py from /repo/Src/Main/Modules/Physics/%s: one definition per C function.
%s-/
namespace Elliptica.Ks
open Elliptica.Fields

set_option linter.unusedVariables false

-- the same terms as the usual notation, elaborated directly at type ℝ (long expressions elaborate slowly otherwise)
local macro_rules
  | `($x + $y) => `((HAdd.hAdd : ℝ → ℝ → ℝ) $x $y)
  | `($x - $y) => `((HSub.hSub : ℝ → ℝ → ℝ) $x $y)
  | `($x * $y) => `((HMul.hMul : ℝ → ℝ → ℝ) $x $y)
  | `($x / $y) => `((HDiv.hDiv : ℝ → ℝ → ℝ) $x $y)
  | `($x ^ $y) => `((HPow.hPow : ℝ → ℕ → ℝ) $x $y)
  | `(-$x) => `((Neg.neg : ℝ → ℝ) $x)

'''
def write(path,s):
    p=os.path.join(OUT,path); os.makedirs(os.path.dirname(p),exist_ok=True)
    if os.path.exists(p) and open(p).read()==s: return
    open(p,'w').write(s); print('wrote',path,len(s))
def order(names):
    key=lambda n:(len(base(n)[0]),base(n)[2])
    return sorted(names,key=key)
GROUPS=[('KsR',['X','Y','Z','R'],'Verif.Model.KsPar','Free_Data/fd_KerrSchild_R_X_Y_Z.c'),
        ('KsH',['K0','K1','K2','H'],'Verif.Model.Gen.KsR','Free_Data/fd_KerrSchild_H_K0_K1_K2.c'),
        ('KsK',['k0','k1','k2','kt','c'],'Verif.Model.Gen.KsH','Free_Data/fd_KerrSchild_c_k0_k1_k2_kt.c'),
        ('KsG',['gamma'],'Verif.Model.Gen.KsK','Free_Data/fd_KerrSchild_g_dg_ddg_dddg.c')]
NOTES={'KsR':'''`pow(e,0.5)`, `pow(e,1.5)`, ... are powers of the real square root; the two roots that occur throughout the
derivatives of R are named `Tq` and `Sq`; the literal 0.707106781186548 is the parameter `lit`, the literals
1.4142135623731 and 2.121320343559644 are twice and three times it; `farg->X` etc. hold the values of the
functions at the point (macro KS_set_args).
'''}
def models():
    for mod,bs,imp,f in GROUPS:
        o='import %s\n'%imp+HEAD%(f,NOTES.get(mod,''))
        for b in bs:
            names=order([n for n in ALL if base(n)[1]==b])
            if b=='R':
                o+='/-- Free_Data/%s:%d-%d: the inner square root of `fd_ks_R` -/\nnoncomputable def Tq (P : Par) (q : Pt) : ℝ :=\n  √(%s)\n\n'%(LINES['R']+(L(T_AST),))
                o+='/-- Free_Data/%s:%d-%d: the outer square root of `fd_ks_R` -/\nnoncomputable def Sq (P : Par) (q : Pt) : ℝ :=\n  √(%s)\n\n'%(LINES['R']+(L(S_AST),))
            o+='\n'.join(definition(n) for n in names)+'\n'
            o+=(gtable() if b=='gamma' else table(b))+'\n'
        o+='end Elliptica.Ks\n'
        write('Model/Gen/%s.lean'%mod,o)
# ---------- differentiation lemmas
def calls(e,acc=None):
    acc=set() if acc is None else acc
    if e==T_AST: pass
    if e[0] in('call','var'):
        if e[1] not in PARAM: acc.add(nm(e[1]))
    elif e[0]=='pow' and e[1]==T_AST and F(e[2][1]).denominator==2: acc.add('Tq')
    elif e[0]=='pow' and e[1]==S_AST and F(e[2][1]).denominator==2: acc.add('Sq')
    else:
        for a in e[1:]:
            if isinstance(a,tuple): calls(a,acc)
    return acc
def der(e):
    """a term proving HasDerivAt of the expression along the line, from h_<function>"""
    if not calls(e): return '(hc (%s))'%L(e)
    k=e[0]
    if k in('call','var'): return 'h_'+nm(e[1])
    if k=='neg': return '%s.neg'%der(e[1])
    if k=='+': return '(%s.add %s)'%(der(e[1]),der(e[2]))
    if k=='-': return '(%s.sub %s)'%(der(e[1]),der(e[2]))
    if k=='*': return '(%s.mul %s)'%(der(e[1]),der(e[2]))
    if k=='/':
        if not calls(e[2]): return '(%s.div_const (%s))'%(der(e[1]),L(e[2]))
        d=e[2]
        if d[0]=='pow' and F(d[2][1]).denominator==2:
            n2=int(2*F(d[2][1])); h='Tq' if d[1]==T_AST else 'Sq'
            if n2==1: return '(div_one_at %s h_%s (by ks_ne))'%(der(e[1]),h)
            return '(div_pow_at %d %s h_%s (by ks_ne))'%(n2-1,der(e[1]),h)
        return '(%s.div %s (by ks_ne))'%(der(e[1]),der(e[2]))
    if k=='pow':
        n=F(e[2][1])
        if n.denominator==1: return '(%s.pow %d)'%(der(e[1]),int(n))
        s={0:'h_Tq',1:'h_Sq'}[0 if e[1]==T_AST else 1]
        n2=int(2*n)
        return s if n2==1 else '(%s.pow %d)'%(s,n2)
    raise Exception(e)
def lemma(n,l,fin):
    cs=sorted(calls(ALL[n])); ch=child(n,l)
    o='theorem %s_at%d (P : Par) (q : Pt) (hR : 0 < R P q)%s : HasDerivAt (line (%s P) %d q) (%s P q) (q %d) := by\n'%(n,l,HYP,n,l,ch,l)
    o+='  have hc : ∀ c : ℝ, HasDerivAt (fun _ => c) 0 (q %d) := fun c => hasDerivAt_const _ c\n'%l
    for g in cs:
        o+='  have h_%s := %s_at%d P q%s\n'%(g,g,l,'' if base0(g) in('X','Y','Z') else ' hR'+ARG)
    if 'Sq' in cs: o+='  have hT := Tq_pos P q hR\n  have hS := Sq_pos P q hR\n'
    o+=wrap('have key := '+der(ALL[n]))+'\n'
    o+='  refine key.congr_deriv ?_\n'
    o+='  simp only [Pi.add_apply, Pi.sub_apply, Pi.neg_apply, Pi.mul_apply, Pi.pow_apply, Pi.div_apply, line_at]\n'
    o+='  unfold %s\n'%ch
    o+=fin+'\n'
    return o
HYP='';ARG=''
def base0(g):
    if g in('Tq','Sq'): return g
    return base(g)[1]
LHEAD='''/-!
Generated by tools/gen_ks.py: each listed derivative is the derivative of the function it belongs to.
-/
namespace Elliptica.Ks
open Elliptica.Fields

set_option linter.unusedVariables false
set_option linter.unusedSimpArgs false
set_option linter.unusedTactic false
set_option linter.unreachableTactic false

'''
def lemmas(path,imps,names,fin,levels=(0,1,2),pre=''):
    o=''.join('import %s\n'%i for i in imps)+LHEAD
    for n in names:
        if len(base(n)[0]) not in levels: continue
        for l in range(3):
            if (n,l) in SKIP: continue
            o+=pre+lemma(n,l,fin(n,l))+'\n'
    o+='end Elliptica.Ks\n'
    write(path,o)
SKIP=set()
def run():
    models()
    import gen_ks_lemmas
if __name__=="__main__":
    import gen_ks
    gen_ks.run()
