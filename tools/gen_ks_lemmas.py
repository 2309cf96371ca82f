
import gen_ks as g
from gen_ks import *
base_imports=['Mathlib.Analysis.Calculus.Deriv.Mul','Mathlib.Analysis.Calculus.Deriv.Comp','Mathlib.Analysis.Calculus.Deriv.Pow','Mathlib.Analysis.Calculus.Deriv.Inv',
 'Mathlib.Analysis.Calculus.Deriv.Add','Mathlib.Analysis.SpecialFunctions.Sqrt','Mathlib.Tactic.FieldSimp','Mathlib.Tactic.Ring','Mathlib.Tactic.Positivity']
o=''.join('import %s\n'%i for i in ['Verif.Model.Gen.KsR']+base_imports)+LHEAD
o+='''/-- denominators do not vanish -/
macro "ks_ne" : tactic => `(tactic| (simp only [Pi.add_apply, Pi.sub_apply, Pi.neg_apply, Pi.mul_apply, Pi.pow_apply, Pi.div_apply, line_at]; positivity))

'''
o+='''theorem div_one_at {f T : ℝ → ℝ} {f' T' x : ℝ} (hf : HasDerivAt f f' x) (hT : HasDerivAt T T' x) (h : T x ≠ 0) :
    HasDerivAt (fun t => f t / T t) (f' * (T x)⁻¹ - f x * T' * (T x)⁻¹ ^ 2) x := by
  refine (hf.div hT h).congr_deriv ?_
  field_simp

theorem div_pow_at {f T : ℝ → ℝ} {f' T' x : ℝ} (k : ℕ) (hf : HasDerivAt f f' x) (hT : HasDerivAt T T' x) (h : T x ≠ 0) :
    HasDerivAt (fun t => f t / T t ^ (k + 1)) (f' * (T x)⁻¹ ^ (k + 1) - (k + 1) * f x * T' * (T x)⁻¹ ^ (k + 2)) x := by
  refine (hf.div (hT.pow (k + 1)) (pow_ne_zero _ h)).congr_deriv ?_
  simp only [Pi.pow_apply, Nat.add_sub_cancel, Nat.cast_add, Nat.cast_one, inv_pow]
  field_simp
  ring

'''
for b in 'XYZ':
    o+='theorem %s_lin (P : Par) (q : Pt) : %s P q = d%s_D0 P q * q 0 + d%s_D1 P q * q 1 + d%s_D2 P q * q 2 := by\n  unfold %s d%s_D0 d%s_D1 d%s_D2; ring\n\n'%((b,)*9)
    for l in range(3):
        o+='theorem %s_at%d (P : Par) (q : Pt) : HasDerivAt (line (%s P) %d q) (d%s_D%d P q) (q %d) := by\n'%(b,l,b,l,b,l,l)
        o+='  have e : line (%s P) %d q = fun t => %s := by\n    funext t\n    unfold line\n    rw [%s_lin]\n    rfl\n'%(b,l,' + '.join('d%s_D%d P q * %s'%(b,j,'t' if j==l else 'q %d'%j) for j in range(3)),b)
        o+='  rw [e]\n'
        o+='  have hc : ∀ c : ℝ, HasDerivAt (fun _ => c) 0 (q %d) := fun c => hasDerivAt_const _ c\n'%l
        o+='  refine (((%s).add (%s)).add (%s)).congr_deriv ?_\n  simp\n\n'%tuple('(hasDerivAt_id (q %d)).const_mul (d%s_D%d P q)'%(l,b,j) if j==l else 'hc (d%s_D%d P q * q %d)'%(b,j,j) for j in range(3))
    for i in range(3):
        for l in range(3):
            o+='theorem d%s_D%d_at%d (P : Par) (q : Pt) : HasDerivAt (line (d%s_D%d P) %d q) (%s P q) (q %d) := hasDerivAt_const _ _\n\n'%(b,i,l,b,i,l,child('d%s_D%d'%(b,i),l),l)
    for i in range(3):
        for j in range(i,3):
            for l in range(3):
                n='dd%s_D%dD%d'%(b,i,j)
                o+='theorem %s_at%d (P : Par) (q : Pt) : HasDerivAt (line (%s P) %d q) (%s P q) (q %d) := hasDerivAt_const _ _\n\n'%(n,l,n,l,child(n,l),l)
o+='''theorem Sq_pos (P : Par) (q : Pt) (hR : 0 < R P q) : 0 < Sq P q := by
  rcases (Real.sqrt_nonneg _ : 0 ≤ Sq P q).lt_or_eq with h | h
  · exact h
  · exfalso
    have : R P q = P.lit * Sq P q := rfl
    have h' : Sq P q = 0 := h.symm
    rw [this, h'] at hR
    simp at hR

theorem Tq_pos (P : Par) (q : Pt) (hR : 0 < R P q) : 0 < Tq P q := by
  have hs := Sq_pos P q hR
  rcases (Real.sqrt_nonneg _ : 0 ≤ Tq P q).lt_or_eq with h | h
  · exact h
  · exfalso
    have h0 : 4 * P.a ^ 2 * (Z P q) ^ 2 + (-P.a ^ 2 + (X P q) ^ 2 + (Y P q) ^ 2 + (Z P q) ^ 2) ^ 2 ≤ 0 := by
      have : √(4 * P.a ^ 2 * (Z P q) ^ 2 + (-P.a ^ 2 + (X P q) ^ 2 + (Y P q) ^ 2 + (Z P q) ^ 2) ^ 2) = 0 := h.symm
      exact Real.sqrt_eq_zero'.mp this
    have hw : -P.a ^ 2 + (X P q) ^ 2 + (Y P q) ^ 2 + (Z P q) ^ 2 = 0 := by
      have h1 : 0 ≤ 4 * P.a ^ 2 * (Z P q) ^ 2 := by positivity
      have h2 := sq_nonneg (-P.a ^ 2 + (X P q) ^ 2 + (Y P q) ^ 2 + (Z P q) ^ 2)
      exact pow_eq_zero_iff (two_ne_zero) |>.mp (le_antisymm (by linarith) h2)
    have e : Sq P q = √(-P.a ^ 2 + (X P q) ^ 2 + (Y P q) ^ 2 + (Z P q) ^ 2 + Tq P q) := rfl
    have h' : Tq P q = 0 := h.symm
    rw [hw, h'] at e
    simp at e
    exact hs.ne' e

'''
W='(-P.a ^ 2 + (X P q) ^ 2 + (Y P q) ^ 2 + (Z P q) ^ 2)'
for l in range(3):
    dw='(X P q * dX_D%d P q + Y P q * dY_D%d P q + Z P q * dZ_D%d P q)'%(l,l,l)
    sq=lambda b:'(%s_at%d P q).pow 2'%(b,l)
    o+='theorem Tq_at%d (P : Par) (q : Pt) (hR : 0 < R P q) : HasDerivAt (line (Tq P) %d q)\n    ((4 * P.a ^ 2 * Z P q * dZ_D%d P q + 2 * %s * %s) / Tq P q) (q %d) := by\n'%(l,l,l,W,dw,l)
    o+='  have hc : ∀ c : ℝ, HasDerivAt (fun _ => c) 0 (q %d) := fun c => hasDerivAt_const _ c\n'%l
    o+='  have hT := Tq_pos P q hR\n'
    o+='  have key := (((hc (4 * P.a ^ 2)).mul (%s)).add (((((hc (-P.a ^ 2)).add (%s)).add (%s)).add (%s)).pow 2)).sqrt (by\n    have h := Real.sqrt_pos.mp hT\n    simp only [Pi.add_apply, Pi.mul_apply, Pi.pow_apply, line_at]\n    exact h.ne\')\n'%(sq('Z'),sq('X'),sq('Y'),sq('Z'))
    o+='  refine key.congr_deriv ?_\n  simp only [Pi.add_apply, Pi.mul_apply, Pi.pow_apply, line_at]\n'
    o+='  have e : √(4 * P.a ^ 2 * (Z P q) ^ 2 + (-P.a ^ 2 + (X P q) ^ 2 + (Y P q) ^ 2 + (Z P q) ^ 2) ^ 2) = Tq P q := rfl\n  rw [e]\n  field_simp\n  ring\n\n'
    o+='theorem Sq_at%d (P : Par) (q : Pt) (hR : 0 < R P q) : HasDerivAt (line (Sq P) %d q)\n    ((%s + (2 * P.a ^ 2 * Z P q * dZ_D%d P q + %s * %s) / Tq P q) / Sq P q) (q %d) := by\n'%(l,l,dw,l,W,dw,l)
    o+='  have hc : ∀ c : ℝ, HasDerivAt (fun _ => c) 0 (q %d) := fun c => hasDerivAt_const _ c\n'%l
    o+='  have hT := Tq_pos P q hR\n  have hS := Sq_pos P q hR\n'
    o+='  have key := (((((hc (-P.a ^ 2)).add (%s)).add (%s)).add (%s)).add (Tq_at%d P q hR)).sqrt (by\n    have h := Real.sqrt_pos.mp hS\n    simp only [Pi.add_apply, Pi.pow_apply, line_at]\n    exact h.ne\')\n'%(sq('X'),sq('Y'),sq('Z'),l)
    o+='  refine key.congr_deriv ?_\n  simp only [Pi.add_apply, Pi.pow_apply, line_at]\n'
    o+='  have e : √(-P.a ^ 2 + (X P q) ^ 2 + (Y P q) ^ 2 + (Z P q) ^ 2 + Tq P q) = Sq P q := rfl\n  rw [e]\n  field_simp\n  ring\n\n'
o+='end Elliptica.Ks\n'
write('Lemmas/Gen/KsX.lean',o)


import ksinv as K
def iname(v): return 'i'+v+' P q'
def Lp(p):
    """text of a polynomial in the invariants"""
    if not p: return '0'
    out=''
    for m,c in sorted(p.items()):
        fs=[]
        for v,e in m:
            t='P.a' if v=='a' else iname(v)
            fs.append(t if e==1 else ('%s ^ %d'%(t if v=='a' else '(%s)'%t,e)))
        a=abs(c); n=str(a.numerator) if a.denominator==1 else '%d / %d'%(a.numerator,a.denominator)
        body=' * '.join(([n] if a!=1 or not fs else [])+fs)
        out+=(' - ' if c<0 else ' + ' if out else '')+body if out or c>0 else '-(%s)'%body if False else '-%s * 1'%body if False else '0 - '+body
    return out
def hasroot(e):
    if e[0]=='pow' and F(e[2][1]).denominator==2: return True
    return any(hasroot(a) for a in e[1:] if isinstance(a,tuple))
def haslit(e):
    if e[0]=='num' and len(e[1])>8: return True
    return any(haslit(a) for a in e[1:] if isinstance(a,tuple))
SUBS={}
def compact(e,acc):
    if not hasroot(e) and not haslit(e) and calls(e):
        p=K.inv(e); assert not K.add(K.expand(p),K.poly(e),-1)
        acc[L(e)]=p
        return ('inv',tuple(sorted(p.items())))
    if e[0]=='pow' and F(e[2][1]).denominator==2: return e
    return tuple(compact(a,acc) if isinstance(a,tuple) else a for a in e)
oldL0=g.L0; oldcalls=g.calls; oldder=g.der
def L0(e):
    if e[0]=='inv': return '('+Lp(dict(e[1]))+')',4
    return oldL0(e)
g.L0=L0
def icalls(e,acc=None):
    acc=set() if acc is None else acc
    if e[0]=='inv':
        for m,_ in e[1]:
            for v,_ in m:
                if v!='a': acc.add('i'+v)
        return acc
    return oldcalls(e,acc)
g.calls=icalls
def poly2ast(p):
    """polynomial in the invariants as an expression"""
    r=None
    for m,c in sorted(p):
        a=abs(c)
        fs=[('num','%d.'%a) if a.denominator==1 else ('frac',a)]
        if a==1 and m: fs=[]
        for v,e in m:
            t=('var','a_BH') if v=='a' else ('ivar','i'+v)
            fs.append(t if e==1 else ('pow',t,('num',str(e))))
        b=fs[0]
        for f in fs[1:]: b=('*',b,f)
        if r is None: r=b if c>0 else ('-',('num','0.'),b)
        else: r=('+' if c>0 else '-',r,b)
    return r if r is not None else ('num','0.')
def ast(e):
    if e[0]=='inv': return ast2(poly2ast(e[1]))
    if e[0]=='pow' and F(e[2][1]).denominator==2: return e
    return tuple(ast(a) if isinstance(a,tuple) else a for a in e)
def ast2(e):
    if e[0]=='frac': return ('/',('num','%d.'%e[1].numerator),('num','%d.'%e[1].denominator))
    if e[0]=='ivar': return ('call',e[1])
    return tuple(ast2(a) if isinstance(a,tuple) else a for a in e)
o=''.join('import %s\n'%i for i in ['Verif.Lemmas.Gen.KsX'])+LHEAD
idefs=[('iw',K.defi('w'))]
for i in range(3):
    for v in 'uge': idefs.append(('i%s%d'%(v,i),K.defi('%s%d'%(v,i))))
    for j in range(i,3):
        for v in 'pz': idefs.append(('i%s%d%d'%(v,i,j),K.defi('%s%d%d'%(v,i,j))))
def Ld(p):
    out=''
    for m,c in sorted(p.items(),key=lambda t:(-t[1],t[0])):
        body=' * '.join(('P.a' if v=='a' else '%s P q'%v) if e==1 else ('%s ^ %d'%('P.a' if v=='a' else '(%s P q)'%v,e)) for v,e in m)
        assert abs(c)==1
        out+=((' + ' if c>0 else ' - ') if out else '')+body
    return out
for n,d in idefs:
    o+='noncomputable def %s (P : Par) (q : Pt) : ℝ := %s\n\n'%(n,Ld(d))
for l in range(3):
    o+='theorem iw_at%d (P : Par) (q : Pt) (hR : 0 < R P q) : HasDerivAt (line (iw P) %d q) (2 * iu%d P q) (q %d) := by\n'%(l,l,l,l)
    o+='  refine (((((X_at%d P q).pow 2).add ((Y_at%d P q).pow 2)).add ((Z_at%d P q).pow 2)).sub (hasDerivAt_const _ (P.a ^ 2))).congr_deriv ?_\n  simp only [line_at, Nat.cast_ofNat, Nat.reduceSub, pow_one]\n  unfold iu%d\n  ring\n\n'%(l,l,l,l)
    for i in range(3):
        il='%d%d'%(min(i,l),max(i,l))
        o+='theorem iu%d_at%d (P : Par) (q : Pt) (hR : 0 < R P q) : HasDerivAt (line (iu%d P) %d q) (ip%s P q) (q %d) := by\n'%(i,l,i,l,il,l)
        o+='  refine ((((X_at%d P q).mul (dX_D%d_at%d P q)).add ((Y_at%d P q).mul (dY_D%d_at%d P q))).add ((Z_at%d P q).mul (dZ_D%d_at%d P q))).congr_deriv ?_\n'%((l,i,l)*3)
        z=['%s'%child('d%s_D%d'%(b,i),l) for b in 'XYZ']
        o+='  simp only [line_at, %s]\n  unfold ip%s\n  ring\n\n'%(', '.join(z),il)
        o+='theorem ig%d_at%d (P : Par) (q : Pt) (hR : 0 < R P q) : HasDerivAt (line (ig%d P) %d q) (iz%s P q) (q %d) := by\n'%(i,l,i,l,il,l)
        o+='  refine ((Z_at%d P q).mul (dZ_D%d_at%d P q)).congr_deriv ?_\n  simp only [line_at, %s]\n  unfold iz%s\n  ring\n\n'%(l,i,l,z[2],il)
        for j in range(i,3):
            for v in 'pz':
                o+='theorem i%s%d%d_at%d (P : Par) (q : Pt) (hR : 0 < R P q) : HasDerivAt (line (i%s%d%d P) %d q) 0 (q %d) := hasDerivAt_const (q %d) (i%s%d%d P q)\n\n'%(v,i,j,l,v,i,j,l,l,l,v,i,j)
    o+='theorem Tq_iat%d (P : Par) (q : Pt) (hR : 0 < R P q) : HasDerivAt (line (Tq P) %d q) ((4 * P.a ^ 2 * ig%d P q + 2 * iw P q * iu%d P q) / Tq P q) (q %d) := by\n'%(l,l,l,l,l)
    o+='  refine (Tq_at%d P q hR).congr_deriv ?_\n  unfold ig%d iw iu%d\n  ring\n\n'%(l,l,l)
    o+='theorem Sq_iat%d (P : Par) (q : Pt) (hR : 0 < R P q) : HasDerivAt (line (Sq P) %d q)\n    ((iu%d P q + (2 * P.a ^ 2 * ig%d P q + iw P q * iu%d P q) / Tq P q) / Sq P q) (q %d) := by\n'%(l,l,l,l,l,l)
    o+='  refine (Sq_at%d P q hR).congr_deriv ?_\n  unfold ig%d iw iu%d\n  ring\n\n'%(l,l,l)
o+='end Elliptica.Ks\n'
write('Lemmas/Gen/KsI.lean',o)
COMP={}
def comp(n):
    if n not in COMP:
        acc={}; c=compact(ALL[n],acc); COMP[n]=(ast(c),acc)
    return COMP[n]
def compact_thm(n):
    c,acc=comp(n)
    o='noncomputable def %s_i (P : Par) (q : Pt) : ℝ :=\n%s\n\n'%(n,wrap(L(c)))
    o+='theorem %s_eq (P : Par) (q : Pt) : %s P q = %s_i P q := by\n'%(n,n,n)
    keys=sorted(acc,key=lambda t:-len(t))
    for k,t in enumerate(keys):
        iv=sorted({'i'+v for m in acc[t] for v,_ in m if v!='a'})
        zs=sorted(set(re.findall(r'\bdd+[XYZ]_\w+',t)))
        o+='  have e%d : %s = %s := by\n    simp only [%s]\n    ring\n'%(k,t,L(ast(('inv',tuple(sorted(acc[t].items()))))),', '.join(iv+zs) or 'sub_self')
    o+='  unfold %s\n'%n
    if keys: o+='  rw [%s]\n'%', '.join('e%d'%k for k in range(len(keys)))
    o+='  rfl\n\n'
    return o
def lemmaR(n,l):
    c,_=comp(n); ch=child(n,l)
    g.calls=oldcalls
    cs=sorted(oldcalls(c))
    o='theorem %s_at%d (P : Par) (q : Pt) (hR : 0 < R P q) : HasDerivAt (line (%s P) %d q) (%s P q) (q %d) := by\n'%(n,l,n,l,ch,l)
    o+='  have hc : ∀ c : ℝ, HasDerivAt (fun _ => c) 0 (q %d) := fun c => hasDerivAt_const _ c\n'%l
    o+='  have hT := Tq_pos P q hR\n  have hS := Sq_pos P q hR\n'
    for f in cs: o+='  have h_%s := %s_%sat%d P q hR\n'%(f,f,'i' if f in('Tq','Sq') else '',l)
    o+=wrap('have key := '+der(c))+'\n'
    o+='  rw [show %s P = %s_i P from funext (%s_eq P), %s_eq]\n'%(n,n,n,ch)
    o+='  refine key.congr_deriv ?_\n'
    o+='  simp only [Pi.add_apply, Pi.sub_apply, Pi.neg_apply, Pi.mul_apply, Pi.pow_apply, Pi.div_apply, line_at]\n  unfold %s_i\n'%ch
    o+='  simp only [div_eq_mul_inv, Nat.cast_ofNat, Nat.reduceSub, Nat.reduceAdd, pow_one, mul_zero, zero_mul, add_zero, zero_add, sub_zero]\n'
    if len(set(base(n)[2]+(l,)))==1 and len(base(n)[0])==2: o+='  field_simp\n'
    o+='  ring\n\n'
    g.calls=icalls
    return o
RN=order([n for n in FUN if base(n)[1]=='R'])
HB='set_option maxHeartbeats 4000000 in\n'
o='import Verif.Lemmas.Gen.KsI\n'+LHEAD
for n in RN:
    if len(base(n)[0])<3: o+=compact_thm(n)
for n in RN:
    if len(base(n)[0])<2:
        for l in range(3): o+=lemmaR(n,l)
write('Lemmas/Gen/KsR1.lean',o+'end Elliptica.Ks\n')
o='import Verif.Lemmas.Gen.KsR1\n'+LHEAD
for n in RN:
    if len(base(n)[0])==3: o+=compact_thm(n)
for n in RN:
    if len(base(n)[0])==2:
        for l in range(3): o+=lemmaR(n,l)
write('Lemmas/Gen/KsR2.lean',o+'end Elliptica.Ks\n')
g.calls=oldcalls; g.L0=oldL0
# symmetry of the third derivatives, which the code writes out once for every order of differentiation
NONCAN=[('D0D1D0','D0D0D1'),('D0D2D0','D0D0D2'),('D1D1D0','D0D1D1'),('D1D2D1','D1D1D2'),('D2D2D0','D0D2D2'),('D2D2D1','D1D2D2'),('D0D2D1','D0D1D2'),('D1D2D0','D0D1D2')]
SYM={b:['ddd%s_%s_sym'%(b,x) for x,_ in NONCAN] for b in ('X','Y','Z','R','K0','K1','K2','H','k0','k1','k2','kt','c')}
def symfile(path,imps,bs):
    o=''.join('import %s\n'%i for i in imps)+LHEAD
    for b in bs:
        for x,y in NONCAN:
            o+='theorem ddd%s_%s_sym (P : Par) (q : Pt) : ddd%s_%s P q = ddd%s_%s P q := by\n'%(b,x,b,x,b,y)
            if b=='R': o+='  rw [ddd%s_%s_eq, ddd%s_%s_eq]\n  unfold ddd%s_%s_i ddd%s_%s_i\n'%(b,x,b,y,b,x,b,y)
            else: o+='  unfold ddd%s_%s ddd%s_%s\n'%(b,x,b,y)
            o+='  first | rfl | ring\n\n'
    write(path,o+'end Elliptica.Ks\n')
symfile('Lemmas/Gen/KsS.lean',['Verif.Lemmas.Gen.KsR2','Verif.Model.Gen.KsH'],['X','Y','Z','R','K0','K1','K2','H'])
# K0, K1, K2, H
MIXED={('dd%s_D0D1'%b,2) for b in ('H','c')}|{('dd%s_D0D2'%b,1) for b in ('H','c')}|{('dd%s_D1D2'%b,0) for b in ('H','c')}
SKIP|=MIXED
def finK(n,l):
    o='  try simp only [Nat.cast_ofNat, Nat.reduceSub, pow_one]\n'
    if len(base(n)[0])==2: o+='  try simp only [%s]\n'%', '.join(SYM['R']+SYM['X']+SYM['Y']+SYM['Z'])
    return o+('  field_simp\n' if n=='K2' else '  field_simp\n  ring\n')
def fam(b): return order([n for n in ALL if base(n)[1]==b])
RS=['Verif.Lemmas.Gen.KsS']
for b in ('K0','K1','K2'):
    lemmas('Lemmas/Gen/Ks%s.lean'%b,['Verif.Model.Gen.KsH']+RS,fam(b),finK,(0,1,2),HB)
for v in (0,1,2):
    lemmas('Lemmas/Gen/KsH%d.lean'%v,['Verif.Model.Gen.KsH']+(RS if v==2 else ['Verif.Lemmas.Gen.KsR1'] if v==0 else ['Verif.Lemmas.Gen.KsH0'])+(['Verif.Lemmas.Gen.KsH1'] if v==2 else []),fam('H'),finK,(v,),HB)
# k0, k1, k2, kt, c
symfile('Lemmas/Gen/KsT.lean',['Verif.Lemmas.Gen.KsS','Verif.Model.Gen.KsK'],['k0','k1','k2','kt','c'])
def fink(n,l):
    o='  try simp only [Nat.cast_ofNat, Nat.reduceSub, pow_one]\n'
    if len(base(n)[0])==2: o+='  try simp only [%s]\n'%', '.join(SYM['K0']+SYM['K1']+SYM['K2']+SYM['H'])
    return o+'  ring\n'
for b in ('k0','k1','k2','kt','c'):
    lemmas('Lemmas/Gen/Ks%s.lean'%('l'+b),['Verif.Lemmas.Gen.KsT']+['Verif.Lemmas.Gen.Ks%s'%x for x in (['H2'] if b=='c' else ['K0','K1','K2'])],fam(b),fink,(0,1,2),'')
def fing(n,l):
    o='  try simp only [Nat.cast_ofNat, Nat.reduceSub, pow_one]\n'
    if len(base(n)[0])==2: o+='  try simp only [%s]\n'%', '.join(SYM['k0']+SYM['k1']+SYM['k2']+SYM['c'])
    return o+'  ring\n'
for n in fam('gamma'):
    ix=base(n)[2]
    if len(base(n)[0])==2:
        for l in range(3):
            if len({ix[2],ix[3],l})==3: SKIP.add((n,l))
for a,b in ((0,0),(0,1),(0,2),(1,1),(1,2),(2,2)):
    lemmas('Lemmas/Gen/Ksg%d%d.lean'%(a,b),['Verif.Model.Gen.KsG']+['Verif.Lemmas.Gen.Ksl%s'%x for x in sorted({'k%d'%a,'k%d'%b})+['c']],[n for n in fam('gamma') if base(n)[2][:2]==(a,b)],fing,(0,1,2),'')
# the statements by index
TI=['Verif.Lemmas.Gen.Ks%s'%x for x in ('K0','K1','K2','H2','lk0','lk1','lk2','lkt','lc','g00','g01','g02','g11','g12','g22')]
o=''.join('import %s\n'%i for i in TI)+LHEAD
R3=range(3)
def s2(i,j): return (min(i,j),max(i,j))
def look(d,b,ix): return 'd'*d+b+('_'+''.join('D%d'%i for i in ix) if ix else '')
for b in ('X','Y','Z','R','K0','K1','K2','H','k0','k1','k2','kt','c'):
    hr='' if b in 'XYZ' else ' hR'
    o+='theorem %s_at (P : Par) (q : Pt) (hR : 0 < R P q) : ∀ i : Fin 3, HasDerivAt (line (%s P) i q) (d%s P i q) (q i)\n'%(b,b,b)
    for i in R3: o+='  | %d => %s_at%d P q%s\n'%(i,b,i,hr)
    o+='\ntheorem d%s_at (P : Par) (q : Pt) (hR : 0 < R P q) : ∀ i j : Fin 3, HasDerivAt (line (d%s P i) j q) (dd%s P i j q) (q j)\n'%(b,b,b)
    for i in R3:
        for j in R3: o+='  | %d, %d => %s_at%d P q%s\n'%(i,j,look(1,b,(i,)),j,hr)
    bad=b in('H','c')
    o+='\ntheorem dd%s_at (P : Par) (q : Pt) (hR : 0 < R P q) : ∀ i j k : Fin 3,%s HasDerivAt (line (dd%s P i j) k q) (ddd%s P i j k q) (q k)\n'%(b,' i = j ∨ i = k ∨ j = k →' if bad else '',b,b)
    for i in R3:
        for j in R3:
            for k in R3:
                if bad and len({i,j,k})==3:
                    o+='  | %d, %d, %d, h => absurd h (by decide)\n'%(i,j,k); continue
                t='%s_at%d P q%s'%(look(2,b,s2(i,j)),k,hr)
                o+='  | %d, %d, %d%s => %s\n'%(i,j,k,', _' if bad else '',t)
    o+='\n'
o+='theorem gam_at (P : Par) (q : Pt) (hR : 0 < R P q) : ∀ i j k : Fin 3, HasDerivAt (line (gam P i j) k q) (dgam P i j k q) (q k)\n'
for i in R3:
    for j in R3:
        for k in R3: o+='  | %d, %d, %d => %s_at%d P q hR\n'%(i,j,k,look(0,'gamma',s2(i,j)),k)
o+='\ntheorem dgam_at (P : Par) (q : Pt) (hR : 0 < R P q) : ∀ i j k l : Fin 3, HasDerivAt (line (dgam P i j k) l q) (ddgam P i j k l q) (q l)\n'
for i in R3:
    for j in R3:
        for k in R3:
            for l in R3: o+='  | %d, %d, %d, %d => %s_at%d P q hR\n'%(i,j,k,l,look(1,'gamma',s2(i,j)+(k,)),l)
o+='\ntheorem ddgam_at (P : Par) (q : Pt) (hR : 0 < R P q) : ∀ i j k l m : Fin 3, k = l ∨ k = m ∨ l = m → HasDerivAt (line (ddgam P i j k l) m q) (dddgam P i j k l m q) (q m)\n'
for i in R3:
    for j in R3:
        for k in R3:
            for l in R3:
                for m in R3:
                    if len({k,l,m})==3: o+='  | %d, %d, %d, %d, %d, h => absurd h (by decide)\n'%(i,j,k,l,m)
                    else: o+='  | %d, %d, %d, %d, %d, _ => %s_at%d P q hR\n'%(i,j,k,l,m,look(2,'gamma',s2(i,j)+(k,l)),m)
write('Lemmas/Gen/KsAll.lean',o+'\nend Elliptica.Ks\n')
# the mixed third derivatives of H, c and gamma: the code's value plus the terms it lost
def lemma_corr(n,l,corr,fin):
    t=lemma(n,l,fin); ch=child(n,l)
    return t.replace('(%s P q) (q %d) := by'%(ch,l),'(%s P q + %s) (q %d) := by'%(ch,corr,l),1)
o='import Verif.Lemmas.Gen.KsAll\n'+LHEAD
o+='/-- the terms missing in the mixed third derivatives of H -/\nnoncomputable def Hlost (P : Par) (q : Pt) : ℝ :=\n  119 * P.Lam * P.M * P.a ^ 4 * (R P q) ^ 5 * (Z P q) ^ 3 * (dR_D0 P q * dR_D1 P q * dZ_D2 P q + dR_D0 P q * dR_D2 P q * dZ_D1 P q + dR_D1 P q * dR_D2 P q * dZ_D0 P q) / (P.a ^ 2 * (Z P q) ^ 2 + (R P q) ^ 4) ^ 4\n\n'
for n,l in sorted(MIXED):
    if 'H' not in n: continue
    fin='  unfold Hlost\n  rw [show P.a ^ 8 * (Z P q) ^ 8 + 4 * P.a ^ 6 * (R P q) ^ 4 * (Z P q) ^ 6 + 6 * P.a ^ 4 * (R P q) ^ 8 * (Z P q) ^ 4 + 4 * P.a ^ 2 * (R P q) ^ 12 * (Z P q) ^ 2 + (R P q) ^ 16 = (P.a ^ 2 * (Z P q) ^ 2 + (R P q) ^ 4) ^ 4 by ring]\n'+finK(n,l)
    o+='set_option maxRecDepth 100000 in\n'+HB+lemma_corr(n,l,'Hlost P q',fin)+'\n'
for n,l in sorted(MIXED):
    if 'H' in n: continue
    o+=lemma_corr(n,l,'2 * Hlost P q',fink(n,l))+'\n'
GM=sorted((n,l) for n,l in SKIP if 'gamma' in n)
for n,l in GM:
    a,b=base(n)[2][:2]
    o+=lemma_corr(n,l,'2 * Hlost P q * k%d P q * k%d P q'%(a,b),fing(n,l))+'\n'
for b,cf in (('H','Hlost P q'),('c','2 * Hlost P q')):
    o+='theorem dd%s_mixed (P : Par) (q : Pt) (hR : 0 < R P q) : ∀ i j k : Fin 3, i ≠ j → i ≠ k → j ≠ k → HasDerivAt (line (dd%s P i j) k q) (ddd%s P i j k q + %s) (q k)\n'%(b,b,b,cf)
    for i in R3:
        for j in R3:
            for k in R3:
                if len({i,j,k})<3:
                    h=('h, _, _' if i==j else '_, h, _' if i==k else '_, _, h')
                    o+='  | %d, %d, %d, %s => absurd rfl h\n'%(i,j,k,h)
                else: o+='  | %d, %d, %d, _, _, _ => %s_at%d P q hR\n'%(i,j,k,look(2,b,s2(i,j)),k)
    o+='\n'
o+='/-- the null vector by index -/\nnoncomputable def kv (P : Par) (q : Pt) : Fin 3 → ℝ := ![k0 P q, k1 P q, k2 P q]\n\n'
o+='theorem ddgam_mixed (P : Par) (q : Pt) (hR : 0 < R P q) : ∀ i j k l m : Fin 3, k ≠ l → k ≠ m → l ≠ m → HasDerivAt (line (ddgam P i j k l) m q) (dddgam P i j k l m q + 2 * Hlost P q * kv P q i * kv P q j) (q m)\n'
for i in R3:
    for j in R3:
        for k in R3:
            for l in R3:
                for m in R3:
                    if len({k,l,m})<3:
                        h=('h, _, _' if k==l else '_, h, _' if k==m else '_, _, h')
                        o+='  | %d, %d, %d, %d, %d, %s => absurd rfl h\n'%(i,j,k,l,m,h)
                    else:
                        t='%s_at%d P q hR'%(look(2,'gamma',s2(i,j)+(k,l)),m)
                        o+='  | %d, %d, %d, %d, %d, _, _, _ => %s\n'%(i,j,k,l,m,t if i<=j else '(%s).congr_deriv (by simp only [kv, dddgam, Matrix.cons_val_zero, Matrix.cons_val_one, Matrix.cons_val]; ring)'%t)
write('Lemmas/Gen/KsMix.lean',o+'\nend Elliptica.Ks\n')
