#!/usr/bin/env python3
"""Translate pointwise tensor code of /repo (generated there by Cpi) into Lean definitions.

usage: gen_tensor.py  -- writes the modules listed in JOBS under /verif/lean/Verif/Model/Gen

Every `double NAME = expression;` of the C function becomes one Lean definition `NAME (x : In) : ℝ` with a comment citing the lines.
A field read at the node, `stem_U0D1[ijk]`, becomes `x.stem_UD 0 1`; every other free name is a component of `x` as well.
Decimal literals become exact fractions; a literal of 15 or more digits is the double nearest to a fraction with denominator
below 100 (checked here) and becomes that fraction: like all rounding of doubles this rounding is not modelled. `v *= e` becomes a new definition `v_mul`. `pow(a, n)` with a natural number n becomes `a ^ n`.  The order of operations is kept.
"""
import re,sys,os
from fractions import Fraction
REPO='/repo/'
OUT='/verif/lean/Verif/Model/Gen/'
KW={'in','at','end','from','open','by','do','fun','let'}

def tokens(s):
    out=[];i=0
    pat=re.compile(r'\s+|(\d+\.\d*(?:[eE][+-]?\d+)?|\.\d+|\d+[eE][+-]?\d+|\d+)|([A-Za-z_]\w*)|(==|->|[-+*/(),\[\]?:])')
    while i<len(s):
        m=pat.match(s,i)
        if not m: raise Exception('token? '+s[i:i+40])
        i=m.end()
        if m.group(1): out.append(('n',m.group(1)))
        elif m.group(2): out.append(('i',m.group(2)))
        elif m.group(3): out.append(('o',m.group(3)))
    return out

class P:
    def __init__(self,toks,job): self.t=toks;self.k=0;self.job=job
    def peek(self,d=0): return self.t[self.k+d][1] if self.k+d<len(self.t) else None
    def eat(self,v=None):
        x=self.t[self.k]
        if v is not None and x[1]!=v: raise Exception('expected %s got %s'%(v,x))
        self.k+=1;return x
    # returns list of lean strings
    def expr(self):
        s=''
        if self.peek() in '+-' and self.peek() is not None and self.t[self.k][0]=='o':
            o=self.eat()[1]
            if o=='-': s='-'
        s+=self.term()
        while self.peek() in ('+','-'):
            o=self.eat()[1]; s+=' %s '%o+self.term()
        return s
    def term(self):
        s=self.factor()
        while self.peek() in ('*','/'):
            o=self.eat()[1]; s+=' %s '%o+self.factor()
        return s
    def factor(self):
        k,v=self.t[self.k]
        if v=='-':
            self.eat(); return '(-'+self.factor()+')'
        if v=='+':
            self.eat(); return self.factor()
        if v=='(':
            self.eat(); e=self.expr(); self.eat(')'); return '('+e+')'
        if k=='n':
            self.eat(); f=Fraction(v)
            if len(v.replace('.',''))>=15:
                g=Fraction(v).limit_denominator(99)
                assert float(g)==float(v),v
                f=g
            return str(f.numerator) if f.denominator==1 else '(%d / %d)'%(f.numerator,f.denominator)
        if k=='i':
            self.eat()
            if v in ('pow','Pow2','Pow3','Pow4','sqrt','log','exp') and self.peek()=='(':
                self.eat('(')
                a=self.expr()
                if v=='pow':
                    self.eat(',')
                    neg=False
                    if self.peek()=='-': self.eat(); neg=True
                    n=self.eat(); assert n[0]=='n',n
                    f=Fraction(n[1])
                    if f==Fraction(1,2):
                        self.eat(')')
                        return ('(Real.sqrt (%s))⁻¹' if neg else 'Real.sqrt (%s)')%a
                    assert f.denominator==1,('pow exponent',n)
                    self.eat(')')
                    if neg: return '((%s) ^ %d)⁻¹'%(a,f) if not re.fullmatch(r'[\w.]+( \d)*',a) else '(%s ^ %d)⁻¹'%(self.at(a),f)
                    return '%s ^ %d'%(self.at(a),f)
                self.eat(')')
                if v.startswith('Pow'): return '%s ^ %s'%(self.at(a),v[3:])
                return {'sqrt':'Real.sqrt','log':'Real.log','exp':'Real.exp'}[v]+' '+self.par(a)
            if v=='kd' and self.peek()=='[':
                self.eat('[');
                while self.peek()!=']': self.eat()
                self.eat(']')
                self.job.use('kd',0); return 'x.kd'
            if self.peek()=='[':
                self.eat('['); j=self.eat()[1]; self.eat(']')
                return self.job.field(v)
            return self.job.name(v)
        raise Exception('factor? %s'%(self.t[self.k:self.k+5],))
    def at(self,a): return a if re.fullmatch(r'x\.\w+',a) else '(%s)'%a
    def par(self,a): return '(%s)'%a

class Job:
    def __init__(self,path,ns,start=None,stop=None,rename={},skip=(),only=None,extra=None):
        self.path=path;self.ns=ns;self.start=start;self.stop=stop;self.rename=rename;self.skip=set(skip)
        self.fields={};self.order=[];self.defs=[];self.locals={};self.outs=[];self.written={};self.extra=extra or []
    def struct(self):
        o=['structure In where']
        for n in self.order: o.append('  %s : %sℝ'%(n,'Fin 3 → '*self.fields[n]))
        return o+['']
    def use(self,n,a):
        if n in self.fields: assert self.fields[n]==a,(n,a,self.fields[n])
        else: self.fields[n]=a; self.order.append(n)
    def split(self,v):
        m=re.fullmatch(r'(.*?)_((?:[UD]\d)+)',v)
        if not m: return v,'',[]
        idx=re.findall(r'([UD])(\d)',m.group(2))
        return m.group(1),''.join(a for a,b in idx),[b for a,b in idx]
    def field(self,v):
        if v in self.written: return self.written[v]   # read after it was written at the same node
        st,pat,idx=self.split(v)
        n=st+('_'+pat if pat else '')
        self.use(n,len(idx))
        return 'x.'+n+''.join(' '+i for i in idx)
    def name(self,v):
        if v=='M_PI': return 'Real.pi'
        if v in self.skip and v in self.rename: return self.field(self.rename[v])   # a value got from a call: an input
        if v in self.locals: return self.locals[v]+' x'
        return self.field(v)
    def run(self):
        txt=open(REPO+self.path).read()
        # blank comments, keep newlines
        txt=re.sub(r'/\*.*?\*/',lambda m:re.sub(r'[^\n]',' ',m.group(0)),txt,flags=re.S)
        txt=re.sub(r'//[^\n]*','',txt)
        lines=txt.split('\n')
        a=(self.start or 1);b=(self.stop or len(lines))
        body='\n'.join(lines[a-1:b])
        for m in re.finditer(r'(?:^|(?<=[;{}\n)]))[ \t]*(?:(?:const )?double (\w+)\s*=\s*([^;]*);|(\w+)\[(\w+)\](?:\[(\w+)\])?\s*=\s*([^;]*);|(\w+)\s*([-+*/])=\s*([^;]*);)',body):
            if m.group(7):
                l0=a+body.count('\n',0,m.start(7)); l1=a+body.count('\n',0,m.end())
                n,op,e=m.group(7),m.group(8),m.group(9)
                if n in self.skip: continue
                old=self.locals[n]
                new=old+'_'+{'*':'mul','+':'add','-':'sub','/':'div'}[op]
                s=P(tokens(e),self).expr()
                self.defs.append((new,'%s x %s (%s)'%(old,op,s),l0,l1)); self.locals[n]=new
                continue
            l0=a+body.count('\n',0,m.start(1) if m.group(1) else m.start(3)); l1=a+body.count('\n',0,m.end())
            if m.group(1):
                n,e=m.group(1),m.group(2)
                if n in self.skip or 'Jacobian(' in e or n in ('kd',): continue
                if re.search(r'patch->|DBL_MAX|Get|Pget|Matrix_|interpolation|dq2_dq1',e): continue
                s=P(tokens(e),self).expr()
                ln=self.rename.get(n,n)
                self.defs.append((ln,s,l0,l1)); self.locals[n]=ln
            else:
                n,e=m.group(3),m.group(6)
                if n in self.skip: continue
                s=P(tokens(e),self).expr()
                self.outs.append((n,s,l0,l1)); self.written[n]='('+s+')'
        return self
    def emit(self,head=True):
        o=[]
        o.append('namespace %s\n'%self.ns)
        if head:
            o.append('/-- values at one node read by %s -/'%self.path)
            o+=self.struct()
        for (n,s,l0,l1) in self.defs:
            o.append('/-- %s:%s -/'%(os.path.basename(self.path),'%d-%d'%(l0,l1) if l1>l0 else l0))
            o.append('noncomputable def %s (x : In) : ℝ :=\n  %s\n'%(n,wrap(s)))
        # outputs
        g={}
        for (n,s,l0,l1) in self.outs:
            st,pat,idx=self.split(n)
            key=st+('_'+pat if pat else '')
            g.setdefault(key,[]).append((idx,s,l0,l1))
        for key,l in g.items():
            r=len(l[0][0])
            l0=min(x[2] for x in l);l1=max(x[3] for x in l)
            if r==0:
                for q,(idx,s,a,b) in enumerate(l):
                    o.append('/-- %s:%s the value written to %s -/'%(os.path.basename(self.path),'%d-%d'%(a,b) if b>a else a,key))
                    o.append('noncomputable def out_%s (x : In) : ℝ :=\n  %s\n'%(key+('' if len(l)==1 else '_%d'%q),wrap(s)))
            else:
                o.append('/-- %s:%d-%d the values written to %s; `none`: not stored -/'%(os.path.basename(self.path),l0,l1,key))
                o.append('noncomputable def out_%s (x : In) : %sOption ℝ'%(key,'Fin 3 → '*r))
                for (idx,s,a,b) in l:
                    o.append('  | %s => some (%s)'%(', '.join(idx),wrap(s)))
                if len(l)<3**r: o.append('  | %s => none'%', '.join('_'*r))
                o.append('')
        o.append('end %s\n'%self.ns)
        return '\n'.join(o)

class Group:
    """several files over one common structure of node values"""
    def __init__(self,ns,jobs): self.ns=ns;self.jobs=jobs;self.path=', '.join(j.path for j in jobs)
    def run(self):
        f={};o=[]
        for j in self.jobs:
            j.fields=f;j.order=o;j.run()
        return self
    def emit(self):
        o=['namespace %s\n'%self.ns,'/-- values at one node (`kd`, `J…`, `JJ…`: the Kronecker delta and the two Jacobian functions at the pair of nodes) read by '+self.path+' -/']
        o+=self.jobs[0].struct()
        o.append('end %s\n'%self.ns)
        return '\n'.join(o)+'\n'+'\n'.join(j.emit(False) for j in self.jobs)

def wrap(s,w=126):
    out=[];cur=''
    for part in re.split(r'(?<= )',s):
        if len(cur)+len(part)>w: out.append(cur.rstrip());cur='    '+part
        else: cur+=part
    out.append(cur)
    return '\n  '.join(out)

HEAD='''import Mathlib.Analysis.Real.Sqrt
import Mathlib.Analysis.SpecialFunctions.Trigonometric.Basic
/-!
Generated by /verif/tools/gen_tensor.py from %s: the arithmetic done at one node, over `ℝ`;
rounding is not modelled, neither that of the operations nor that of decimal literals such as 0.66666666666666663 (= 2/3).
%s-/
set_option linter.style.longLine false
set_option linter.unusedVariables false

'''
def write(mod,jobs,note=''):
    os.makedirs(OUT,exist_ok=True)
    jobs=[j.run() for j in jobs]
    s=HEAD%(', '.join(j.path for j in jobs),note)+'\n'.join(j.emit() for j in jobs)
    open(OUT+mod+'.lean','w').write(s)

DGP='Src/Main/Modules/Maths/Diff_Geom/'
EQP='Src/Main/Modules/Physics/Equation/'
exec(open(os.path.join(os.path.dirname(os.path.abspath(__file__)),'jobs.py')).read())
