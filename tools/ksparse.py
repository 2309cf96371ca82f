import re,sys
sys.setrecursionlimit(100000)
D='/repo/Src/Main/Modules/Physics/Free_Data/'
def clean(t):
    t=re.sub(r'/\*.*?\*/','',t,flags=re.S)
    t=re.sub(r'//[^\n]*','',t)
    return t
TOK=re.compile(r'\s*(?:(\d+\.\d*(?:[eE][-+]?\d+)?|\.\d+|\d+)|([A-Za-z_]\w*)|([-+*/(),]))')
def tokens(s):
    i=0;out=[]
    s=s.strip()
    while i<len(s):
        m=TOK.match(s,i)
        if not m: raise Exception("tok "+s[i:i+40])
        i=m.end()
        if m.group(1): out.append(('n',m.group(1)))
        elif m.group(2): out.append(('i',m.group(2)))
        else: out.append(('o',m.group(3)))
    return out
class P:
    def __init__(s,t): s.t=tokens(t); s.i=0
    def peek(s): return s.t[s.i] if s.i<len(s.t) else ('e','')
    def nx(s): r=s.peek(); s.i+=1; return r
    def ex(s,o):
        r=s.nx()
        if r!=('o',o): raise Exception(f"expected {o} got {r} {s.t[s.i-5:s.i+5]}")
    def expr(s):
        a=s.term()
        while s.peek() in (('o','+'),('o','-')):
            o=s.nx()[1]; b=s.term(); a=(o,a,b)
        return a
    def term(s):
        a=s.fac()
        while s.peek() in (('o','*'),('o','/')):
            o=s.nx()[1]; b=s.fac(); a=(o,a,b)
        return a
    def fac(s):
        if s.peek()==('o','-'): s.nx(); return ('neg',s.fac())
        if s.peek()==('o','+'): s.nx(); return s.fac()
        return s.atom()
    def atom(s):
        k,v=s.nx()
        if k=='n': return ('num',v)
        if (k,v)==('o','('):
            e=s.expr()
            if s.peek()==('i','KS_func_pass_args_macro'):
                s.nx(); assert e[0]=='var',e; e=('call',e[1])
            s.ex(')'); return e
        if k=='i':
            if v=='Hold': return s.atom()
            if s.peek()==('i','KS_func_pass_args_macro'):
                s.nx(); return ('call',v)
            if s.peek()==('o','('):
                s.nx(); args=[s.expr()]
                while s.peek()==('o',','): s.nx(); args.append(s.expr())
                s.ex(')')
                if v=='Pattern': return ('var',args[0][1]+'_'+args[1][1])
                if v in('Power','pow'): return ('pow',args[0],args[1])
                if v in('Cos','cos'): return ('cos',args[0])
                if v in('Sin','sin'): return ('sin',args[0])
                if v in('Sqrt','sqrt'): return ('sqrt',args[0])
                if v.startswith('fd_ks_'):
                    assert [a[1] for a in args]==['x','y','z'],args
                    return ('call',v)
                raise Exception(v)
            return ('var',v)
        raise Exception((k,v))
def parse(t):
    p=P(t); e=p.expr(); assert p.peek()[0]=='e',p.peek(); return e
FUN={};LINES={}
def load(f):
    raw=open(D+f).read()
    for m in re.finditer(r'KS_func_def_macro\((\w+)\)\s*KS_func_args_macro\s*\{(.*?)\n\}',raw,flags=re.S):
        b=clean(m.group(2)).strip()
        assert b.startswith('return'),b[:50]
        b=b[6:].strip().rstrip(';').strip()
        l0=raw[:m.start()].count('\n')+1; l1=raw[:m.end()].count('\n')+1
        assert m.group(1) not in FUN
        FUN[m.group(1)]=parse(b); LINES[m.group(1)]=(f,l0,l1)
for f in ['fd_KerrSchild_R_X_Y_Z.c','fd_KerrSchild_H_K0_K1_K2.c','fd_KerrSchild_c_k0_k1_k2_kt.c']: load(f)
GAM={}
f='fd_KerrSchild_g_dg_ddg_dddg.c'
raw=open(D+f).read()
for m in re.finditer(r'(_d*gamma_\w+)\[ijk\]\s*=(.*?);',raw,flags=re.S):
    n=m.group(1)[1:]
    l0=raw[:m.start()].count('\n')+1; l1=raw[:m.end()].count('\n')+1
    assert n not in GAM
    GAM[n]=parse(clean(m.group(2))); LINES[n]=(f,l0,l1)
if __name__=='__main__':
    print(len(FUN),len(GAM))
    def size(e): return 1+sum(size(a) for a in e[1:] if isinstance(a,tuple))
    print(sorted([(size(e),n) for n,e in FUN.items()])[-40:])
    print(sorted([(size(e),n) for n,e in GAM.items()])[-5:])
