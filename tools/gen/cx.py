# mini C expression / statement parser
import re
TOK=re.compile(r'\s*(?:(/\*.*?\*/)|((?:\d+\.\d*|\.\d+|\d+)(?:[eE][-+]?\d+)?)|([A-Za-z_]\w*)|(<=|>=|==|!=|&&|\|\||\+=|-=|\*=|/=|\+\+|--|->|[-+*/%?:;,(){}\[\]=<>!&|~^.]))',re.S)
def tokenize(s):
    out=[];i=0
    s=s.replace('\\\n','\n')
    s=re.sub(r'/\*.*?\*/',' ',s,flags=re.S); s=re.sub(r'//[^\n]*',' ',s)
    s=s.strip()
    while i<len(s):
        m=TOK.match(s,i)
        if not m:
            if s[i:].strip()=='' : break
            raise Exception('tok '+repr(s[i:i+40]))
        i=m.end()
        if m.group(1): continue
        if m.group(2): out.append(('num',m.group(2)))
        elif m.group(3): out.append(('id',m.group(3)))
        else: out.append(('op',m.group(4)))
    return out
class P:
    def __init__(s,toks): s.t=toks; s.i=0
    def pk(s,k=0): return s.t[s.i+k] if s.i+k<len(s.t) else ('eof','')
    def nx(s): x=s.pk(); s.i+=1; return x
    def acc(s,v):
        if s.pk()[0]=='op' and s.pk()[1]==v: s.i+=1; return True
        return False
    def ex(s,v):
        if not s.acc(v): raise Exception('expected %s got %s at %d: %s'%(v,s.pk(),s.i,s.t[s.i-5:s.i+5]))
    def expr(s): return s.tern()
    def tern(s):
        c=s.bin(0)
        if s.acc('?'):
            a=s.tern(); s.ex(':'); b=s.tern(); return ('?',c,a,b)
        return c
    LV=[['||'],['&&'],['|'],['^'],['&'],['==','!='],['<','>','<=','>='],['+','-'],['*','/','%']]
    def bin(s,l):
        if l==len(s.LV): return s.un()
        a=s.bin(l+1)
        while s.pk()[0]=='op' and s.pk()[1] in s.LV[l]:
            o=s.nx()[1]; b=s.bin(l+1); a=(o,a,b)
        return a
    def un(s):
        if s.acc('-'): return ('neg',s.un())
        if s.acc('+'): return s.un()
        if s.acc('!'): return ('!',s.un())
        if s.acc('~'): return ('~',s.un())
        return s.post()
    def post(s):
        k,v=s.nx()
        if k=='num': a=('num',v)
        elif k=='id': a=('id',v)
        elif v=='(':
            # cast?
            if s.pk()==('id','double') or s.pk()==('id','int'):
                s.nx(); s.ex(')'); return s.un()
            a=s.expr(); s.ex(')')
        else: raise Exception('prim '+repr((k,v))+repr(s.t[s.i-6:s.i+4]))
        while True:
            if s.acc('['): b=s.expr(); s.ex(']'); a=('idx',a,b)
            elif s.acc('('):
                args=[]
                if not s.acc(')'):
                    while True:
                        args.append(s.expr())
                        if s.acc(')'): break
                        s.ex(',')
                a=('call',a,args)
            elif s.acc('++'): a=('post++',a)
            elif s.acc('--'): a=('post--',a)
            else: return a
    # statements
    def stmt(s):
        if s.acc('{'):
            L=[]
            while not s.acc('}'): L.append(s.stmt())
            return ('blk',L)
        if s.acc(';'): return ('blk',[])
        if s.pk()==('id','if'):
            s.nx(); s.ex('('); c=s.expr(); s.ex(')'); a=s.stmt(); b=None
            if s.pk()==('id','else'): s.nx(); b=s.stmt()
            return ('if',c,a,b)
        if s.pk()==('id','for'):
            s.nx(); s.ex('('); ini=s.alist(';'); c=s.expr() if s.pk()!=('op',';') else None; s.ex(';'); inc=s.alist(')')
            return ('for',ini,c,inc,s.stmt())
        if s.pk()[0]=='id' and s.pk()[1] in('double','int','static','const'):
            while s.pk()[0]=='id' and s.pk()[1] in('double','int','static','const'): s.nx()
            L=[]
            while True:
                nm=s.post()
                if s.acc('='):
                    if s.pk()==('op','{'): 
                        d=0
                        while True:
                            t=s.nx()
                            if t==('op','{'): d+=1
                            if t==('op','}'):
                                d-=1
                                if d==0: break
                        L.append(('decl',nm))
                    else: L.append(('=',nm,s.expr()))
                else: L.append(('decl',nm))
                if s.acc(';'): break
                s.ex(',')
            return ('blk',L)
        L=s.alist(';')
        return L[0] if len(L)==1 else ('blk',L)
    def asg(s):
        a=s.expr()
        for o in('=','+=','-=','*=','/='):
            if s.acc(o): return (o,a,s.expr())
        return ('ex',a)
    def alist(s,end):
        L=[]
        if s.acc(end): return L
        while True:
            L.append(s.asg())
            if s.acc(end): return L
            s.ex(',')
def parse_expr(t):
    p=P(tokenize(t)); e=p.expr()
    assert p.i==len(p.t), p.t[p.i:p.i+6]
    return e
def parse_stmts(t):
    p=P(tokenize(t)); L=[]
    while p.i<len(p.t): L.append(p.stmt())
    return L
