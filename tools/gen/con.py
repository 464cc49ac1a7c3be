import sys,re; sys.path.insert(0,'/tmp/w')
from cx import *
def block(src,start):
    # text of {...} starting at first { after start
    i=src.index('{',start); d=0
    for k in range(i,len(src)):
        if src[k]=='{': d+=1
        if src[k]=='}':
            d-=1
            if d==0: return src[i:k+1]
def getcon(f):
    s=open('/repo/sources/'+f).read()
    out={}
    for nm in('THIRD','FIFTH','SIXTH','EIGHTH','FOURTH','SEVENTH'):
        pos=[m.start() for m in re.finditer(r'if \(outMask & %s\)'%nm,s)]
        out[nm]=[(s.count('\n',0,p)+1,block(s,p)) for p in pos]
    return out
if __name__=='__main__':
    for f in sys.argv[1:]:
        o=getcon(f)
        for k in o:
            for ln,b in o[k]:
                st=parse_stmts(b)
                print(f,k,ln,len(b))
