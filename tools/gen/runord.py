import sys,os
sys.path.insert(0,os.path.dirname(os.path.abspath(__file__)))
from genord import *
OUT='/verif/lean/Verif/Thermo/Ordered/'
def emit(fn,title,g):
    t=HEAD%(title,g.f)+g.lean()
    if g.imp: t=t.replace('import Verif.Thermo.OrderTables','import '+g.imp,1)
    t+='\nend\n\nend Verif.Thermo.Ordering\n'
    open(OUT+fn+'.lean','w').write(t); print(fn,len(t.split('\n')),sorted(g.unfilled))
which=sys.argv[1:]
def on(n): return not which or n in which
if on('Cummingtonite'):
    S={'xfe2m4':'(1.0+r[0]+6.0*s[0]/7.0+ 4.0*s[1]/7.0)/2.0','xfe2m13':'(1.0+r[0]-8.0*s[0]/7.0+ 4.0*s[1]/7.0)/2.0','xfe2m2':'(1.0+r[0]+6.0*s[0]/7.0-10.0*s[1]/7.0)/2.0','xmg2m4':'1.0 - xfe2m4','xmg2m13':'1.0 - xfe2m13','xmg2m2':'1.0 - xfe2m2'}
    emit('Cummingtonite','Cummingtonite.',Gen('Cummingtonite','cummingtonite.c',S,'cummingtonite.c 727-748',{x:('0','1','1 - dblEps') for x in S}))
if on('Nepheline'):
    S={'xkls':'r[0] + 3.0*s[0]/4.0','xvcls':'r[1]+r[2]','xnals':'1.0 - r[0] - r[1] - r[2] - 3.0*s[0]/4.0','xkss':'r[0]-s[0]/4.0','xcass':'r[2]/3.0','xnass':'1.0 - r[0] - r[2]/3.0 + s[0]/4.0'}
    C={x:('dblEps','1 - dblEps','1 - dblEps') for x in S}; C['xcass']=('dblEps','1 / 3 - dblEps','1 / 3 - dblEps')
    emit('Nepheline','Nepheline.',Gen('Nepheline','nepheline.c',S,'nepheline.c 901-938',C,extra=[('z',parse_expr('1.0-3.0*xcass'))],pos=['r1']))
if on('Albite'):
    class A(Gen):
        def entropy(s,ap): return '-('+ap('DGDT')+')'
        def entproof(s): return 'change %s = -(-(%s))\n  rw [neg_neg]'%(s.app('DGDT',s.fsite()),s.app('DGDT',s.fsite()))
    emit('Albite','Albite.',A('Albite','albite.c',{},'albite.c',{}))
AMP={'xca2m4':'r[1]','xfe2m4':'(1.0+r[0]+6.0*s[0]/7.0+ 4.0*s[1]/7.0)/2.0','xfe2m13':'(1.0+r[0]-8.0*s[0]/7.0+ 4.0*s[1]/7.0)/2.0','xfe2m2':'(1.0+r[0]+6.0*s[0]/7.0-10.0*s[1]/7.0)/2.0','xmg2m4':'1.0 - xfe2m4-xca2m4','xmg2m13':'1.0 - xfe2m13','xmg2m2':'1.0 - xfe2m2'}
for nm,cl in(('Clinoamphibole',1),('Orthoamphibole',0)):
    if on(nm):
        C={x:('0',None,None) for x in AMP}
        emit(nm,nm+'.',Gen(nm,'amphibole.c',AMP,'amphibole.c 1014, 1067-1086 (those stored at the end; while iterating, 1046-1051, fractions of at most DBL_EPSILON are replaced by DBL_EPSILON)',C,consts_env={'clino':cl,'TRUE':1,'FALSE':0},note=' with `clino` %s'%('true' if cl else 'false')))

if on('Olivine'):
    S={'xm1mn':'(r[0]-s[0]+1.0)/2.0','xm2mn':'(r[0]+s[0]+1.0)/2.0','xm1fe':'(r[1]-s[1]+1.0)/2.0','xm2fe':'(r[1]+s[1]+1.0)/2.0','xm1co':'(r[2]+s[2]+1.0)/2.0','xm2co':'(r[2]-s[2]+1.0)/2.0','xm1ni':'(r[3]+s[3]+1.0)/2.0','xm2ni':'(r[3]-s[3]+1.0)/2.0','xm2ca':'r[4]','xm1mg':'1.0 - xm1mn - xm1fe - xm1co - xm1ni','xm2mg':'1.0 - xm2mn - xm2fe - xm2co - xm2ni - xm2ca'}
    emit('Olivine','Olivine.',Gen('Olivine','olivine.c',S,'olivine.c 1915-1937',{x:('dblEps',None,None) for x in S},coefs=True,hdo='hdq',ddo='ddq',imp='Verif.Thermo.OrderLogs',
      redef={'DGDT':('- (S)',1034,1034)},doc={'DGDT':'The temperature derivative of `G` (olivine.c 994), which `smixOlv` (olivine.c 3030) returns with the opposite sign as\n`S`. The macro `DGDT` of olivine.c 1034, used nowhere, is `S` and so has the wrong sign.'}))

if on('Spinel'):
    S={'xmg2tet':'(r[0] + s[0])/2.0','xfe2tet':'r[2] - 0.5*r[0] - 0.5*s[0] + s[1] + r[1] + s[2]','xal3tet':'1.0 - r[1] - r[2] - r[3] - s[1]','xfe3tet':'r[3] - s[2]','xmg2oct':'(r[0] - s[0])/4.0','xfe2oct':'(2.0 - r[0] + s[0] - 2.0*s[1] - 2.0*r[1] - 2.0*s[2])/4.0','xal3oct':'(1.0 - r[1] - r[2] - r[3] + s[1])/2.0','xfe3oct':'(r[3] + s[2])/2.0','xcr3oct':'r[1]','xti4oct':'r[2]/2.0'}
    emit('Spinel','Spinel.',Gen('Spinel','spinel.c',S,'spinel.c 2225-2257',{x:('0','1','1 - dblEps') for x in S},leaf=True,hdo='hdq',ddo='ddq',imp='Verif.Thermo.OrderLogs',start=1900))

for tag,k,nm,pos in (('HC',1,'Hercynite',['s[0]','1.0-s[0]','1.0+s[0]']),('MT',2,'Magnetite',['s[0]','1.0-s[0]','1.0+s[0]']),('SP',0,'Spinel',['1.0-s[0]','1.0+s[0]','3.0+s[0]'])):
    if on('Pure'+nm):
        emit('Pure'+nm,'The pure end member %s of spinel.c.'%nm.lower(),Pure('Pure'+nm,'spinel.c',tag,k,[('q%d'%i,parse_expr(e)) for i,e in enumerate(pos)],leaf=True,start=1900,flow=(1022,1158)))

if on('OrthoOxide'):
    S={'xfe2M1':'(r[0] + s[1])/2.0','xmg2M1':'(r[1] + s[2])/2.0','xti4M1':'(1.0 - s[0] - s[1] - s[2])/2.0','xfe3M1':'(1.0 - r[0] - r[1] + s[0])/2.0','xfe2M2':'(r[0] - s[1])/4.0','xmg2M2':'(r[1] - s[2])/4.0','xti4M2':'(1.0 + 2.0*r[0] + 2.0*r[1] + s[0] + s[1] + s[2])/4.0','xfe3M2':'(3.0-3.0*r[0]-3.0*r[1]-s[0])/4.0'}
    emit('OrthoOxide','Ortho-oxide (pseudobrookite).',Gen('OrthoOxide','ortho-oxide.c',S,'ortho-oxide.c 1507-1525',{x:('0',None,'eps') for x in S},leaf=True,hdo='hdq',ddo='ddq',imp='Verif.Thermo.OrderLogs',start=1328))

for tag,k,nm,pos in (('PB',0,'Pseudobrookite',['1.0+s[0]','1.0-s[0]','3.0-s[0]']),('FE',1,'Ferropseudobrookite',['1.0+s[0]','1.0-s[0]']),('MG',2,'Karrooite',['1.0+s[0]','1.0-s[0]'])):
    if on('Pure'+nm):
        emit('Pure'+nm,'The pure end member %s of ortho-oxide.c.'%nm.lower(),Pure('Pure'+nm,'ortho-oxide.c',tag,k,[('q%d'%i,parse_expr(e)) for i,e in enumerate(pos)],leaf=True,start=1328,flow=(705,771),hdo='hdl',ddo='ddq',imp='Verif.Thermo.OrderLogs',close='first | ring1 | (field_simp; ring1)'))

if on('Rhombohedral'):
    S={'xfe2A':'(r[0] + s[0])/2.0','xmg2A':'(r[1] + s[1])/2.0','xmn2A':'(r[2] + s[2])/2.0','xti4A':'(r[0] - s[0] + r[1] - s[1] + r[2] - s[2])/2.0','xfe3A':'1.0 - r[0] - r[1] - r[2]','xfe2B':'(r[0] - s[0])/2.0','xmg2B':'(r[1] - s[1])/2.0','xmn2B':'(r[2] - s[2])/2.0','xti4B':'(r[0] + s[0] + r[1] + s[1] + r[2] + s[2])/2.0','xfe3B':'1.0 - r[0] - r[1] - r[2]'}
    emit('Rhombohedral','Rhombohedral oxide (ilmenite-hematite).',Gen('Rhombohedral','rhombohedral.c',S,'rhombohedral.c 1801-1823',{x:('0',None,'eps') for x in S},leaf=True,hdo='hdq',ddo='ddq',imp='Verif.Thermo.OrderLogs',start=1575))

for tag,k,nm,pos in (('IL',0,'Ilmenite',['1.0+s[0]','1.0-s[0]']),('GK',1,'Geikielite',['1.0+s[0]','1.0-s[0]']),('PY',2,'Pyrophanite',['1.0+s[0]','1.0-s[0]'])):
    if on('Pure'+nm):
        emit('Pure'+nm,'The pure end member %s of rhombohedral.c.'%nm.lower(),Pure('Pure'+nm,'rhombohedral.c',tag,k,[('q%d'%i,parse_expr(e)) for i,e in enumerate(pos)],leaf=True,start=1575,flow=(768,884)))

if on('Melilite'):
    S={'xCaOct':'1.0-r[2]','xNaOct':'r[2]','xMg2T1':'1.0-r[0]-r[1]-r[2]','xFe2T1':'r[1]','xAl3T1':'r[0]-s[0]','xSi4T1':'r[2]+s[0]','xAl3T2':'(r[0]+s[0])/2.0','xSi4T2':'1.0 - (r[0]+s[0])/2.0'}
    emit('Melilite','Melilite.',Gen('Melilite','melilite.c',S,'melilite.c 1428-1453',{x:('0','1','1 - dblEps') for x in S},leaf=True,hdo='hdq',ddo='ddq',imp='Verif.Thermo.OrderLogs',start=1112))

for tag,k,nm,pos in (('GH',1,'Gehlenite',['s[0]','1.0-s[0]','1.0+s[0]']),):
    if on('Pure'+nm):
        emit('Pure'+nm,'The pure end member %s of melilite.c.'%nm.lower(),Pure('Pure'+nm,'melilite.c',tag,k,[('q%d'%i,parse_expr(e)) for i,e in enumerate(pos)],leaf=True,start=1112,flow=(680,774)))
