from genmix import *
import sys
OUT='/verif/lean/Verif/Thermo/Minerals/'
os.makedirs(OUT,exist_ok=True)
from runmix_hdr import hdr,END,tail
P={
'Garnet':(lambda:Ph('Garnet','garnet.c',2,['xal','xgr']),['1 / 4','1 / 4']),
'Feldspar':(lambda:Ph('Feldspar','feldspar.c',2,['xab','xan']),['1 / 4','1 / 4']),
'Majorite':(lambda:Ph('Majorite','majorite.c',0,None,extra=['have a0 : r2 ≠ 0 := fun h => by simp [h] at n3']),['1 / 4','1 / 4','1 / 4']),
'Leucite':(lambda:Ph('Leucite','leucite.c',2,None,
   extra=['have a0 : r0 ≠ 0 := fun h => by simp [h] at n0','have a1 : 1 - r1 ≠ 0 := fun h => by simp [h] at n0',
          'have a2 : 1 - r0 ≠ 0 := fun h => by simp [h] at n1','have a4 : 3 - r1 * 2 ≠ 0 := fun h => n5 (by linarith)','have a3 : 3 - 2 * r1 ≠ 0 := fun h => n5 (by linarith)',
          "have l0 := Real.log_mul a0 a1","have l1 := Real.log_mul a2 a1",
          "have l2 : Real.log (2 * r0 * r1 / 3) = Real.log r0 + Real.log (2 * r1 / 3) := by\n    rw [← Real.log_mul a0 (by positivity)]; ring_nf",
          "have l3 : Real.log (2 * (1 - r0) * r1 / 3) = Real.log (1 - r0) + Real.log (2 * r1 / 3) := by\n    rw [← Real.log_mul a2 (by positivity)]; ring_nf",
          "have l4 : 1 - 2 * r1 / 3 = (3 - 2 * r1) / 3 := by ring"],
   logs=['l0','l1','l2','l3','l4']),['1 / 2','1 / 2']),
'Biotite':(lambda:Ph('Biotite','biotite.c',1,['xan']),['1 / 4']),
'Hornblende':(lambda:Ph('Hornblende','hornblende.c',0,None),['1 / 4','1 / 4']),
'OlivineSx':(lambda:Ph('OlivineSx','olivine-sx.c',1,['xmg']),['1 / 4']),
'Perovskite':(lambda:Ph('Perovskite','perovskite.c',1,['xmg']),['1 / 4']),
'Ringwoodite':(lambda:Ph('Ringwoodite','ringwoodite.c',1,['xmg']),['1 / 4']),
'Wadsleyite':(lambda:Ph('Wadsleyite','wadsleyite.c',1,['xmg']),['1 / 4']),
'Wustite':(lambda:Ph('Wustite','wustite.c',1,['xmg']),['1 / 4']),
'Ilmenite':(lambda:Ph('Ilmenite','ilmenite.c',1,['xmg']),['1 / 4']),
'AlloySolid':(lambda:Ph('AlloySolid','alloy-solid.c',0,['xni']),['1 / 4']),
'AlloyLiquid':(lambda:Ph('AlloyLiquid','alloy-liquid.c',0,['xni']),['1 / 4']),
}
def emit(mod,names,title):
    s=hdr(title)
    for n in names:
        p=P[n][0](); s+=p.lean()+'\n'+tail(p,P[n][1])
    open(OUT+mod+'.lean','w').write(s+END)
emit('Garnet',['Garnet'],'Garnet.')
emit('Feldspar',['Feldspar'],'Feldspar.')
emit('Majorite',['Majorite'],'Majorite.')
emit('Leucite',['Leucite','Hornblende'],'Leucite and hornblende.')
emit('Binary',['Biotite','OlivineSx','Perovskite','Ringwoodite','Wadsleyite','Wustite','Ilmenite','AlloySolid','AlloyLiquid'],'Two-component phases.')
import kal
