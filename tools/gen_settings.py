"""Generates lean/Verif/Rows/Settings*.lean: for every code of the full table that names a setting derived from another one,
the literal data the kernel checks. Run: python3 /verif/tools/gen_settings.py"""
import re, os
HERE = os.path.dirname(os.path.dirname(os.path.abspath(__file__))) + '/lean/Verif'
src=open(HERE + '/Data/Tables.lean').read()
def tab(name):
    m=re.search(r'def '+name+r' : List String := \[(.*?)\n\]',src,re.S)
    return [eval('"'+x+'"') for x in re.findall(r'"((?:[^"\\]|\\.)*)"',m.group(1))]
NUM=tab('numberAndChoice');HALL=tab('hallName')
spec=open(HERE + '/Spec/Setting.lean').read().split('def settings')[1].split('/-- The names')[0]
SET=re.findall(r'\("([^"]+)", "([^"]*)", ⟨',spec)
BASE=["", "b", "b1", "1", "2", "H"]
names=[s for s,_ in SET]
rows=[]
for i,(c,h) in enumerate(zip(NUM,HALL)):
    num,_,s=c.partition(':')
    if s in BASE: continue
    k=names.index(s); b=SET[k][1]
    base=num+(':'+b if b else '')
    j=NUM.index(base)
    rows.append('⟨%d, %d, %d, %s, %s⟩'%(i,j,k,'"'+h.replace('"','\\"')+'"','"'+HALL[j].replace('"','\\"')+'"'))
CH=3
size=(len(rows)+CH-1)//CH
for c in range(CH):
    part=rows[c*size:(c+1)*size]
    open(HERE+'/Rows/Settings%d.lean'%(c+1),'w').write('''import Verif.Proofs.SettingCheck

/-! Generated by tools/gen_settings.py; checked by the kernel. -/

namespace Verif

/-- Rows of the full table in a derived setting. -/
def settingRows%d : List SettingRow := [
  %s]

theorem settingRows%d_ok : settingRows%d.all SettingRow.check = true := by decide +kernel

end Verif
'''%(c+1,',\n  '.join(part),c+1,c+1))
rows=[]
spec=open(HERE + '/Spec/Setting.lean').read().split('def originOne')[1]
shifts={int(a):q for a,q in re.findall(r'\((\d+), (⟨[^⟩]*⟩)\)',spec)}
for i,c in enumerate(NUM):
    num,_,s=c.partition(':')
    if s!='1': continue
    j=NUM.index(num+':2')
    q=shifts[int(num)]
    rows.append('⟨%d, %d, %s, %s, %s⟩'%(i,j,'"'+HALL[i].replace('"','\\"')+'"','"'+HALL[j].replace('"','\\"')+'"',q))
CUTS=[0,12,18,21,24]
for c in range(4):
    part=rows[CUTS[c]:CUTS[c+1]]
    open(HERE+'/Rows/Origins%d.lean'%(c+1),'w').write('''import Verif.Proofs.SettingCheck

/-! Generated by tools/gen_settings.py; checked by the kernel. -/

namespace Verif

/-- Rows of the full table with two origin choices. -/
def originRows%d : List OriginRow := [
  %s]

theorem originRows%d_ok : originRows%d.all OriginRow.check = true := by decide +kernel

end Verif
'''%(c+1,',\n  '.join(part),c+1,c+1))
print(len(rows))
