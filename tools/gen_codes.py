"""Generates lean/Verif/Data/Codes.lean: the texts of the tables as numbers (untrusted; each list is checked by the kernel)."""
import re, os
HERE=os.path.dirname(os.path.dirname(os.path.abspath(__file__)))+'/lean/Verif'
s=open(HERE+'/Data/Tables.lean').read()
def lst(name):
    m=re.search(r'def %s : List String := \[(.*?)\]\n'%name,s,re.S)
    return [x.replace('\\"','"') for x in re.findall(r'"((?:[^"\\]|\\.)*)"',m.group(1))]
def code(t):
    a=1
    for c in t: a=a*1114112+ord(c)
    return a
out='''import Verif.Proofs.TextCode
import Verif.Data.Tables

/-! Generated by tools/gen_codes.py; checked by the kernel. -/

namespace Verif

set_option maxRecDepth 100000

'''
for n,d,what in [('hallName','hallCodes','Hall symbols of the full table'),('hmFull','hmCodes','Hermann-Mauguin symbols of the full table'),
  ('numberAndChoice','numberCodes','number codes of the full table'),('defaultHallName','defaultHallCodes','Hall symbols of the default table'),
  ('defaultNumberAndChoice','defaultNumberCodes','number codes of the default table')]:
    l=lst(n)
    out+='/-- The %s as numbers. -/\ndef %s : List Nat := [\n  %s]\n\n'%(what,d,',\n  '.join(', '.join(str(code(t)) for t in l[i:i+4]) for i in range(0,len(l),4)))
    out+='theorem %s_eq : Data.%s.map textCode = %s := by decide +kernel\n\n'%(d,n,d)
out+='end Verif\n'
open(HERE+'/Data/Codes.lean','w').write(out)
