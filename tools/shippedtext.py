#!/usr/bin/env python3
"""Writes lean/Verif/ShippedText.lean: the texts of the files of /repo/conf, and that they spell the trees of Shipped.lean."""
import os,sys
sys.path.insert(0,os.path.dirname(os.path.abspath(__file__)))
from shipped import ctl,camel
C='/repo/conf/'
def lit(l):
    return 'c!"%s"'%''.join({'"':'\\"','\\':'\\\\','\r':'\\r','\n':'\\n','\t':'\\t'}.get(ch,ch) for ch in l)
def cut(p):
    b=open(p,'rb').read().decode('ascii').split('\n')
    return [x+'\n' for x in b[:-1]]+([b[-1]] if b[-1] else [])
L={}
texts={}
out=[];files=[];facts=[];rows=[];steps=[]
for n,o,i,m,g,f,_,_ in ctl:
    names=[]; proofs=[]
    for fn,kind,tree in (('grammar.json','Words',f'wordFile {o} {i} {m}'),('gcode_groups.json','CodeGroups',f'groupFile {g}'),('mcode_groups.json','FunctionGroups',f'groupFile {f}')):
        ls=tuple(cut(C+n+'/'+fn))
        if ls not in texts:
            nm=camel(n)+kind
            texts[ls]=nm
            for l in ls: L.setdefault(l,'line%d'%len(L))
            w=[L[l] for l in ls]
            files.append(f'/-- The text of conf/{n}/{fn}. -/\ndef {nm} : Str := List.flatten\n  ['+',\n   '.join(', '.join(w[j:j+16]) for j in range(0,len(w),16))+']\n')
            facts.append(f'theorem {nm}_tree : readJson {nm} = some ({tree}) := spelt (by decide +kernel)\n')
        names.append(texts[ls]); proofs.append(texts[ls]+'_tree')
    rows.append(f'⟨c!"{n}", {", ".join(names)}⟩')
    steps.append('⟨rfl, '+', '.join(proofs)+'⟩')
head='''import Verif.JsonSame
import Verif.Shipped

/-!
# The texts of the shipped files (conf/*/grammar.json, gcode_groups.json, mcode_groups.json)

Written by tools/shippedtext.py.  Lines and files with the same contents are given once.  Each text is shown to be read as
the tree of the same file in `Shipped`.
-/

namespace NC.Shipped
open NC NC.Conf NC.JFile
'''
body=[head]+['/-- A line of the files. -/\ndef %s : Str := %s'%(v,lit(k)) for k,v in L.items()]+['']+files
body.append('''/-- The files of a control. -/
structure Texts where
  name : Str
  words : Str
  gcodes : Str
  mcodes : Str

/-- The directories of conf. -/
def texts : List Texts :=
  ['''+',\n   '.join(rows)+''']

set_option maxRecDepth 100000
''')
body+=facts
body.append('''/-- The texts of the shipped files spell their trees. -/
theorem texts_read : List.Forall₂ (fun (k : Control) (t : Texts) => k.name = t.name ∧ readJson t.words = some k.words ∧
    readJson t.gcodes = some k.gcodes ∧ readJson t.mcodes = some k.mcodes) controls texts :=
  '''+''.join(f'.cons {s}\n  (' for s in steps)+'.nil'+')'*len(steps)+'''

end NC.Shipped
''')
open('/verif/lean/Verif/ShippedText.lean','w').write('\n'.join(body))
print(len(L),len(texts))
