#!/usr/bin/env python3
"""Writes lean/Verif/Shipped.lean: the files of /repo/conf as trees."""
import json,glob
C='/repo/conf/'
def pairs(p):
    return dict(json.loads(open(p,encoding='utf-8-sig').read(),object_pairs_hook=lambda x:x))
def s(t): return 'c!"%s"'%t
out=['''import Verif.Settings

/-!
# The shipped controls (conf/*/grammar.json, gcode_groups.json, mcode_groups.json, desc/*code_desc_en.json)

Written by tools/shipped.py.  Files with the same contents are given once.
-/

namespace NC.Shipped
open NC NC.Conf

/-- A leaf of a tree. -/
def leaf (t : Str) : PTree := .node t []

/-- A row of a word table: the key, the word, the ranges, whether it is unique, and its type. -/
structure Row where
  key : Str
  word : Str
  rangeFrom : Str
  rangeTo : Str
  decFrom : Str
  decTo : Str
  unique : Str
  type : Str

/-- The tree of a row. -/
def Row.tree (r : Row) : Str × PTree :=
  (r.key, .node [] [(c!"word", leaf r.word), (c!"range_from", leaf r.rangeFrom), (c!"range_to", leaf r.rangeTo),
    (c!"decimal_from", leaf r.decFrom), (c!"decimal_to", leaf r.decTo), (c!"unique", leaf r.unique), (c!"type", leaf r.type)])

/-- The tree of a word table. -/
def wordFile (ops : List Str) (imperial metric : List Row) : PTree :=
  .node [] [(c!"version", leaf c!"1.0"), (c!"operations", .node [] (ops.map (fun o => ([], leaf o)))),
    (c!"imperial", .node [] (imperial.map Row.tree)), (c!"metric", .node [] (metric.map Row.tree))]

/-- The tree of a file of code groups. -/
def groupFile (gs : List (Str × List (Str × Str))) : PTree :=
  .node [] [(c!"version", leaf c!"1.0"), (c!"groups", .node [] (gs.map (fun g =>
    (g.1, .node [] (g.2.map (fun e => ([], .node [] [(c!"code", leaf e.1), (c!"rest", leaf e.2)])))))))]
''']
names=sorted(p.split('/')[-2] for p in glob.glob(C+'*/grammar.json'))
seen={}
def camel(n): 
    a=n.split('_'); return a[0]+''.join(x.capitalize() for x in a[1:])
def txt(v):
    if v is True: return 'true'
    if v is False: return 'false'
    return str(v)
opsSeen={}
ref={}
def rows(name,doc,t):
    lines=[]
    for k,e in t:
        assert [a for a,_ in e]==['word','range_from','range_to','decimal_from','decimal_to','unique','type'],(name,k,e)
        lines.append('⟨'+', '.join([s(k)]+[s(txt(v)) for _,v in e])+'⟩')
    return f'/-- {doc} -/\ndef {name} : List Row :=\n  ['+',\n   '.join(lines)+']\n'
def emit(kind,n,val,mk):
    key=(kind,json.dumps(val))
    if key not in seen:
        nm=camel(n)+kind
        seen[key]=nm
        out.append(mk(nm))
    return seen[key]
ctl=[]
for n in names:
    d=pairs(C+n+'/grammar.json'); assert list(d)==['version','operations','imperial','metric'] and d['version']=='1.0'
    o=emit('Operations',n,d['operations'],lambda nm: f'/-- `operations` (conf/{n}/grammar.json). -/\ndef {nm} : List Str :=\n  ['+', '.join(map(s,d['operations']))+']\n')
    m=emit('Metric',n,d['metric'],lambda nm: rows(nm,f'`metric` (conf/{n}/grammar.json).',d['metric']))
    i=emit('Imperial',n,d['imperial'],lambda nm: rows(nm,f'`imperial` (conf/{n}/grammar.json).',d['imperial']))
    def groups(kind,f):
        g=pairs(C+n+'/'+f); assert list(g)==['version','groups'] and g['version']=='1.0'
        def mk(nm):
            ls=[]
            for k,es in g['groups']:
                for e in es: assert [a for a,_ in e]==['code','rest']
                ls.append('('+s(k)+', ['+', '.join('('+', '.join(s(str(v)) for _,v in e)+')' for e in es)+'])')
            return f'/-- The groups of conf/{n}/{f}. -/\ndef {nm} : List (Str × List (Str × Str)) :=\n  ['+',\n   '.join(ls)+']\n'
        return emit(kind,n,g['groups'],mk)
    gg=groups('Codes','gcode_groups.json'); mg=groups('Functions','mcode_groups.json')
    def keys(kind,f):
        ks=[k for k,v in pairs(C+n+'/desc/'+f)['descriptions'] if len(v)==1 or 1/0]
        ls=[', '.join(map(s,ks[j:j+16])) for j in range(0,len(ks),16)]
        return emit(kind,n,ks,lambda nm: f'/-- The codes described in conf/{n}/desc/{f}. -/\ndef {nm} : List Str :=\n  ['+',\n   '.join(ls)+']\n')
    gd=keys('CodeKeys','gcode_desc_en.json'); md=keys('FunctionKeys','mcode_desc_en.json')
    ctl.append((n,o,i,m,gg,mg,gd,md))
out.append('''/-- What is shipped for a control. -/
structure Control where
  name : Str
  words : PTree
  gcodes : PTree
  mcodes : PTree
  gdesc : List Str
  mdesc : List Str

/-- The directories of conf. -/
def controls : List Control :=
  ['''+',\n   '.join(f'⟨{s(n)}, wordFile {o} {i} {m}, groupFile {g}, groupFile {f}, {gd}, {md}⟩' for n,o,i,m,g,f,gd,md in ctl)+''']

end NC.Shipped
''')
open('/verif/lean/Verif/Shipped.lean','w').write('\n'.join(out))
