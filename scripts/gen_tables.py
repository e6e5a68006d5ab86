#!/usr/bin/env python3
"""Translate the Go directive tables of /repo into Lean, textually."""
import re,sys,os
R='/repo'
consts=[]
src=open(R+'/analyze.go').read()
# bit constants
out=["""/-!
# analyze.go:59-109: the bitmask constants

Generated from /repo/analyze.go by scripts/gen_tables.py (text translation).
-/
namespace Verif

"""]
i=src.index('const (\n\tngxConfNoArgs'); j=src.index('// map for getting bitmasks')
names=[]
txt=src[i:j]
txt=re.sub(r'//.*','',txt)
txt=re.sub(r'\|\s*\n','| ',txt)
for line in txt.split('\n'):
    m=re.match(r'\s*(?:const\s+)?(ngx\w+)\s*=\s*(.+?)\s*$',line)
    if m:
        n,e=m.groups()
        e=re.sub(r'\s*\|\s*',' ||| ',e)
        e=re.sub(r'0x0*([0-9a-fA-F]+)',lambda m:'0x'+m.group(1),e)
        names.append(n)
        out.append(f"/-- analyze.go `{n}` -/\ndef {n} : Nat := {e}\n")
out.append("""
/-- The `|` of the listed constants: one bitmask of a table entry. -/
def bits (ms : List Nat) : Nat := ms.foldl (· ||| ·) 0

end Verif
""")
D=sys.argv[1]
open(D+'/Bits.lean','w').write("\n".join(out))
tables=[]
for fn in sorted(os.listdir(R)):
    m=re.match(r'analyze_(\w+?)_directives(\.gen)?\.go$',fn)
    if not m: continue
    s=open(R+'/'+fn).read()
    s2=re.sub(r'//.*','',s)
    m2=re.search(r'var (\w+) = map\[string\]\[\]uint\{(.*?)\n\}',s2,re.S)
    var=m2.group(1); body=m2.group(2)
    fns=re.search(r'func (\w+)\(directive string\) \(\[\]uint, bool\) \{\s*(\w+), (\w+) := (\w+)\[directive\]\s*return \2, \3',s)
    assert fns and fns.group(4)==var,(fn)
    ents=re.findall(r'"([^"]+)":\s*\{(.*?)\}',body,re.S)
    assert body.count('":')==len(ents),(fn,body.count('":'),len(ents))
    L=[]
    for n,ms in ents:
        masks=[x.strip() for x in ms.split(',') if x.strip()]
        mm=[]
        for x in masks:
            bs=[y.strip() for y in x.split('|')]
            assert all(b in names for b in bs),(fn,n,bs)
            mm.append('bits ['+', '.join(bs)+']')
        L.append(f'  ("{n}", [{", ".join(mm)}])')
    mod=var[0].upper()+var[1:]
    startline=s[:s.index('var '+var)].count('\n')+1
    # chunk to keep elaboration fast
    K=100
    chunks=[L[k:k+K] for k in range(0,len(L),K)] or [[]]
    o=[f"import Verif.Model.Tables.Bits\n/-!\n# {fn}: `{var}`, `{fns.group(1)}`\n\nGenerated from /repo/{fn}:{startline} by scripts/gen_tables.py (text translation, same order).\n-/\nnamespace Verif\n"]
    for k,c in enumerate(chunks):
        o.append(f"/-- {fn} `{var}`, entries {k*K+1}-{k*K+len(c)}. -/\ndef {var}_{k} : List (String × List Nat) := [\n"+",\n".join(c)+"]\n")
    o.append(f"/-- {fn}:{startline} `{var}`. -/\ndef {var} : List (String × List Nat) :=\n  "+" ++ ".join(f"{var}_{k}" for k in range(len(chunks)))+"\n\nend Verif\n")
    open(D+f'/{mod}.lean','w').write("\n".join(o))
    tables.append((mod,var,fns.group(1),fn,len(ents)))
for t in tables: print(t)
