#!/usr/bin/env python3
"""Translate the generator configurations of /repo into Lean, textually."""
import json,os,re,sys
R='/repo/scripts/generate/configs'
def s(x):
    assert re.fullmatch(r'\w+',x),x
    return 'c!"'+x+'"'
out=["""import Verif.Model.Gen
import Verif.Model.Tables.All
/-!
# scripts/generate/configs/*.json

Generated by scripts/gen_configs.py (text translation, same order).
-/
namespace Verif

/-- A configuration (generator.go:34-62 `GenerateConfig`) with the table that is committed under its `directiveMapName`.  The comment is left out. -/
structure TableConfig where
  path : String
  table : DirTable
  filter : List Str := []
  override : MaskMap := []
"""]
names=[]
for fn in sorted(os.listdir(R)):
    c=json.load(open(R+'/'+fn))
    assert set(c)<={'directiveMapName','matchFuncName','matchFuncComment','filter','override'},fn
    v='config_'+fn[:-len('_config.json')]
    names.append(v)
    f=c.get('filter') or []; o=c.get('override') or {}
    out.append(f'/-- scripts/generate/configs/{fn}. -/\ndef {v} : TableConfig where\n  path := "{fn}"\n  table := {c["directiveMapName"]}')
    if f: out[-1]+='\n  filter := ['+', '.join(map(s,f))+']'
    if o: out[-1]+='\n  override := [\n    '+',\n    '.join(f'({s(k)}, [{", ".join("["+", ".join(map(s,m))+"]" for m in ms)}])' for k,ms in o.items())+']'
    out[-1]+='\n'
out.append('/-- All configurations. -/\ndef tableConfigs : List TableConfig := [\n  '+', '.join(names)+']\n')
out.append("end Verif\n")
open(sys.argv[1],'w').write('\n'.join(out))
