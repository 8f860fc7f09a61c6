#!/usr/bin/env python3
"""Transcribes the dictionaries of /repo/src/mathml_to_latex/syntax.py (read as text
with `ast`, never imported) into lean/Verif/Tables.lean, entry by entry."""
import ast, sys
SRC='/repo/src/mathml_to_latex/syntax.py'
src=open(SRC,encoding='utf8').read()
tabs={}; span={}
for n in ast.parse(src).body:
    tgt=None
    if isinstance(n,ast.AnnAssign): tgt=n.target.id; v=n.value
    elif isinstance(n,ast.Assign): tgt=n.targets[0].id; v=n.value
    if tgt and isinstance(v,ast.Dict):
        rows=[]
        for k,x in zip(v.keys,v.values):
            if isinstance(x,ast.Call):
                d={kw.arg:ast.literal_eval(kw.value) for kw in x.keywords}
                x_=(d['char'],d['accent']) if x.func.id=='AccentChar' else (d['letter'],d['font_cmd'])
            else: x_=ast.literal_eval(x)
            rows.append((ast.literal_eval(k),x_))
        tabs[tgt]=rows; span[tgt]=(n.lineno,n.end_lineno)
def q(s):
    o='c!"'
    for c in s:
        if c=='\\': o+='\\\\'
        elif c=='"': o+='\\"'
        elif ord(c)<32 or ord(c)==127 or (c!=' ' and (c.isspace() or not c.isprintable())) :
            assert ord(c)<0x10000; o+='\\u%04x'%ord(c)
        else: o+=c
    return o+'"'
def camel(s):
    a=s.split('_'); return a[0]+''.join(x.capitalize() for x in a[1:])
out=["""import Verif.Py

/-!
Generated by tools/gen_tables.py from /repo/src/mathml_to_latex/syntax.py.
One entry per Python dictionary entry, in source order.
-/

namespace Verif
"""]
for t,rows in tabs.items():
    pair=isinstance(rows[0][1],tuple)
    ty="List (Str × (Str × Str))" if pair else "List (Str × Str)"
    out.append("set_option maxRecDepth 100000 in")
    out.append(f"/-- syntax.py {span[t][0]}–{span[t][1]}, `{t}`"+(" (value: pair of constructor arguments)" if pair else "")+". -/")
    out.append(f"def {camel(t)} : {ty} := [")
    out.append(",\n".join(f"  ({q(k)}, "+(f"({q(v[0])}, {q(v[1])})" if pair else q(v))+")" for k,v in rows)+"]\n")
out.append("end Verif")
open('/verif/lean/Verif/Tables.lean','w',encoding='utf8').write("\n".join(out)+"\n")
print({t:len(r) for t,r in tabs.items()})
