"""Writes a Lean file that evaluates the conditions of C59 on the cases of RepoSuite:
   python3 tools/proper_suite.py > /tmp/p.lean; cd lean; lake env lean /tmp/p.lean"""
import re
s=open('lean/Verif/Tests/RepoSuite.lean').read()
i=s.index("-- test_")
out=["import Verif.Lemmas.ProperCheck","import Verif.Lemmas.Reads","import Verif.Model.Api","namespace Verif.T","open Verif.Spec",
"def chk (name : String) (t : List (Str × Except ParseErr Doc)) : IO Unit := do",
"  match t.getLast? with",
"  | some (_, .ok d) =>",
"    let ok := (maths d).all fun n => (check 30 false fresh n).isSome",
"    let acc := (maths d).all fun n => match latexIn false n with | .ok s => accepts s | _ => false",
"    IO.println s!\"{name} {ok} {acc}\"",
"  | _ => IO.println s!\"{name} error error\""]
for m in re.finditer(r'-- (test_\w+)\n#guard check (".*")\.toList\n((?:.*\n)*?)\n',s[i:]):
    name,inp,body=m.groups()
    # body : list, then (expected)
    k=body.rindex("\n  (some") if "\n  (some" in body else body.rindex("\n  none")
    lst=body[:k]
    out.append('#eval chk "%s" (%s)'%(name,lst.strip()))
out.append("end Verif.T")
print('\n'.join(out))
