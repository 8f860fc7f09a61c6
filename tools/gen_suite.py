#!/usr/bin/env python3
"""Turns the repository's own test-suite (read as text) into #guard checks of the model.
XML is parsed here by the standard library; the sequence of texts the adapter would try is
computed with the standard `re` module, which makes this a test of Verif/Regex.lean too."""
import ast, re
from xml.dom.minidom import parseString, Node
from xml.parsers.expat import ExpatError
env={}
for n in ast.parse(open('/repo/tests/mathml.py',encoding='utf8').read()).body:
    if isinstance(n,ast.Assign):
        try: env[n.targets[0].id]=ast.literal_eval(n.value)
        except Exception as e: print('skip',n.targets[0].id,e)
T=ast.parse(open('/repo/tests/test_mathml_to_latex.py',encoding='utf8').read())
cases=[]
for c in T.body:
    if isinstance(c,ast.ClassDef):
        for f in c.body:
            if not isinstance(f,ast.FunctionDef) or not f.name.startswith('test'): continue
            exp=None; inp=None; err=False
            for n in ast.walk(f):
                if isinstance(n,ast.Assign) and getattr(n.targets[0],'id','')=='expected_latex': exp=ast.literal_eval(n.value)
                if isinstance(n,ast.Call) and isinstance(n.func,ast.Attribute) and n.func.attr=='convert' and n.args and isinstance(n.args[0],ast.Name): inp=n.args[0].id
                if isinstance(n,ast.Call) and isinstance(n.func,ast.Attribute) and n.func.attr=='assertRaises': err=True
            if f.name=='test_convert_input_expected_pairs':
                for pr in env['input_expected_pairs']:
                    op=pr['op']; cases.append((f.name, f'<math xmlns="http://www.w3.org/1998/Math/MathML"><{op}>{pr["input"]}</{op}></math>', pr['expected']))
            elif inp in env and (exp is not None or err): cases.append((f.name,env[inp],None if err else exp))
            else: print('unhandled',f.name,inp,exp,err)
def q(s):
    o='"'
    for c in s:
        if c=='\\': o+='\\\\'
        elif c=='"': o+='\\"'
        elif c=='\n': o+='\\n'
        elif ord(c)<32 or ord(c)==127 or (c!=' ' and (c.isspace() or not c.isprintable())):
            if ord(c)<0x10000: o+='\\u%04x'%ord(c)
            else: o+=c
        else: o+=c
    return o+'".toList'
def node(n):
    if n.nodeType==Node.ELEMENT_NODE:
        at='['+', '.join(f'({q(k)}, {q(v)})' for k,v in n.attributes.items())+']'
        return f'.elem {q(n.tagName)} {at} ['+', '.join(node(c) for c in n.childNodes)+']'
    if n.nodeType==Node.TEXT_NODE: return f'.text {q(n.data)}'
    if n.nodeType==Node.CDATA_SECTION_NODE: return f'.cdata {q(n.data)}'
    if n.nodeType==Node.COMMENT_NODE: return f'.comment {q(n.data)}'
    if n.nodeType==Node.PROCESSING_INSTRUCTION_NODE: return f'.pi {q(n.target)} {q(n.data)}'
    raise Exception(n.nodeType)
def fix(xml,e):
    if e.code==4:
        line=xml.split("\n")[e.lineno-1]; st=en=e.offset
        while st>0 and line[st-1]!=" ": st-=1
        while en<len(line) and line[en] not in " >": en+=1
        w=re.escape(line[st:en])
        r=re.sub(rf'({w}=(?!(["\'])))|({w}(?!(["\'])))','',xml)
        if r!=xml: return r
    return re.sub(r'(<.* )(\w+=(?!(["\'])))?(.*>)',r'\1\3',xml)
out=["""import Verif.Model.Api
import Verif.Lemmas.Xml
import Verif.Lemmas.MeansCheck

/-!
Generated by tools/gen_suite.py.  These are *tests* of the model against the expectations of
the repository's own test-suite, of the reader of XML in Lemmas/Xml.lean against `minidom`, and of the
reach of C59 and C60: their conditions hold of a document exactly if the expected LaTeX can be read.
They are not proofs.
-/

namespace Verif.Tests

/-- A parser given by finitely many answers. -/
def tabEnv (t : List (Str × Except ParseErr Doc)) : Env where
  parse s := match t.find? (fun p => p.1 == s) with
    | some p => p.2
    | none => .error (.other 99)
  isWord c := c.isAlphanum || c == '_'

mutual
def sameNode : Node → Node → Bool
  | .elem n as ms, .elem n' as' ms' => n == n' && as == as' && sameNodes ms ms'
  | .text d, .text d' => d == d'
  | .cdata d, .cdata d' => d == d'
  | .comment d, .comment d' => d == d'
  | .pi t d, .pi t' d' => t == t' && d == d'
  | _, _ => false

def sameNodes : List Node → List Node → Bool
  | [], [] => true
  | n :: ns, n' :: ns' => sameNode n n' && sameNodes ns ns'
  | _, _ => false
end

/-- The reader agrees with the recorded answers. -/
def checkRead (t : List (Str × Except ParseErr Doc)) : Bool :=
  t.all fun p => match p.2, Xml.read p.1 with
    | .ok d, some d' => sameNodes d d'
    | .ok _, none => false
    | .error _, _ => true

/-- The conditions of C59 and C60 hold of the document exactly if the expected text can be read, and
the items are those that are read. -/
def checkItems (t : List (Str × Except ParseErr Doc)) (e : Str) : Bool :=
  match (t.filterMap fun p => p.2.toOption).flatMap Spec.maths with
  | [n] =>
    (Verif.check 200 false Spec.fresh n).isSome == accepts e &&
    match meaning 200 false [] n, readAfter [] e with
    | some v, some w => eqItems v w
    | none, none => true
    | _, _ => false
  | _ => false

def check (input : Str) (t : List (Str × Except ParseErr Doc)) (expected : Option Str) : Bool :=
  checkRead t &&
  match convert (tabEnv t) input, expected with
  | .ok s, some e => s == e && checkItems t e
  | .error (.parserOther _), _ => false
  | .error _, none => true
  | _, _ => false
"""]
n=0; rep=0
for name,inp,exp in cases:
    xml=inp.replace('\r\n','').replace('\n','').replace('\r','').replace('mml:','')
    tab=[]
    for i in range(5):
        try:
            d=parseString(xml)
            tab.append((xml,'.ok ['+', '.join(node(c) for c in d.childNodes if c.nodeType!=Node.DOCUMENT_TYPE_NODE)+']')); break
        except ExpatError as e:
            rep+=1
            tab.append((xml,f'.error (.expat {e.code} {e.lineno} {e.offset})'))
            xml=fix(xml,e)
    seen=[]; 
    for x in tab:
        if x not in seen: seen.append(x)
    out.append(f"-- {name}\n#guard check {q(inp)}\n  ["+',\n   '.join(f'({q(a)},\n    {b})' for a,b in seen)+f"]\n  {'none' if exp is None else '(some '+q(exp)+')'}\n"); n+=1
out.append("end Verif.Tests")
open('/verif/lean/Verif/Tests/RepoSuite.lean','w',encoding='utf8').write("\n".join(out)+"\n")
print(n,'cases',rep,'repairs')
