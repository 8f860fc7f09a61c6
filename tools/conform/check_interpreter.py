#!/usr/bin/env python3
"""Compare the interpreter of Verif/Source/Semantics.lean with CPython.

The programs are those of fixed.py, random ones of the same fragment (of statements and expressions
for strings, numbers, lists, dictionaries and objects), and random patterns for `re`.  None of them
comes from /repo, and nothing of /repo is executed.  They are turned into syntax trees by
tools/gen_source.py, in a copy of the Lean files in which Names.lean and Code.lean are made from
these programs, and executed there; then by CPython; the results must be the same.  Where the
interpreter gives no meaning (`stuck`) nothing is compared; these are counted.

usage: check_interpreter.py DIRECTORY [SEED [PROGRAMS [PATTERNS]]]      (a scratch directory)
"""
import ast, importlib.util, json, os, random, re, resource, shutil, subprocess, sys
from xml.dom import minidom, Node
from xml.parsers.expat import ExpatError

HERE = os.path.dirname(os.path.abspath(__file__))
LEAN = os.path.join(HERE, "..", "..", "lean")
TEXTS = ["", "a", "b", " ", "ab", "abc", "a b", " a  b ", "x,y,,z", ",", "r,a", "i,r,k,c,q", "c,s,a", "k", "xy", "axb xyx",
         "A-b c", " x ", "　", "é=\"1\"", "s.(t)*[u]", "a\nb", "Kſı", "aaaa bbb ccc", "\U0001d400x", "+^$|\\"]
XML = ["<math/>", "<math><mi>x</mi></math>", "<math a='1' b='b'> <mi>x</mi><!--c-->t<![CDATA[u]]><?p q?></math>",
       "<r><math><mn>1</mn><math><mo>+</mo></math></math><x/><math/></r>", "<!DOCTYPE math><!--z--><math>a&amp;b<mrow/>c</math>",
       "<math", "<math a></math>", "<math a=1/>", "", "<math></mrow>", "<a/><b/>", "<math>&foo;</math>", "x", "<math>\n <mi a=/></math>"]
PATTERNS = ['"a|b"', '"[a-c]"', '"x?"', '"(a)(b)?"']
REPLS = ['""', '"-"', '"z"']
ARGS = {"t_dom": XML, "t_dom_error": XML}


# Random programs ------------------------------------------------------------------------------

class Rand:
    def __init__(self, seed):
        self.r = random.Random(seed)

    def pick(self, xs): return self.r.choice(xs)
    def lit(self): return repr(self.pick(["", "a", "b", "ab", " ", "x y", ",", "-", "k"]))

    def expr(self, ty, env, d):
        """An expression of the type, over the variables env: name -> type."""
        r, E = self.r, lambda t: self.expr(t, env, d - 1)
        vs = [x for x, t in env.items() if t == ty]
        if vs and (d <= 0 or r.random() < 0.25): return self.pick(vs)
        if d <= 0:
            return {"S": self.lit, "I": lambda: str(r.randint(0, 4)), "B": lambda: self.pick(["True", "False"]),
                    "L": lambda: "[]", "D": lambda: "{}", "O": lambda: f"Base({self.lit()})"}[ty]()
        if ty == "S":
            return self.pick([
                lambda: self.lit(), lambda: f"({E('S')} + {E('S')})", lambda: f"{E('S')}.strip()", lambda: f"{E('S')}.join({E('L')})",
                lambda: f"{E('S')}[{E('I')}]", lambda: f"{E('L')}[{E('I')}]", lambda: f"{E('D')}[{E('S')}]",
                lambda: f"{E('D')}.get({E('S')}, {E('S')})", lambda: f"({E('S')} if {E('B')} else {E('S')})",
                lambda: f"({E('S')} or {E('S')})", lambda: f"({E('S')} and {E('S')})", lambda: "f\"<{" + self.noq(env, "S") + "}{" + self.noq(env, "I") + "}\"",
                lambda: f"{E('O')}.show()", lambda: f"{E('O')}.val", lambda: f"helper({E('S')}, last={E('S')})",
                lambda: f"helper(sep={E('S')}, s={E('S')})", lambda: f"Base.glue({E('S')}, {E('S')})", lambda: f"{E('S')}[{r.randint(0,2)}:{r.randint(0,5)}]",
                lambda: f"re.sub({self.pick(PATTERNS)}, {self.pick(REPLS)}, {E('S')})",
                lambda: f"{E('O')}.both({E('O')})", lambda: f"raiser({E('S')})" if r.random() < 0.3 else self.lit()])()
        if ty == "I":
            return self.pick([lambda: str(r.randint(-3, 5)), lambda: f"len({E('S')})", lambda: f"len({E('L')})",
                              lambda: f"({E('I')} + {E('I')})", lambda: f"({E('I')} - {E('I')})", lambda: f"({E('I')} if {E('B')} else {E('I')})"])()
        if ty == "B":
            return self.pick([lambda: self.pick(["True", "False"]), lambda: f"({E('S')} == {E('S')})", lambda: f"({E('S')} != {E('S')})",
                              lambda: f"({E('I')} {self.pick(['<', '<=', '>', '>=', '==', '!='])} {E('I')})", lambda: f"(not {E(self.pick('SIBLD'))})",
                              lambda: f"bool({E(self.pick('SIBLDO'))})", lambda: f"({E('S')} in {E('L')})", lambda: f"({E('S')} not in {E('D')})",
                              lambda: f"({E('B')} and {E('B')})", lambda: f"({E('B')} or {E('B')})",
                              lambda: f"any({self.inner(env, 'B', d)} for z in {E('L')})", lambda: f"(s is not None)"])()
        if ty == "L":
            return self.pick([lambda: f"{E('S')}.split()", lambda: f"{E('S')}.split(',')", lambda: f"[{E('S')}, {E('S')}]", lambda: "[]",
                              lambda: f"list({E('S')})", lambda: f"list({E('L')})", lambda: f"[{self.inner(env, 'S', d)} for z in {E('L')}]",
                              lambda: f"[{self.inner(env, 'S', d)} for z in {E('S')} if {self.inner(env, 'B', d)}]", lambda: f"({E('L')} or {E('L')})",
                              lambda: f"{E('O')}.log"])()
        if ty == "D":
            return self.pick([lambda: "{'a': %s, 'b': %s}" % (E('S'), E('S')), lambda: "{'a': %s, 'a': %s}" % (E('S'), E('S')), lambda: "{}"])()
        return self.pick([lambda: f"Base({E('S')})", lambda: f"Derived({E('S')})", lambda: f"Last(val={E('S')})", lambda: f"Base({E('S')}, sep={E('S')})"])()

    def inner(self, env, ty, d): return self.expr(ty, {**env, "z": "S"}, d - 1)

    def noq(self, env, ty):
        vs = [x for x, t in env.items() if t == ty]
        return self.pick(vs) if vs else ("1" if ty == "I" else "helper(s)")

    def block(self, env, d, loop, ind, frozen):
        """Statements; env is extended by what is surely assigned."""
        out, pad = [], "    " * ind
        for _ in range(self.r.randint(1, 4)):
            k = self.r.random()
            if k < 0.35 or d <= 0:
                ty = self.pick("SSSIBLLDO")
                x = self.pick({"S": ["a", "b"], "I": ["n", "m"], "B": ["p", "q"], "L": ["arr", "acc"], "D": ["d", "f"], "O": ["o", "w"]}[ty])
                out.append(f"{pad}{x} = {self.expr(ty, env, 3)}"); env[x] = ty
            elif k < 0.42:
                vs = [x for x in env if env[x] == "I"]
                if vs: x = self.pick(vs); out.append(f"{pad}{x} {self.pick(['+=', '-='])} {self.expr('I', env, 2)}")
            elif k < 0.5:
                vs = [x for x in env if env[x] == "L"]
                if vs and not frozen: out.append(f"{pad}{self.pick(vs)}.append({self.expr('S', env, 2)})")
            elif k < 0.57:
                vs = [x for x in env if env[x] == "D"]
                if vs: out.append(f"{pad}{self.pick(vs)}[{self.expr('S', env, 2)}] = {self.expr('S', env, 3)}")
            elif k < 0.62:
                vs = [x for x in env if env[x] == "O"]
                if vs: out.append(f"{pad}{self.pick(vs)}.{self.pick(['_val', '_sep', '_extra'])} = {self.expr('S', env, 2)}")
            elif k < 0.74:
                e1, e2 = dict(env), dict(env)
                out.append(f"{pad}if {self.expr('B', env, 3)}:"); out += self.block(e1, d - 1, loop, ind + 1, frozen)
                if self.r.random() < 0.6: out.append(f"{pad}else:"); out += self.block(e2, d - 1, loop, ind + 1, frozen)
                for x in e1:
                    if e2.get(x) == e1[x]: env[x] = e1[x]
            elif k < 0.84:
                x = self.pick(["y", "u"])
                it = self.pick([lambda: self.expr("S", env, 2), lambda: f"list({self.expr('L', env, 2)})", lambda: f"{self.expr('S', env, 2)}.split()"])()
                if self.r.random() < 0.4:
                    out.append(f"{pad}for i, {x} in enumerate({it}):"); e1 = {**env, "i": "I", x: "S"}
                else:
                    out.append(f"{pad}for {x} in {it}:"); e1 = {**env, x: "S"}
                out += self.block(e1, d - 1, True, ind + 1, frozen)
            elif k < 0.94:
                e1, e2 = dict(env), dict(env)
                out.append(f"{pad}try:"); out += self.block(e1, d - 1, loop, ind + 1, frozen)
                out.append(f"{pad}except Exception as e:"); out += self.block(e2, d - 1, loop, ind + 1, frozen)
                if self.r.random() < 0.15: out.append(f"{pad}    raise e")
                for x in e1:
                    if e2.get(x) == e1[x]: env[x] = e1[x]
            elif k < 0.955: out.append(f"{pad}raise Trouble({self.expr('S', env, 2)})"); break
            elif k < 0.975: out.append(f"{pad}return {self.result(env)}"); break
            elif loop: out.append(f"{pad}continue"); break
        return out or [f"{pad}pass"]

    def result(self, env):
        return "[" + ", ".join(x for x in env if env[x] != "O") + "".join(f", {x}.log, {x}._val" for x in env if env[x] == "O") + "]"

    def program(self, name):
        env = {"s": "S", "t": "S"}
        body = self.block(env, 3, False, 1, False) + self.block(env, 3, False, 1, False)
        return f"def {name}(s, t):\n" + "\n".join(body) + f"\n    return {self.result(env)}\n"

    # Patterns of the fragment that Verif/Source/Pattern.lean reads
    def pattern(self, d):
        r = self.r
        def cls(): return self.pick(["[a-c]", "[ab]", "[bx ]", "\\s", ".", "[=\\'\\\"]"])
        def one(d):
            k = r.random()
            if k < 0.35: return self.pick(["a", "b", "c", "x", " ", "=", "\\n", "\\.", "\\("])
            if k < 0.5: return cls()
            if k < 0.62: return cls() + self.pick("*+")
            if d <= 0: return "a"
            if k < 0.8: return f"({self.alts(d - 1)})"
            if k < 0.9: return f"({self.alts(d - 1)})?"
            if k < 0.95: return self.pick(["a?", "[ab]?"])
            return f"(?!{self.alts(d - 1)})"
        self.one = one
        return self.alts(d)

    def alts(self, d):
        return "|".join("".join(self.one(d) for _ in range(self.r.randint(1, 3))) for _ in range(self.pick([1, 1, 2, 3])))

    def subject(self):
        return "".join(self.pick("aaabbbccxx  =\n.'\"(") for _ in range(self.r.randint(0, 12)))


# What the two give, as JSON -----------------------------------------------------------------------

def shown(v):
    if v is None or isinstance(v, (bool, int)): return v
    if isinstance(v, str): return "s" + v
    if isinstance(v, (list, range)): return [shown(x) for x in v]
    if isinstance(v, dict): return {"dict": [[k, shown(x)] for k, x in v.items()]}
    raise TypeError(v)


def run(f, args):
    try: return {"value": shown(f(*args))}
    except ExpatError as e: return {"raised": ["ExpatError", e.code, e.lineno, e.offset]}
    except (IndexError, KeyError, UnboundLocalError) as e: return {"raised": [type(e).__name__]}
    except Exception as e:
        if type(e).__name__ == "Trouble": return {"raised": ["Trouble", "s" + e.args[0]]}
        raise


def lean_str(s): return "[" + ", ".join(f"Char.ofNat {ord(c)}" for c in s) + "]"


def lean_node(n):
    if n.nodeType == Node.ELEMENT_NODE:
        return f".elem {lean_str(n.tagName)} [{', '.join(f'({lean_str(a.name)}, {lean_str(a.value)})' for a in n.attributes.values())}] {lean_nodes(n.childNodes)}"
    if n.nodeType == Node.TEXT_NODE: return f".text {lean_str(n.data)}"
    if n.nodeType == Node.CDATA_SECTION_NODE: return f".cdata {lean_str(n.data)}"
    if n.nodeType == Node.COMMENT_NODE: return f".comment {lean_str(n.data)}"
    if n.nodeType == Node.PROCESSING_INSTRUCTION_NODE: return f".pi {lean_str(n.target)} {lean_str(n.data)}"
    sys.exit(n)


def lean_nodes(ns): return "[" + ", ".join(lean_node(n) for n in ns if n.nodeType != Node.DOCUMENT_TYPE_NODE) + "]"


def lean_parse(s):
    try: return f".ok {lean_nodes(minidom.parseString(s).childNodes)}"
    except ExpatError as e: return f".error (.expat {e.code} {e.lineno} {e.offset})"


MAIN = """
import Verif.Source.Semantics
open Verif Verif.Src

partial def esc (s : Str) : String := s.foldl (fun t c => t ++ (if c = '"' then "\\\\\\"" else if c = '\\\\' then "\\\\\\\\"
  else if c.toNat < 32 then "\\\\u00" ++ (if c.toNat < 16 then "0" else "1") ++ String.ofList (Nat.toDigits 16 (c.toNat &&& 15)) else c.toString)) ""

partial def shown (h : Store) : Val → String
  | .none => "null"
  | .bool b => if b then "true" else "false"
  | .int i => toString i
  | .str s => "\\"s" ++ esc s ++ "\\""
  | .seq vs => "[" ++ ", ".intercalate (vs.map (shown h)) ++ "]"
  | .obj a => match h[a]? with
    | some (.list vs) => "[" ++ ", ".intercalate (vs.map (shown h)) ++ "]"
    | some (.dict d) => "{\\"dict\\": [" ++ ", ".intercalate (d.map fun p => "[\\"" ++ esc p.1 ++ "\\", " ++ shown h p.2 ++ "]") ++ "]}"
    | _ => "\\"?\\""
  | _ => "\\"?\\""

def raised (h : Store) : Val → String
  | .exc .indexError => "[\\"IndexError\\"]"
  | .exc .keyError => "[\\"KeyError\\"]"
  | .exc (.expat c l o) => s!"[\\"ExpatError\\", {c}, {l}, {o}]"
  | .obj a => match h[a]? with
    | some (.inst .Trouble fs) => "[\\"Trouble\\", " ++ (((look .args fs).map (shown h)).getD "0") ++ "]"
    | _ => "\\"?\\""
  | _ => "\\"?\\""

def line : Res Val → String
  | .ok v h => "{\\"value\\": " ++ shown h v ++ "}"
  | .exc v h => "{\\"raised\\": " ++ raised h v ++ "}"
  | .stuck => "\\"stuck\\""

def parses : List (Str × Except ParseErr Doc) := [%s]

def env : Env := ⟨fun s => ((parses.find? fun p => p.1 == s).map (·.2)).getD (.error (.other 0)),
  fun c => c.isAlphanum || c == '_'⟩

def texts : List Str := [%s]
def text (i : Nat) : Val := .str (texts[i]?.getD [])
def tests : List (Func × List Nat) := [%s]

/-- A string, given by its code points. -/
def dec (s : String) : Str := (s.splitOn " ").filterMap fun n => n.toNat?.map Char.ofNat

def runPattern (p : Str × Str × Str) : String :=
  match compilePattern env.isWord false false p.1 with
  | none => "\\"stuck\\""
  | some q => match q.sub? p.2.1 p.2.2, q.search? p.2.2 with
    | some s, some b => "[\\"s" ++ esc s ++ "\\", " ++ (if b then "true" else "false") ++ ", " ++ (if q.matches p.2.2 then "true" else "false") ++ "]"
    | _, _ => "\\"stuck\\""

def main : IO Unit := do
  for (f, as) in tests do IO.println (line (call env 400 f (as.map text) [] []))
  for l in ← IO.FS.lines "patterns.txt" do
    match l.splitOn "," with
    | [p, r, s] => IO.println (runPattern (dec p, dec r, dec s))
    | _ => IO.println "?"
  -- over all characters: white space, `re.escape`, and `re.IGNORECASE` for ASCII letters
  let all := (List.range 0x110000).filter fun n => n < 0xd800 || 0xdfff < n
  IO.println (toString (all.filter fun n => isSpace (Char.ofNat n)))
  IO.println (toString (all.filter fun n => (reEscape [Char.ofNat n]).length == 2))
  let variants := (all.map fun n => (n, caseVariants (Char.ofNat n)))
  for a in List.range 128 do
    IO.println (toString ((variants.filter fun v => v.2.contains (Char.ofNat a)).map (·.1)))

#eval main
"""


def main():
    work = os.path.abspath(sys.argv[1]); seed = int((sys.argv + ["1"])[2]) if len(sys.argv) > 2 else 1
    count = int(sys.argv[3]) if len(sys.argv) > 3 else 300
    npat = int(sys.argv[4]) if len(sys.argv) > 4 else 2000
    R = Rand(seed)
    src = os.path.join(work, "src"); lean = os.path.join(work, "lean"); os.makedirs(src, exist_ok=True)
    fixed = open(os.path.join(HERE, "fixed.py"), encoding="utf-8").read()
    programs = [R.program(f"r_{k}") for k in range(count)]
    open(os.path.join(src, "programs.py"), "w", encoding="utf-8").write(fixed + "\n\n" + "\n\n".join(programs))
    for f in ["Py", "Regex", "Tables", "Model/Syntax", "Model/Xml", "Model/Elements", "Source/Syntax", "Source/Pattern", "Source/Semantics"]:
        dst = os.path.join(lean, "Verif", f + ".lean"); os.makedirs(os.path.dirname(dst), exist_ok=True)
        new = open(os.path.join(LEAN, "Verif", f + ".lean"), encoding="utf-8").read()
        if not os.path.exists(dst) or open(dst, encoding="utf-8").read() != new: open(dst, "w", encoding="utf-8").write(new)
    for f in ["lakefile.toml", "lake-manifest.json"]: shutil.copy(os.path.join(LEAN, f), lean)
    open(os.path.join(lean, "Verif.lean"), "w").write("import Verif.Source.Semantics\n")
    # the generator, for these programs
    gen = open(os.path.join(HERE, "..", "gen_source.py"), encoding="utf-8").read()
    gen = re.sub(r'^ROOT = .*$', lambda _: f'ROOT = {src!r}', gen, flags=re.M)
    gen = re.sub(r'^OUT = .*$', lambda _: f'OUT = {os.path.join(lean, "Verif", "Source")!r}', gen, flags=re.M)
    gen = re.sub(r'^FILES = \[.*?\]', 'FILES = ["programs.py"]', gen, flags=re.M | re.S)
    gen = gen.replace("functions.append(n.name)", "functions += [] if n.name[:2] in ('t_', 'r_') else [n.name]")   # never called by name
    open(os.path.join(work, "gen.py"), "w", encoding="utf-8").write(gen)
    if subprocess.run([sys.executable, os.path.join(work, "gen.py")]).returncode: sys.exit(1)
    # the tests
    spec = importlib.util.spec_from_file_location("programs", os.path.join(src, "programs.py"))
    mod = importlib.util.module_from_spec(spec); spec.loader.exec_module(mod)
    texts = sorted(set(TEXTS + XML)); cases = []
    for n in ast.parse(fixed).body:
        if isinstance(n, ast.FunctionDef) and n.name.startswith("t_"):
            for x in ARGS.get(n.name, TEXTS): cases.append((n.name, [x]))
    for k in range(count):
        for _ in range(4): cases.append((f"r_{k}", [R.pick(TEXTS), R.pick(TEXTS)]))
    patterns = []
    while len(patterns) < npat:
        p = R.pattern(2)
        try: c = re.compile(p)
        except re.error: continue
        repl = "".join(R.pick(["-", "\\%d" % g if c.groups else "+"]) for g in range(1, c.groups + 1)) or R.pick(["", "-"])
        patterns.append((p, repl, R.subject()))
    want = []
    limit = resource.getrlimit(resource.RLIMIT_AS)
    resource.setrlimit(resource.RLIMIT_AS, (1 << 30, limit[1]))      # random programs may make enormous strings: leave them out
    tried, cases = cases, []
    for f, a in tried:
        try: w = run(getattr(mod, f), a)
        except MemoryError: continue
        if len(str(w)) < 100000: cases.append((f, a)); want.append(w)
    resource.setrlimit(resource.RLIMIT_AS, limit)
    for p, repl, s in patterns: want.append(["s" + re.sub(p, repl, s), re.search(p, s) is not None, re.match(p, s) is not None])
    every = [n for n in range(0x110000) if not 0xd800 <= n <= 0xdfff]
    spaces = [n for n in every if chr(n).isspace()]
    if [n for n in every if not chr(n).strip()] != spaces or [n for n in every if re.match(r"\s", chr(n))] != spaces \
            or [n for n in every if not chr(n).split()] != spaces: sys.exit("white space")
    want += [spaces, [n for n in every if len(re.escape(chr(n))) == 2]]
    for a in range(128):
        c = re.compile("[" + re.escape(chr(a)) + "]", re.IGNORECASE)
        want.append([ord(x) for x in c.findall("".join(map(chr, every)))])
    text = MAIN % (",\n  ".join(f"({lean_str(x)}, {lean_parse(x)})" for x in XML), ",\n  ".join(map(lean_str, texts)),
                   ",\n  ".join(f"(fn_{f}, [{', '.join(str(texts.index(x)) for x in a)}])" for f, a in cases))
    with open(os.path.join(lean, "patterns.txt"), "w") as f:
        for t in patterns: f.write(",".join(" ".join(str(ord(c)) for c in x) for x in t) + "\n")
    open(os.path.join(lean, "Main.lean"), "w", encoding="utf-8").write(text)
    subprocess.run(["lake", "-q", "build"], cwd=lean, check=True, stdout=subprocess.DEVNULL)
    out = subprocess.run(["lake", "env", "lean", "-DmaxRecDepth=100000", "Main.lean"], cwd=lean, capture_output=True, text=True)
    lines = out.stdout.strip("\n").split("\n")
    if len(lines) != len(want): sys.exit(f"{len(lines)} lines for {len(want)} tests\n" + out.stdout[:3000] + out.stderr[:3000])
    stuck = differ = 0
    for k, (l, w) in enumerate(zip(lines, want)):
        name = (cases + patterns + ["all characters"] * 130)[k]
        got = json.loads(l)
        if got == "stuck":
            stuck += 1
            if k < len(cases) and name[0].startswith("t_"): print("stuck", name)
        elif got != w: differ += 1; print("DIFFERENT", name, "\n  Lean  ", json.dumps(got), "\n  Python", json.dumps(w))
    print(f"{len(want)} runs, {stuck} stuck, {differ} different")
    sys.exit(differ != 0)


main()
