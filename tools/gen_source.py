#!/usr/bin/env python3
"""Dump the syntax trees of /repo/src/mathml_to_latex as Lean data.

Reads the Python files as text with the standard `ast` module; nothing is imported
or executed.  Writes lean/Verif/Source/Names.lean (the identifiers that occur) and
lean/Verif/Source/Code.lean (classes, methods and functions).  Anything outside the
supported fragment stops the generator.  Type annotations, docstrings and imports are
dropped; the dictionaries of syntax.py are in Verif/Tables.lean.
"""
import ast, os, sys

ROOT = "/repo/src/mathml_to_latex"
OUT = os.path.join(os.path.dirname(os.path.abspath(__file__)), "..", "lean", "Verif", "Source")
FILES = ["syntax.py", "el_to_tex/services/normalizer.py", "el_to_tex/services/wrapper.py",
         "el_to_tex/protocols.py", "el_to_tex/usecases.py", "el_to_tex/adapter.py",
         "xml_to_mathml/services/error_handler.py",
         "xml_to_mathml/services/xml_elements_to_mathml_element.py",
         "xml_to_mathml/adapter.py", "xml_to_mathml/factory.py", "converter.py"]
TABLES = ["vowels_with_accents", "accent_to_ltx_cmd", "special_font_chars",
          "all_math_symbols_by_char", "all_math_symbols_by_glyph", "math_number_by_glyph",
          "all_math_operators_by_char", "all_math_operators_by_glyph"]
BUILTINS = ["len", "list", "any", "bool", "isinstance", "range", "parseString"]
MODULES = ["re"]
BASES = ["Exception", "ExpatError", "Node"]
KEYWORDS = {"match", "open", "end", "at", "in", "if", "then", "else", "do", "return", "where",
            "with", "let", "have", "show", "from", "by", "fun", "for", "prefix", "infix",
            "command", "matrix", "namespace", "section", "variable", "def", "class", "structure",
            "attribute", "name", "char"}
idents = set()


def bad(node, why=""):
    sys.exit(f"unsupported: {ast.dump(node)[:300]} line {getattr(node, 'lineno', '?')} {why}")


def i(name):
    idents.add(name)
    return "." + (f"«{name}»" if name in KEYWORDS else name)


def s(text):
    out = ""
    for ch in text:
        if ch == "\\": out += "\\\\"
        elif ch == '"': out += '\\"'
        elif ch == "\n": out += "\\n"
        elif ch == "\t": out += "\\t"
        elif ord(ch) < 32: bad(ast.Constant(text))
        else: out += ch
    return f'c!"{out}"'


def lst(xs):
    return "[" + ", ".join(xs) + "]"


CMP = {ast.Eq: "eq", ast.NotEq: "ne", ast.Lt: "lt", ast.LtE: "le", ast.Gt: "gt", ast.GtE: "ge",
       ast.In: "mem", ast.NotIn: "notMem", ast.IsNot: "isNot"}


class Gen:
    def __init__(self, base):
        self.base = base          # base class of the enclosing class, for super()

    def e(self, n):
        return "(" + self.e0(n) + ")"

    def e0(self, n):
        if isinstance(n, ast.Constant):
            v = n.value
            if v is None: return ".none"
            if v is True: return ".bool true"
            if v is False: return ".bool false"
            if isinstance(v, int): return f".int {v}"
            if isinstance(v, str): return f".str {s(v)}"
            bad(n)
        if isinstance(n, ast.Name): return f".name {i(n.id)}"
        if isinstance(n, ast.Attribute):
            if isinstance(n.value, ast.Call) and isinstance(n.value.func, ast.Name) \
                    and n.value.func.id == "super":
                if n.value.args or n.value.keywords or self.base is None: bad(n)
                return f".super {i(self.base)} {i(n.attr)}"
            return f".attr {self.e(n.value)} {i(n.attr)}"
        if isinstance(n, ast.Subscript):
            if isinstance(n.slice, ast.Slice):
                if n.slice.step or not n.slice.lower or not n.slice.upper: bad(n)
                return f".slice {self.e(n.value)} {self.e(n.slice.lower)} {self.e(n.slice.upper)}"
            return f".item {self.e(n.value)} {self.e(n.slice)}"
        if isinstance(n, ast.Call):
            if isinstance(n.func, ast.Name) and n.func.id == "any" and len(n.args) == 1 \
                    and isinstance(n.args[0], ast.GeneratorExp):
                g = n.args[0]
                x, it, conds = self.gen(g)
                if conds: bad(n)
                return f".anyGen {self.e(g.elt)} {x} {it}"
            if any(isinstance(a, ast.Starred) for a in n.args): bad(n)
            if any(k.arg is None for k in n.keywords): bad(n)
            return (f".call {self.e(n.func)} {lst([self.e0(a) for a in n.args])} "
                    f"{lst([i(k.arg) for k in n.keywords])} "
                    f"{lst([self.e0(k.value) for k in n.keywords])}")
        if isinstance(n, ast.JoinedStr):
            parts = []
            for p in n.values:
                if isinstance(p, ast.Constant): parts.append(f".str {s(p.value)}")
                elif isinstance(p, ast.FormattedValue) and p.conversion == -1 \
                        and p.format_spec is None: parts.append(self.e0(p.value))
                else: bad(n)
            return f".fstr {lst(parts)}"
        if isinstance(n, ast.List): return f".list {lst([self.e0(x) for x in n.elts])}"
        if isinstance(n, ast.Dict):
            ks = []
            for k in n.keys:
                if not (isinstance(k, ast.Constant) and isinstance(k.value, str)): bad(n)
                ks.append(s(k.value))
            return f".dict {lst(ks)} {lst([self.e0(v) for v in n.values])}"
        if isinstance(n, ast.ListComp):
            x, it, conds = self.gen(n)
            return f".comp {self.e(n.elt)} {x} {it} {lst(conds)}"
        if isinstance(n, ast.UnaryOp):
            if isinstance(n.op, ast.Not): return f".not {self.e(n.operand)}"
            if isinstance(n.op, ast.USub) and isinstance(n.operand, ast.Constant) \
                    and isinstance(n.operand.value, int): return f".int (-{n.operand.value})"
            bad(n)
        if isinstance(n, ast.BoolOp):
            op = "and" if isinstance(n.op, ast.And) else "or"
            r = self.e(n.values[-1])
            for v in reversed(n.values[:-1]): r = f"(.{op} {self.e(v)} {r})"
            return r[1:-1]
        if isinstance(n, ast.IfExp):
            return f".ite {self.e(n.test)} {self.e(n.body)} {self.e(n.orelse)}"
        if isinstance(n, ast.Compare):
            if len(n.ops) != 1: bad(n)
            return f".cmp .{CMP[type(n.ops[0])]} {self.e(n.left)} {self.e(n.comparators[0])}"
        if isinstance(n, ast.BinOp):
            if isinstance(n.op, ast.Add): return f".add {self.e(n.left)} {self.e(n.right)}"
            if isinstance(n.op, ast.Sub): return f".sub {self.e(n.left)} {self.e(n.right)}"
        bad(n)

    def gen(self, n):
        if len(n.generators) != 1: bad(n)
        g = n.generators[0]
        if g.is_async or not isinstance(g.target, ast.Name): bad(n)
        return i(g.target.id), self.e(g.iter), [self.e0(c) for c in g.ifs]

    def block(self, body, ind):
        items = []
        for st in body:
            if isinstance(st, ast.Expr) and isinstance(st.value, ast.Constant): continue
            items.append(self.st(st, ind + 1))
        pad = "\n" + " " * (ind + 1)
        return "[" + ("," + pad).join(items) + "]"

    def st(self, n, ind):
        if isinstance(n, ast.Assign):
            if len(n.targets) != 1: bad(n)
            t = n.targets[0]
            if isinstance(t, ast.Name): return f".assign {i(t.id)} {self.e(n.value)}"
            if isinstance(t, ast.Attribute):
                return f".setAttr {self.e(t.value)} {i(t.attr)} {self.e(n.value)}"
            if isinstance(t, ast.Subscript):
                return f".setItem {self.e(t.value)} {self.e(t.slice)} {self.e(n.value)}"
            bad(n)
        if isinstance(n, ast.AugAssign):
            op = {ast.Add: "add", ast.Sub: "sub"}[type(n.op)]
            t = n.target
            if isinstance(t, ast.Name):
                return f".assign {i(t.id)} (.{op} (.name {i(t.id)}) {self.e(n.value)})"
            if isinstance(t, ast.Attribute) and isinstance(t.value, ast.Name):
                v = f"(.name {i(t.value.id)})"
                return f".setAttr {v} {i(t.attr)} (.{op} (.attr {v} {i(t.attr)}) {self.e(n.value)})"
            bad(n)
        if isinstance(n, ast.Expr): return f".expr {self.e(n.value)}"
        if isinstance(n, ast.Return):
            if n.value is None: bad(n)
            return f".ret {self.e(n.value)}"
        if isinstance(n, ast.Raise):
            if n.exc is None or n.cause is not None: bad(n)
            return f".raise {self.e(n.exc)}"
        if isinstance(n, ast.If):
            return (f".ite {self.e(n.test)}\n" + " " * ind + self.block(n.body, ind) + "\n" +
                    " " * ind + self.block(n.orelse, ind))
        if isinstance(n, ast.While):
            if n.orelse: bad(n)
            return f".while {self.e(n.test)}\n" + " " * ind + self.block(n.body, ind)
        if isinstance(n, ast.For):
            if n.orelse: bad(n)
            if isinstance(n.target, ast.Name):
                return (f".for {i(n.target.id)} {self.e(n.iter)}\n" + " " * ind +
                        self.block(n.body, ind))
            t, it = n.target, n.iter
            if isinstance(t, ast.Tuple) and len(t.elts) == 2 and isinstance(it, ast.Call) \
                    and isinstance(it.func, ast.Name) and it.func.id == "enumerate" \
                    and len(it.args) == 1 and not it.keywords:
                return (f".forEnum {i(t.elts[0].id)} {i(t.elts[1].id)} {self.e(it.args[0])}\n" +
                        " " * ind + self.block(n.body, ind))
            bad(n)
        if isinstance(n, ast.Try):
            if n.orelse or n.finalbody or len(n.handlers) != 1: bad(n)
            h = n.handlers[0]
            if not (isinstance(h.type, ast.Name) and h.type.id == "Exception" and h.name): bad(n)
            return (f".tryExcept\n" + " " * ind + self.block(n.body, ind) + f"\n" + " " * ind +
                    f"{i(h.name)}\n" + " " * ind + self.block(h.body, ind))
        if isinstance(n, ast.Continue): return ".continue"
        if isinstance(n, ast.Pass): return ".pass"
        bad(n)

    def func(self, f):
        a = f.args
        if a.posonlyargs or a.vararg or a.kwonlyargs or a.kwarg: bad(f)
        k = len(a.args) - len(a.defaults)
        ps = []
        for j, p in enumerate(a.args):
            if j < k: d = "none"
            else:
                v = a.defaults[j - k]
                if not (isinstance(v, ast.Constant) and isinstance(v.value, str)): bad(f)
                d = f"some {s(v.value)}"
            ps.append(f"({i(p.arg)}, {d})")
        return f"⟨{lst(ps)},\n  {self.block(f.body, 2)}⟩"


defs, classes, functions = [], [], []
where = {}
for path in FILES:
    tree = ast.parse(open(os.path.join(ROOT, path), encoding="utf-8").read())
    for n in tree.body:
        if isinstance(n, ast.ImportFrom):
            for al in n.names:
                if al.asname and (al.name, al.asname) != ("Element", "DOMElement"): bad(n)
            continue
        if isinstance(n, ast.Import):
            if [(al.name, al.asname) for al in n.names] != [("re", None)]: bad(n)
            continue
        if isinstance(n, (ast.Assign, ast.AnnAssign)):
            t = n.target if isinstance(n, ast.AnnAssign) else n.targets[0]
            if t.id not in TABLES or not isinstance(n.value, ast.Dict): bad(n)
            continue
        if isinstance(n, ast.FunctionDef):
            assert n.name not in where; where[n.name] = path
            defs.append((f"{path} {n.lineno}–{n.end_lineno} `{n.name}`", f"fn_{n.name}", Gen(None).func(n)))
            functions.append(n.name)
            continue
        if not isinstance(n, ast.ClassDef): bad(n)
        assert n.name not in where; where[n.name] = path
        if len(n.bases) > 1 or n.keywords: bad(n)
        base = n.bases[0].id if n.bases else None
        deco = [d.id for d in n.decorator_list]
        if deco not in ([], ["dataclass"]): bad(n)
        b = None if base in (None, "ABC", "Enum") else base
        methods, members = [], []
        for m in n.body:
            if isinstance(m, ast.Expr) and isinstance(m.value, ast.Constant): continue
            if isinstance(m, ast.AnnAssign) and deco and m.value is None:
                idents.add(m.target.id); continue
            if isinstance(m, ast.Assign) and base == "Enum":
                members.append(i(m.targets[0].id)); continue
            if not isinstance(m, ast.FunctionDef): bad(m)
            ds = [d.id for d in m.decorator_list]
            kind = {(): "plain", ("staticmethod",): "static", ("property",): "prop",
                    ("abstractmethod",): "plain", ("property", "abstractmethod"): "prop"}[tuple(ds)]
            nm = f"{n.name}.{m.name}"
            defs.append((f"{path} {m.lineno}–{m.end_lineno} `{n.name}.{m.name}`",
                         f"{n.name}_{m.name}", Gen(b).func(m)))
            methods.append(f"({i(m.name)}, .{kind}, {n.name}_{m.name})")
        classes.append((n.name, b, methods, members))
        idents.update([n.name] + ([b] if b else []))
for x in TABLES + BUILTINS + MODULES + BASES: idents.add(x)

# The semantics has one table of global names for all modules, and takes a name that is not
# a local variable (yet) for a global one.  Check that every function sees the names it uses
# in its own module, and that no local variable has the name of a global one.
GLOBAL = set(where) | set(TABLES) | set(BUILTINS) | set(MODULES) | set(BASES)
for path in FILES:
    tree = ast.parse(open(os.path.join(ROOT, path), encoding="utf-8").read())
    for n in ast.walk(tree):          # annotations are not evaluated by the semantics
        if isinstance(n, ast.FunctionDef):
            n.returns = None
            for a in n.args.args: a.annotation = None
    visible = set(BUILTINS) - {"parseString"} | {"Exception", "super", "enumerate"}
    for n in tree.body:
        if isinstance(n, (ast.Import, ast.ImportFrom)):
            for al in n.names: visible.add(al.asname or al.name)
        elif isinstance(n, (ast.ClassDef, ast.FunctionDef)): visible.add(n.name)
        elif isinstance(n, (ast.Assign, ast.AnnAssign)):
            visible.add((n.target if isinstance(n, ast.AnnAssign) else n.targets[0]).id)
    for f in ast.walk(tree):
        if not isinstance(f, ast.FunctionDef): continue
        local = {a.arg for a in f.args.args}
        local |= {n.id for n in ast.walk(f) if isinstance(n, ast.Name) and isinstance(n.ctx, ast.Store)}
        local |= {n.name for n in ast.walk(f) if isinstance(n, ast.ExceptHandler)}
        if local & GLOBAL: bad(f, f"local and global: {local & GLOBAL}")
        for st in f.body:
            for n in ast.walk(st):
                if isinstance(n, ast.Name) and isinstance(n.ctx, ast.Load) \
                        and n.id not in local and n.id not in visible: bad(n, path)
# attributes and methods of library objects that the semantics mentions
for x in ("split strip join get values append sub compile search match escape MULTILINE IGNORECASE "
          "getElementsByTagName tagName attributes firstChild childNodes nodeType nodeValue nodeName "
          "ELEMENT_NODE code lineno offset name value args char accent letter font_cmd").split():
    idents.add(x)
i("AccentChar"); i("SpecialFontChar")

q = lambda x: f"«{x}»" if x in KEYWORDS else x
os.makedirs(OUT, exist_ok=True)
with open(os.path.join(OUT, "Names.lean"), "w", encoding="utf-8") as f:
    f.write("/-! # Identifiers of the source\n\nGenerated by tools/gen_source.py. -/\n\n"
            "namespace Verif.Src\n\n/-- The identifiers that occur in /repo/src/mathml_to_latex. -/\n"
            "inductive Ident where\n")
    line = " "
    for x in sorted(idents):
        t = f" | {q(x)}"
        if len(line) + len(t) > 98: f.write(line + "\n"); line = " "
        line += t
    f.write(line + "\nderiving DecidableEq\n\nend Verif.Src\n")
with open(os.path.join(OUT, "Code.lean"), "w", encoding="utf-8") as f:
    f.write("import Verif.Source.Syntax\n\n/-! # The source, as syntax trees\n\n"
            "Generated by tools/gen_source.py from /repo/src/mathml_to_latex. -/\n\n"
            "namespace Verif.Src\n")
    for doc, name, body in defs:
        f.write(f"\n/-- {doc} -/\ndef {name} : Func :=\n  {body}\n")
    f.write("\n/-- The classes. -/\ndef classes : List (Ident × Class) := [\n")
    f.write(",\n".join(f"  ({i(c)}, ⟨{'none' if b is None else 'some ' + i(b)},\n    "
                       f"[{(',' + chr(10) + '     ').join(ms)}],\n    {lst(mem)}⟩)"
                       for c, b, ms, mem in classes))
    f.write("]\n\n/-- The functions of the modules. -/\ndef functions : List (Ident × Func) := [\n  ")
    f.write(",\n  ".join(f"({i(x)}, fn_{x})" for x in functions))
    f.write("]\n\nend Verif.Src\n")
