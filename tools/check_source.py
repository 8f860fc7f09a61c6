#!/usr/bin/env python3
"""Compare Verif/Source/Code.lean and Verif/Tables.lean with the files in /repo.

The other way round than gen_source.py: Lean prints the syntax trees and the tables as Python
text (tools/print_source.lean.txt), Python reads the text again, and the trees of each class,
method, function and table must be those of the files in /repo.  Before that, in both, what the
trees of Verif/Source/Syntax.lean do not have is left out or written in one way: annotations,
docstrings, abstract methods, `x += e`, and the grouping of `a or b or c`.
Nothing of /repo is imported or executed.
"""
import ast, glob, os, subprocess, sys, tempfile

HERE = os.path.dirname(os.path.abspath(__file__))
ROOT = "/repo/src/mathml_to_latex"


class Plain(ast.NodeTransformer):
    def visit_FunctionDef(self, n):
        self.generic_visit(n)
        n.returns = None
        for a in n.args.args: a.annotation = None
        n.decorator_list = [d for d in n.decorator_list if d.id != "abstractmethod"]
        n.body = [s for s in n.body if not (isinstance(s, ast.Expr) and isinstance(s.value, ast.Constant))]
        return n

    def visit_AugAssign(self, n):
        self.generic_visit(n)
        load = ast.parse(ast.unparse(n.target), mode="eval").body
        return ast.Assign([n.target], ast.BinOp(load, n.op, n.value))

    def visit_BoolOp(self, n):
        self.generic_visit(n)
        r = n.values[-1]
        for v in reversed(n.values[:-1]): r = ast.BoolOp(n.op, [v, r])
        return r


def parts(text):
    """Name -> dump, for the classes, methods, functions and tables of a module."""
    out = {}
    def put(k, v):
        if k in out: sys.exit(f"twice: {k}")
        out[k] = v
    for n in ast.parse(text).body:
        if isinstance(n, ast.ClassDef):
            n = Plain().visit(n)
            bases = [b.id for b in n.bases if b.id not in ("ABC", "Enum")]
            members = [m.targets[0].id for m in n.body if isinstance(m, ast.Assign)]
            put(n.name, (bases, members))
            for m in n.body:
                if isinstance(m, ast.FunctionDef):
                    put(f"{n.name}.{m.name}", ast.dump(m))
        elif isinstance(n, ast.FunctionDef):
            put(n.name, ast.dump(Plain().visit(n)))
        elif isinstance(n, (ast.Assign, ast.AnnAssign)):
            t = n.targets[0] if isinstance(n, ast.Assign) else n.target
            rows = []
            for k, v in zip(n.value.keys, n.value.values):
                if isinstance(v, ast.Call):
                    if v.args and v.keywords: sys.exit("mixed arguments")
                    fields = {"AccentChar": ["char", "accent"], "SpecialFontChar": ["letter", "font_cmd"]}[v.func.id]
                    if v.keywords and [a.arg for a in v.keywords] != fields: sys.exit("order of arguments")
                    v = (v.func.id, [a.value for a in v.args] or [a.value.value for a in v.keywords])
                else: v = v.value
                rows.append((k.value, v))
            put(t.id, rows)
        elif not isinstance(n, (ast.Import, ast.ImportFrom)):
            sys.exit(f"unexpected: {ast.dump(n)[:100]}")
    return out


src = {}
for f in sorted(glob.glob(ROOT + "/**/*.py", recursive=True)):
    for k, v in parts(open(f, encoding="utf-8").read()).items():
        if k in src: sys.exit(f"twice: {k}")
        src[k] = v
with tempfile.TemporaryDirectory() as d:
    p = os.path.join(d, "Print.lean")
    open(p, "w", encoding="utf-8").write(open(os.path.join(HERE, "print_source.lean.txt"), encoding="utf-8").read())
    text = subprocess.run(["lake", "env", "lean", "--run", p], cwd=os.path.join(HERE, "..", "lean"),
                          capture_output=True, text=True, check=True).stdout
lean = parts(text)
wrong = sorted(k for k in src.keys() | lean.keys() if src.get(k) != lean.get(k))
for k in wrong:
    print("differs:", k); print("  /repo:", str(src.get(k))[:400]); print("  Lean: ", str(lean.get(k))[:400])
print(f"{len(src)} classes, methods, functions and tables; {len(wrong)} differ")
sys.exit(bool(wrong))
