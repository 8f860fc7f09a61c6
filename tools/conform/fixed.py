# Programs for check_interpreter.py, in the fragment of Verif/Source/Syntax.lean.  Nothing here comes
# from /repo.  Each function `t_…` is a test.
import re
from enum import Enum
from xml.dom.minidom import parseString, Node
from xml.parsers.expat import ExpatError


class Colour(Enum):
    RED = 1
    GREEN = 2


class Plain:
    def twice(self, val):
        return val + val


class Base:
    def __init__(self, val, sep="-"):
        self._val = val
        self._sep = sep
        self._log = []

    @property
    def val(self):
        self._log.append("val")
        return self._val

    @property
    def log(self):
        return self._log

    @staticmethod
    def glue(a, b):
        return a + "|" + b

    def show(self):
        return self.name() + self._sep + self.val

    def name(self):
        return "Base"

    def both(self, other):
        self._log.append("both")
        return self.show() + other.show()


class Derived(Base):
    def __init__(self, val):
        super().__init__(val, sep="+")
        self._extra = val + "!"

    def name(self):
        return "Derived" + super().name()

    def extra(self):
        return self._extra


class Last(Derived):
    def extra(self):
        return super().extra() + "?"

    @property
    def val(self):
        return "last" + self._val


class Trouble(Exception):
    def __init__(self, what, how="badly"):
        super().__init__(f"{what} went {how}")
        self.name = "Trouble"


class Counter:
    def __init__(self):
        self.num = 0

    def next(self):
        self.num += 1
        return self.num

    def note(self, log, val):
        log.append(val)
        return val


class MathMLToLaTeX:
    @staticmethod
    def convert(mathml):
        return mathml


def helper(s, sep=",", last="."):
    return s + sep + last


def raiser(s):
    raise Trouble(s)


def depth(s, n):
    if n <= 0:
        return s
    return depth(s + "x", n - 1) + "y"


def t_class(s):
    a = Base(s)
    b = Derived(s)
    c = Last(val=s)
    return [a.show(), b.show(), c.show(), b.extra(), c.extra(), c.both(a), a.log, b.log, c.log, Base.glue(s, "z"),
            c.glue("q", s), Plain().twice(s)]


def t_shadow(s):
    a = Base(s)
    a.name = "own"
    a.extra = s
    return [a.name, a.extra]


def t_method_value(s):
    a = Derived(s)
    f = a.extra
    g = Base.glue
    h = s.strip
    a._extra = "changed"
    return [f(), g("1", "2"), h()]


def t_share(s):
    a = [s]
    b = a
    b.append("more")
    d = {"k": a}
    e = d
    e["l"] = b
    return [a, d, e, list(a)]


def t_copy(s):
    a = [s]
    b = list(a)
    b.append("x")
    return [a, b]


def t_keywords(s):
    return [helper(s), helper(s, last="!"), helper(s, ";"), helper(s, ";", "?"), helper(sep="1", s=s), helper(s=s, last="2", sep="3")]


def t_order(s):
    log = []
    c = Counter()
    v = [c.note(log, "a"), c.note(log, "b") if c.note(log, s) else c.note(log, "c"),
         c.note(log, "") or c.note(log, "d") or c.note(log, "e"), c.note(log, "f") and c.note(log, "") and c.note(log, "g")]
    d = {}
    d[c.note(log, "key")] = c.note(log, "value")
    w = helper(c.note(log, "1"), last=c.note(log, "2"), sep=c.note(log, "3"))
    x = f"{c.note(log, 'p')}{c.note(log, 'q')}"
    y = [c.note(log, z) for z in ["u", "", "v"] if c.note(log, z + "?")]
    t = any(c.note(log, z) for z in ["", "m", "n"])
    return [v, d, w, x, y, t, log]


def t_order_index(s):
    log = []
    c = Counter()
    d = {"a": "1", "b": "2"}
    try:
        return [d[c.note(log, "a")], d[c.note(log, s)]]
    except Exception as e:
        log.append("caught")
    return log


def t_and_or(s):
    return [s and "yes", s or "no", not s, s and "" or "x", (s or "a") and "b", None or s, [] or s, {} or s, 0 or s, [""] and s]


def t_try(s):
    log = []
    for x in s.split(","):
        try:
            log.append(x)
            if x == "r":
                raise Trouble(x)
            if x == "i":
                log.append("abc"[7])
            if x == "k":
                log.append({"a": "b"}[x])
            if x == "c":
                continue
            if x == "s":
                return log
            log.append("end")
        except Exception as e:
            log.append("handler")
            if x == "i":
                continue
            log.append("handled")
        log.append("after")
    return log


def t_try_nested(s):
    log = []
    try:
        try:
            log.append(s[0])
            raiser(s)
        except Exception as e:
            log.append("inner")
            log.append(s[2])
            raise e
    except Exception as e:
        log.append("outer")
    return log


def t_try_return(s):
    try:
        return s[1]
    except Exception as e:
        return "none"
    return "never"


def t_raise_kept(s):
    exception = None
    for x in range(3):
        try:
            return s[x + 1]
        except Exception as e:
            exception = e
    if exception:
        raise exception
    return "never"


def t_raise(s):
    a = Base(s)
    a.x = "set"
    if s:
        raise Trouble(s, how=a.x)
    raise Trouble("nothing")


def t_raise_name(s):
    try:
        raise Trouble(s)
    except Exception as e:
        return e.name


def t_unset(s):
    e = "before"
    try:
        raiser(s)
    except Exception as error:
        e = "in"
    return e


def t_while(s):
    n = 0
    out = ""
    while n < len(s):
        n += 1
        if s[n - 1] == " ":
            continue
        out = s[n - 1] + out
    return [out, n]


def t_while_true(s):
    n = 0
    while True:
        if n >= 3:
            return n
        n += 1


def t_for(s):
    out = []
    for i, x in enumerate(s):
        if i == 1:
            continue
        out.append(f"{i}{x}")
    for y in s.split():
        out.append(y)
    return [out, [z + z for z in out if z], any(z == "0a" for z in out)]


def t_for_leaks(s):
    x = "start"
    for x in s:
        pass
    return x


def t_comp_scope(s):
    x = "outer"
    y = [x for x in s]
    z = [x + a for a in s if a != x]
    return [x, y, z]


def t_empty_return(s):
    a = Counter()
    a.next()
    return [a.next(), a.num, a.next() + a.next() - a.num]


def nothing(s):
    if s:
        pass


def t_none(s):
    return [nothing(s), nothing(s) == None, s == None, s != None, s is not None]


def t_enum(s):
    a = Colour.RED
    return [a == Colour.RED, a == Colour.GREEN, a != Colour.RED]


def t_member(s):
    return [s in ["a", "b", ""], s not in ["a"], s in {"a": "1", "": "2"}, s not in {}, s in []]


def t_dict(s):
    d = {"a": "1", "b": "2", "a": "3"}
    d["c"] = s
    d["a"] = "4"
    return [d, d.get("a"), d.get("z"), d.get("z", s), d["b"], len(s), bool(d), bool({})]


def t_truth(s):
    return [bool(s), bool([]), bool([""]), bool(None), bool(0), bool(-1), bool({"": ""}), bool(Plain()), any(["", s]), any([])]


def t_str(s):
    return [s.strip(), s.split(), s.split(","), s.split(" "), "-".join([s, "", s]), "".join(s), ", ".join([]), len(s), s + "a", f"<{s}{len(s)}>"]


def t_index(s):
    return [s[0], s[-1]]


def t_index2(s):
    return s[2]


def t_index3(s):
    return s[-3]


def t_list_index(s):
    return [s.split()[0], s.split(",")[-1], s.split(",")[1]]


def t_key(s):
    return {"a": "x", "": "y"}[s]


def t_slice(s):
    return [s[0:1], s[1:3], s[2:1], s[0:100], s[5:7], s[0:len(s)]]


def t_recursion(s):
    return depth(s, len(s))


def t_range(s):
    return [[x for x in range(len(s))], [x for x in range(-3)], len(range(4))]


def t_ite(s):
    return "" if not s else (s[0] if s else "x")


def t_re(s):
    a = re.compile("a|b")
    b = re.compile("(x)(y)?")
    return [a.sub("<>", s), b.sub("\\2\\1", s), re.sub(a, "", s), bool(re.match("^[a-c]*$", s)), bool(re.match("[A-C]+", s, re.IGNORECASE)),
            bool(re.search("\\s+", s)), re.escape(s), re.sub("\\s|-", "\\\\x" if False else "+", s)]


def t_dom(s):
    dom = parseString(s)
    elements = list(dom.getElementsByTagName("math"))
    return [describe(x) for x in elements]


def describe(el):
    kinds = [x.nodeType for x in el.childNodes]
    texts = [x.nodeValue for x in el.childNodes]
    attrs = [a.name + "=" + a.value for a in el.attributes.values()]
    first = el.firstChild.nodeType if el.firstChild else 0
    inner = [describe(x) for x in el.childNodes if x.nodeType == Node.ELEMENT_NODE]
    return [el.tagName, kinds, texts, attrs, first, any(x.nodeType == Node.ELEMENT_NODE for x in el.childNodes), inner]


def t_dom_error(s):
    try:
        dom = parseString(s)
        return "fine"
    except Exception as e:
        if isinstance(e, ExpatError):
            return [e.code, e.lineno, e.offset]
        return "other"
