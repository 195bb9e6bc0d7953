"""A small evaluator for the subset of C++ the unit tests of the repository are written in.

It reads the text of a test file, runs the body of every `TEST_F` with recording stand-ins for the simulator
(see gen.py) and never touches the code under test.
"""
import re
import math
from fractions import Fraction


# ---------------------------------------------------------------- lexer
TOKEN = re.compile(r"""
    (?P<num>0[xX][0-9a-fA-F']+[uUlL]*|0[bB][01']+[uUlL]*
       |(?:\d[\d']*\.\d*|\.\d+|\d[\d']*)(?:[eE][-+]?\d+)?[uUlLfF]*)
  | (?P<id>[A-Za-z_]\w*)
  | (?P<str>"(?:\\.|[^"\\])*")
  | (?P<op>->|\+\+|--|<<|<=|>=|==|!=|&&|\|\||\+=|-=|\*=|/=|::|[-+*/%<>=!&|^~?:;,.(){}\[\]])
""", re.X)


def lex(text):
    text = re.sub(r"/\*.*?\*/", lambda m: "\n" * m.group().count("\n"), text, flags=re.S)
    text = re.sub(r"//[^\n]*", "", text)
    text = re.sub(r"^[ \t]*#[^\n]*(?:\\\n[^\n]*)*", "", text, flags=re.M)
    out, i, line = [], 0, 1
    while i < len(text):
        c = text[i]
        if c.isspace():
            if c == "\n":
                line += 1
            i += 1
            continue
        m = TOKEN.match(text, i)
        if not m:
            raise SyntaxError(f"line {line}: {text[i:i+20]!r}")
        out.append((m.lastgroup, m.group(), line))
        i = m.end()
    return out


# ---------------------------------------------------------------- values
class Dbl:
    """A double: exact value of the real-number formula together with the IEEE result."""

    def __init__(self, q, f):
        self.q, self.f = q, f

    @staticmethod
    def of(x):
        if isinstance(x, Dbl):
            return x
        if isinstance(x, bool):
            x = int(x)
        return Dbl(Fraction(x), float(x))


class Init(list):
    """A braced initialiser list."""


class Break(Exception):
    pass


class Return(Exception):
    def __init__(self, v):
        self.v = v


TYPES = {"int", "double", "bool", "auto", "float", "unsigned", "void", "char", "size_t", "uint8_t", "uint16_t", "uint32_t", "uint64_t",
         "int64_t", "uint_fast8_t", "uint_fast16_t", "uint_fast32_t", "timestamp_t", "Command", "SimulationStats", "interface_energy_info_t",
         "energy_t", "TogglingRateIdlePattern", "ToggleRateDefinition", "TogglingStats", "TargetCoordinate", "bus_stats_t", "Bus",
         "DataFormatter", "vector", "unique_ptr", "array", "string", "path", "interface_energy_t", "Rank"}
GENERIC = {"make_unique", "static_cast", "withExtension", "vector", "unique_ptr", "array", "Bus", "optional", "numeric_limits"}
INTS = {"int", "unsigned", "size_t", "uint8_t", "uint16_t", "uint32_t", "uint64_t", "int64_t", "uint_fast8_t", "uint_fast16_t",
        "uint_fast32_t", "timestamp_t"}
QUAL = {"const", "static", "constexpr", "inline", "mutable", "virtual", "explicit"}


# ---------------------------------------------------------------- parser
class Parser:
    def __init__(self, toks):
        self.t, self.i = toks, 0

    def peek(self, k=0):
        return self.t[self.i + k][1] if self.i + k < len(self.t) else None

    def kind(self, k=0):
        return self.t[self.i + k][0] if self.i + k < len(self.t) else None

    def line(self):
        return self.t[min(self.i, len(self.t) - 1)][2]

    def next(self):
        v = self.t[self.i][1]
        self.i += 1
        return v

    def accept(self, v):
        if self.peek() == v:
            self.i += 1
            return True
        return False

    def expect(self, v):
        if not self.accept(v):
            raise SyntaxError(f"line {self.line()}: expected {v!r}, found {self.peek()!r}")

    def skip(self, open_, close):
        """Skip a bracketed group; the opening bracket is the next token."""
        depth = 0
        while True:
            v = self.next()
            if v == open_:
                depth += 1
            elif v == close:
                depth -= 1
                if depth == 0:
                    return

    # types: returns the list of identifiers of the type, or None
    def try_type(self):
        start = self.i
        while self.peek() in QUAL:
            self.i += 1
        self.accept("::")
        if self.kind() != "id":
            self.i = start
            return None
        names = [self.next()]
        args = None
        while True:
            if self.peek() == "::" and self.kind(1) == "id":
                self.i += 1
                names.append(self.next())
            elif self.peek() == "<" and names[-1] in GENERIC:
                a = self.i
                self.skip("<", ">")
                args = [x[1] for x in self.t[a + 1:self.i - 1]]
            else:
                break
        while self.peek() in ("&", "*", "const", "&&"):
            self.i += 1
        return names, args

    def try_decl(self):
        start = self.i
        t = self.try_type()
        if t is None:
            return None
        if self.peek() == "[" and t[0][-1] == "auto":
            self.next()
            names = [self.next()]
            while self.accept(","):
                names.append(self.next())
            self.expect("]")
            self.expect("=")
            return "bind", names, self.expr()
        if self.kind() == "id" and self.peek(1) in ("=", ";", "{", "(", "[", ":", ","):
            name = self.next()
            dims = False
            while self.peek() == "[":
                self.skip("[", "]")
                dims = True
            if self.accept("="):
                init = self.expr()
            elif self.peek() == "{":
                init = self.primary()
            elif self.peek() == "(":
                self.next()
                init = ("args", self.arglist(")"))
            else:
                init = None
            return "decl", t, name, init
        self.i = start
        return None

    def block(self):
        self.expect("{")
        out = []
        while not self.accept("}"):
            out.append(self.stmt())
        return "block", out

    def stmt(self):
        ln = self.line()
        v = self.peek()
        if v == "{":
            return self.block()
        if v == ";":
            self.next()
            return "block", []
        if v == "if":
            self.next()
            self.expect("(")
            c = self.expr()
            self.expect(")")
            a = self.stmt()
            b = self.stmt() if self.accept("else") else None
            return "if", c, a, b
        if v == "while":
            self.next()
            self.expect("(")
            c = self.expr()
            self.expect(")")
            return "while", c, self.stmt()
        if v == "for":
            self.next()
            self.expect("(")
            d = self.try_decl()
            if d and self.accept(":"):
                e = self.expr()
                self.expect(")")
                return "each", d[2], e, self.stmt()
            self.expect(";")
            c = self.expr()
            self.expect(";")
            s = self.expr()
            self.expect(")")
            return "for", d, c, s, self.stmt()
        if v == "return":
            self.next()
            e = None if self.peek() == ";" else self.expr()
            self.expect(";")
            return "return", e
        if v == "break":
            self.next()
            self.expect(";")
            return ("break",)
        if v == "using":
            while self.next() != ";":
                pass
            return "block", []
        d = self.try_decl()
        if d:
            self.expect(";")
            return d
        e = self.expr()
        self.expect(";")
        return "expr", e, ln

    BIN = [("||",), ("&&",), ("|",), ("^",), ("&",), ("==", "!="), ("<", ">", "<=", ">="), ("<<",), ("+", "-"), ("*", "/", "%")]

    def expr(self):
        a = self.binary(0)
        if self.accept("?"):
            b = self.expr()
            self.expect(":")
            return "cond", a, b, self.expr()
        if self.peek() in ("=", "+=", "-=", "*=", "/="):
            op = self.next()
            return "assign", op, a, self.expr()
        return a

    def binary(self, lvl):
        if lvl == len(self.BIN):
            return self.unary()
        a = self.binary(lvl + 1)
        while self.peek() in self.BIN[lvl]:
            op = self.next()
            a = ("bin", op, a, self.binary(lvl + 1))
        return a

    def unary(self):
        v = self.peek()
        if v in ("-", "!", "+", "*", "&"):
            self.next()
            return "un", v, self.unary()
        if v in ("++", "--"):
            self.next()
            return "inc", v, self.unary()
        if v == "(":
            start = self.i
            self.next()
            t = self.try_type()
            if t and t[0][-1] in TYPES and self.accept(")") and (self.kind() in ("id", "num") or self.peek() == "("):
                return "cast", t[0][-1], self.unary()
            self.i = start
        return self.postfix(self.primary())

    def arglist(self, close):
        out = []
        while not self.accept(close):
            out.append(self.expr())
            if not self.accept(","):
                self.expect(close)
                break
        return out

    def primary(self):
        k, v = self.kind(), self.peek()
        if k == "num":
            self.next()
            return "num", v
        if k == "str":
            self.next()
            return "str", v[1:-1]
        if v == "(":
            self.next()
            e = self.expr()
            self.expect(")")
            return e
        if v == "{":
            self.next()
            return "init", self.arglist("}")
        if v == "[":
            self.next()
            caps = []
            while not self.accept("]"):
                if self.accept("&") or self.accept("="):
                    if self.kind() == "id":
                        self.next()
                else:
                    n = self.next()
                    if self.accept("="):
                        caps.append((n, self.expr()))
                self.accept(",")
            params = self.params()
            self.accept("mutable")
            if self.accept("->"):
                self.try_type()
            return "lambda", caps, params, self.block()
        if k == "id" or v == "::":
            self.accept("::")
            names = [self.next()]
            args = None
            while True:
                if self.peek() == "::" and self.kind(1) == "id":
                    self.next()
                    names.append(self.next())
                elif self.peek() == "<" and names[-1] in GENERIC:
                    a = self.i
                    self.skip("<", ">")
                    args = [x[1] for x in self.t[a + 1:self.i - 1]]
                else:
                    break
            return "name", names, args
        raise SyntaxError(f"line {self.line()}: unexpected {v!r}")

    def params(self):
        self.expect("(")
        out = []
        while not self.accept(")"):
            self.try_type()
            out.append(self.next() if self.kind() == "id" else None)
            self.accept(",")
        return out

    def postfix(self, e):
        while True:
            v = self.peek()
            if v in (".", "->"):
                self.next()
                self.accept("template")
                n = self.next()
                if self.peek() == "<" and n in GENERIC:
                    self.skip("<", ">")
                e = ("mem", e, n)
            elif v == "[":
                self.next()
                i = self.expr()
                self.expect("]")
                e = ("idx", e, i)
            elif v == "(":
                self.next()
                e = ("call", e, self.arglist(")"))
            elif v == "{" and e[0] == "name" and e[1][-1] in TYPES | {"Command", "SimConfig"}:
                e = ("call", e, [self.primary()])
            elif v in ("++", "--"):
                self.next()
                e = ("inc", v, e)
            else:
                return e

    # top level of a test file
    def file(self):
        arrays, classes, tests = {}, {}, []
        while self.i < len(self.t):
            v = self.peek()
            if v == "TEST_F":
                ln = self.line()
                self.next()
                self.expect("(")
                a = self.next()
                self.expect(",")
                b = self.next()
                self.expect(")")
                tests.append((a, b, self.block(), ln))
            elif v == "class" and self.peek(2) == ":":
                self.next()
                name = self.next()
                while self.peek() != "{":
                    self.next()
                classes[name] = self.classbody(name)
            elif v == "using":
                while self.next() != ";":
                    pass
            elif v in ("static", "constexpr"):
                d = self.try_decl()
                if d is None:
                    raise SyntaxError(f"line {self.line()}: top level")
                self.expect(";")
                arrays[d[2]] = d
            elif v == ";":
                self.next()
            else:
                raise SyntaxError(f"line {self.line()}: top level {v!r}")
        return arrays, classes, tests

    def classbody(self, name):
        self.expect("{")
        members, methods, ctor = [], {}, None
        while not self.accept("}"):
            v = self.peek()
            if v in ("public", "protected", "private"):
                self.next()
                self.expect(":")
            elif v == ";":
                self.next()
            elif v == "using":
                while self.next() != ";":
                    pass
            elif v == name:
                self.next()
                self.params()
                ctor = self.block()
            else:
                start = self.i
                t = self.try_type()
                n = self.next()
                if self.peek() == "(":
                    p = self.params()
                    while self.peek() in ("override", "const"):
                        self.next()
                    methods[n] = (p, self.block())
                else:
                    self.i = start
                    d = self.try_decl()
                    if d is None:
                        raise SyntaxError(f"line {self.line()}: member {n!r}")
                    self.expect(";")
                    members.append(d)
        self.expect(";")
        return members, methods, ctor


# ---------------------------------------------------------------- evaluator
class Lambda:
    def __init__(self, env, params, body):
        self.env, self.params, self.body = env, params, body


class Env:
    def __init__(self, parent=None):
        self.v, self.parent = {}, parent

    def find(self, n):
        e = self
        while e:
            if n in e.v:
                return e
            e = e.parent
        return None


class Iter:
    def __init__(self, l, i):
        self.l, self.i = l, i

    def __eq__(self, o):
        return self.l is o.l and self.i == o.i


class Interp:
    """`host` supplies the stand-ins: construct, call, member, index, binop, check."""

    def __init__(self, host):
        self.host = host

    def number(self, s):
        s = s.replace("'", "")
        if s[:2] in ("0x", "0X"):
            return int(s.rstrip("uUlL"), 16)
        if s[:2] in ("0b", "0B"):
            return int(s.rstrip("uUlL"), 2)
        if "." in s or "e" in s or "E" in s:
            s = s.rstrip("fFlL")
            return Dbl(Fraction(s), float(s))
        return int(s.rstrip("uUlL"))

    def run(self, st, env):
        k = st[0]
        if k == "block":
            e = Env(env)
            for s in st[1]:
                self.run(s, e)
        elif k == "expr":
            self.host.line = st[2]
            self.ev(st[1], env)
        elif k == "decl":
            t, name, init = st[1], st[2], st[3]
            v = None
            if init is not None:
                v = [self.ev(x, env) for x in init[1]] if init[0] == "args" else self.ev(init, env)
                if init[0] == "args":
                    v = self.host.construct(t[0][-1], t[1], v)
                else:
                    v = self.convert(t, v)
            else:
                v = self.host.default(t[0][-1], t[1])
            env.v[name] = v
        elif k == "bind":
            for n, v in zip(st[1], self.ev(st[2], env)):
                env.v[n] = v
        elif k == "if":
            c = self.ev(st[1], env)
            assert isinstance(c, (bool, int)), f"line {self.host.line}: condition {c!r}"
            if c:
                self.run(st[2], env)
            elif st[3]:
                self.run(st[3], env)
        elif k == "while":
            while self.truth(self.ev(st[1], env)):
                self.run(st[2], env)
        elif k == "for":
            e = Env(env)
            if st[1]:
                self.run(st[1], e)
            try:
                while self.truth(self.ev(st[2], e)):
                    self.run(st[4], e)
                    self.ev(st[3], e)
            except Break:
                pass
        elif k == "each":
            for x in self.ev(st[2], env):
                e = Env(env)
                e.v[st[1]] = x
                self.run(st[3], e)
        elif k == "return":
            raise Return(None if st[1] is None else self.ev(st[1], env))
        elif k == "break":
            raise Break()
        else:
            raise NotImplementedError(k)

    def truth(self, c):
        assert isinstance(c, (bool, int)), f"line {self.host.line}: condition {c!r}"
        return bool(c)

    def convert(self, t, v):
        n = t[0][-1]
        if isinstance(v, Init):
            return self.host.from_init(n, t[1], v)
        if n in INTS:
            return self.host.cast("int", v)
        if n == "double" and isinstance(v, (int, bool)):
            return Dbl.of(v)
        return self.host.copy(v) if n in ("SimulationStats",) else v

    def ev(self, e, env):
        k = e[0]
        if k == "num":
            return self.number(e[1])
        if k == "str":
            return e[1]
        if k == "name":
            ns = e[1]
            if len(ns) == 1:
                f = env.find(ns[0])
                if f:
                    return f.v[ns[0]]
            return self.host.name(ns, e[2])
        if k == "init":
            return Init(self.ev(x, env) for x in e[1])
        if k == "lambda":
            le = Env(env)
            for n, x in e[1]:
                le.v[n] = self.ev(x, env)
            return Lambda(le, e[2], e[3])
        if k == "cond":
            return self.ev(e[2] if self.truth(self.ev(e[1], env)) else e[3], env)
        if k == "cast":
            return self.host.cast(e[1], self.ev(e[2], env))
        if k == "un":
            op = e[1]
            v = self.ev(e[2], env)
            if op == "*":
                return v.l[v.i] if isinstance(v, Iter) else v
            if op == "&":
                return v
            if op == "!":
                return not self.truth(v)
            if op == "-":
                return self.bin("-", 0, v)
            return v
        if k == "bin":
            if e[1] in ("&&", "||"):
                a = self.truth(self.ev(e[2], env))
                if e[1] == "&&":
                    return a and self.truth(self.ev(e[3], env))
                return a or self.truth(self.ev(e[3], env))
            return self.bin(e[1], self.ev(e[2], env), self.ev(e[3], env))
        if k == "assign":
            v = self.ev(e[3], env)
            if e[1] != "=":
                v = self.bin(e[1][0], self.ev(e[2], env), v)
            self.store(e[2], v, env)
            return v
        if k == "inc":
            v = self.ev(e[2], env)
            if isinstance(v, Iter):
                v.i += 1
                return v
            self.store(e[2], v + (1 if e[1] == "++" else -1), env)
            return v
        if k == "mem":
            o = self.ev(e[1], env)
            if isinstance(o, Iter):
                o = o.l[o.i]
            return self.host.member(o, e[2])
        if k == "idx":
            return self.host.index(self.ev(e[1], env), self.ev(e[2], env))
        if k == "call":
            return self.call(e, env)
        raise NotImplementedError(k)

    def store(self, lhs, v, env):
        if lhs[0] == "name":
            f = env.find(lhs[1][0])
            assert f, f"line {self.host.line}: unknown variable {lhs[1]}"
            old = f.v[lhs[1][0]]
            if isinstance(old, Dbl) and isinstance(v, int):
                v = Dbl.of(v)
            f.v[lhs[1][0]] = v
        elif lhs[0] == "mem":
            self.host.set_member(self.ev(lhs[1], env), lhs[2], v)
        elif lhs[0] == "un" and lhs[1] == "*":
            self.store(lhs[2], v, env)
        else:
            raise NotImplementedError(f"line {self.host.line}: assignment to {lhs[0]}")

    def invoke(self, f, args):
        if isinstance(f, Lambda):
            e = Env(f.env)
            for n, a in zip(f.params, args):
                if n:
                    e.v[n] = a
            try:
                self.run(f.body, e)
            except Return as r:
                return r.v
            return None
        return f(*args)

    def call(self, e, env):
        f = e[1]
        if f[0] == "name" and f[1][-1] in ("sizeof",):
            return len(self.ev(e[2][0], env))
        if f[0] == "name" and f[1][-1] == "SZ_BITS":
            return 8 * len(self.ev(e[2][0], env))
        fn = self.ev(f, env)
        args = [self.ev(a, env) for a in e[2]]
        return self.invoke(fn, args)

    def bin(self, op, a, b):
        if isinstance(a, Iter) or isinstance(b, Iter):
            return (a == b) if op == "==" else not (a == b)
        r = self.host.binop(op, a, b)
        if r is not NotImplemented:
            return r
        if isinstance(a, Dbl) or isinstance(b, Dbl):
            a, b = Dbl.of(a), Dbl.of(b)
            if op == "+":
                return Dbl(a.q + b.q, a.f + b.f)
            if op == "-":
                return Dbl(a.q - b.q, a.f - b.f)
            if op == "*":
                return Dbl(a.q * b.q, a.f * b.f)
            if op == "/":
                return Dbl(a.q / b.q, a.f / b.f)
            a, b = a.f, b.f
        elif op == "/":
            return a // b if a >= 0 else -((-a) // b)
        elif op == "%":
            return a % b
        if op == "+":
            return a + b
        if op == "-":
            return a - b
        if op == "*":
            return a * b
        if op == "<<":
            return a << b
        if op == "&":
            return a & b
        if op == "|":
            return a | b
        return {"==": a == b, "!=": a != b, "<": a < b, ">": a > b, "<=": a <= b, ">=": a >= b}[op]
