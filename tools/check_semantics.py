"""Compare Source/Lexer.lean, Source/Parser.lean and Source/Semantics.lean with the interpreter running this
script: random programs in the part of Python the sources are written in are run by both.  The programs are made
up here; no code of /repo is executed.  Programs the model calls stuck, or does not parse, are not compared.
Needs a finished `lake build`.  Usage: python3 tools/check_semantics.py [count] [seed]
"""
import binascii, collections, os, pathlib, random, select, signal, subprocess, sys, tempfile, types

N = int(sys.argv[1]) if len(sys.argv) > 1 else 3000
rng = random.Random(int(sys.argv[2]) if len(sys.argv) > 2 else 1)
lean_dir = pathlib.Path(__file__).resolve().parent.parent / "lean"

VARS = ["s", "idx", "data", "spec", "doc", "field", "i", "k", "p", "pos", "key", "part", "rep", "width", "msg", "bit", "current"]
FUNS = ["_decode_header", "_decode_type", "_decode_field", "_wrap_str_repr"]
PARAMS = ["delim", "indent", "line_width", "desc_width"]
EXCS = ["KeyError", "ValueError", "TypeError", "IndexError", "LookupError", "UnicodeError", "Exception",
        "DecodeError", "AttributeError", "OverflowError"]
TYPES = ["int", "str", "bytes", "bool", "none", "dict", "set", "barray", "list", "tuple", "slist"]
CODECS = ["ascii", "latin-1", "cp500", "utf-8", "nope"]


def pick(*xs):
    return rng.choice(xs)


def chance(p):
    return rng.random() < p


class Gen:
    """One program.  `self.env` maps variables of the current function to the type they were last given."""

    def lit(self, t):
        if t == "int":
            return str(rng.choice([0, 1, 2, 3, 4, 7, 10, 16, 100, 255, 256]))
        if t == "str":
            return rng.choice(['""', '"a"', '"ab"', "'b'", '"2"', '"15"', '"0A"', '"é"', '"p"', '"xyz"', '"\\n"', '"\\\\"', "'\"'",
                               '"+3"', '" 7"', '"1_0"', '"²"', '"a" "b"', '"It\'s"', '"0a1B"', '"\\x41"', '"big"', '"ß"'])
        if t == "bytes":
            return rng.choice(['b""', 'b"a"', 'b"01"', 'b"\\x00\\xff"', 'b"\\x80"', 'b"abc"', 'b"1F"'])
        if t == "bool":
            return pick("True", "False")
        if t == "none":
            return "None"
        if t == "dict":
            return rng.choice(["{}", '{"a": 1}', '{"a": 1, "b": "x",}', '{"p": b"1", "a": None}', "{1: 2, 3: 4}"])
        if t == "set":
            return rng.choice(["set()", "set([1, 2])", "set([3, 1, 3])", "set(range(0, 5))"])
        if t == "barray":
            return rng.choice(["bytearray()", 'bytearray(b"ab")', 'bytearray(b"\\x01\\x02\\x03")'])
        if t == "list":
            return rng.choice(["[]", "[1]", "[1, 2, 3]", "range(0, 4)", "range(1, 10, 3)", "[5, 0,]", "range(3, 1)"])
        if t == "slist":
            return rng.choice(["[]", '["a"]', '["2", "10", "1"]', '["a", "b"]'])
        if t == "tuple":
            return rng.choice(["(1, 2)", '("a", 3)', "()", "(4,)", '("x", b"y")'])
        raise ValueError(t)

    def var(self, t):
        c = [v for v, u in self.env.items() if u == t]
        if c and not chance(0.02):
            return rng.choice(c)
        if chance(0.02):
            return rng.choice(VARS)
        return None

    def paren(self, e):
        return "(" + e + ")" if chance(0.5) else e

    def ex(self, t, d):
        if chance(0.01):
            t = rng.choice(TYPES)
        if chance(0.35) or d <= 0:
            v = self.var(t)
            if v:
                return v
        if d <= 0:
            return self.lit(t)
        g = lambda u: self.ex(u, d - 1)
        w = lambda u: "(" + self.ex(u, d - 1) + ")"
        a = lambda u: self.var(u) or "(" + self.ex(u, d - 1) + ")"
        r = rng.random()
        if r < 0.15:
            return self.lit(t)
        if r < 0.22:
            return f"({g(t)} if {g('bool')} else {g(t)})"
        if r < 0.27:
            return f"({g(t)} {pick('and', 'or')} {g(t)})"
        if r < 0.33 and self.calls:
            f, ps, rt = rng.choice(self.calls)
            if rt == t or chance(0.1):
                return self.call(f, ps, d)
        if t == "int":
            return rng.choice([
                lambda: f"{g('int')} {pick('+', '-', '*', '//', '%', '&', '|')} {g('int')}",
                lambda: f"{g('int')} {pick('<<', '>>')} {pick('0', '1', '7', '-1', '8 - bit')}",
                lambda: f"{w('int')} {pick('+', '-', '*', '//', '%', '&', '|')} {w('int')}",
                lambda: f"-{a('int')}",
                lambda: f"len({g(pick('str', 'bytes', 'dict', 'set', 'barray', 'list', 'tuple', 'slist', 'none', 'int'))})",
                lambda: f"int({g(pick('str', 'str', 'int'))})",
                lambda: f"int({g('str')}, 10)",
                lambda: f"int.from_bytes({g('bytes')}, \"big\", signed=False)",
                lambda: f"{a('barray')}[{g('int')}]",
                lambda: f"{a('dict')}.get({g('str')}, {g('int')})",
                lambda: f"{a('dict')}[{g(pick('str', 'int'))}]",
            ])()
        if t == "str":
            return rng.choice([
                lambda: f"{g('str')} + {g('str')}",
                lambda: f"{a('str')}.upper()",
                lambda: f"{a(pick('bytes', 'barray'))}.hex()",
                lambda: f"{a('bytes')}.decode(\"{rng.choice(CODECS)}\")",
                lambda: self.slice(a("str"), d),
                lambda: self.fstring(d),
                lambda: f"str({g(pick('int', 'str'))})",
                lambda: f"repr({g(pick('str', 'bytes', 'int', 'none', 'bool'))})",
                lambda: f"{a('str')} * {a('int')}",
                lambda: f"\"{{:0{{len_type}}d}}\".format({g('int')}, len_type={g('int')})",
                lambda: f"\"{{index:3s}}\".format(index={g('str')})",
                lambda: f"\" {{desc: <{{desc_width}}}}\".format(desc={g('str')}, desc_width={g('int')})",
                lambda: f"\"{{}} \".format({g('str')})",
                lambda: f"{a('dict')}.get({g('str')}, {g('str')})",
                lambda: f"{a('dict')}.pop({g('str')}, {g('str')})",
                lambda: f"{w(pick(*TYPES))}.__class__.__name__",
            ])()
        if t == "bytes":
            return rng.choice([
                lambda: f"{g('bytes')} + {g('bytes')}",
                lambda: self.slice(a("bytes"), d),
                lambda: f"bytes({g('barray')})",
                lambda: f"{a('str')}.encode(\"{rng.choice(CODECS)}\")",
                lambda: f"bytes({g('str')}, \"{rng.choice(CODECS)}\")",
                lambda: f"bytes.fromhex({g('str')})",
                lambda: f"binascii.a2b_hex({g(pick('str', 'str', 'bytes', 'barray', 'int', 'list'))})",
                lambda: f"{a('int')}.to_bytes({g('int')}, \"big\", signed=False)",
                lambda: f"{a('barray')}[{self.bound(d)}:{self.bound(d)}]",
            ])()
        if t == "bool":
            u = pick("int", "str", "bytes", "none", "bool")
            return rng.choice([
                lambda: f"{a('int')} {pick('<', '<=', '>', '>=')} {a('int')}",
                lambda: f"{a(u)} {pick('==', '!=')} {a(u)}",
                lambda: f"{a(pick(*TYPES))} {pick('==', '!=')} {a(pick(*TYPES))}",
                lambda: f"(not {g(pick(*TYPES))})",
                lambda: f"{a('str')} {pick('in', 'not in')} {a('dict')}",
                lambda: f"{a('int')} {pick('in', 'not in')} {a('set')}",
                lambda: f"{a(pick(*TYPES))} {pick('is', 'is not')} None",
                lambda: f"isinstance({g(pick(*TYPES))}, {pick('str', 'bytes', 'bytearray', 'dict', 'set')})",
                lambda: f"isinstance({g(pick(*TYPES))}, ({pick('str', 'bytes')}, {pick('bytearray', 'dict')}))",
                lambda: f"{a('str')}.isnumeric()",
                lambda: f"{a('set')}.issubset({g('list')})",
                lambda: f"{g('bool')} {pick('and', 'or')} {g('bool')} {pick('and', 'or')} not {g('bool')}",
                lambda: f"{a('int')} + {a('int')} == {a('int')} {pick('and', 'or')} {a('str')} == {a('str')}",
            ])()
        if t == "dict":
            return "{" + ", ".join(f"{g(pick('str', 'str', 'int'))}: {g(pick(*TYPES))}" for _ in range(rng.randrange(4))) + "}"
        if t == "set":
            return rng.choice([
                lambda: f"set({g('list')})",
                lambda: f"{a('set')}.{pick('intersection', 'difference')}({g('list')})",
            ])()
        if t == "barray":
            return f"bytearray({g('bytes')})"
        if t in ("list", "slist"):
            x = rng.choice(VARS)
            e = "str" if t == "slist" else "int"
            return rng.choice([
                lambda: "[" + ", ".join(g(e) for _ in range(rng.randrange(4))) + "]",
                lambda: self.comp(e, d),
                lambda: f"sorted({g('set')})" if e == "int" else f"sorted({g('slist')}, key=int)",
                lambda: f"range({g('int')}, {g('int')})" if e == "int" else f"{a('dict')}.keys()",
                lambda: f"range({g('int')}, {g('int')}, {pick('1', '2', '5')})" if e == "int" else f"{a('dict')}.keys()",
            ])()
        if t == "tuple":
            return "(" + "".join(g(pick("int", "str", "bytes", "none")) + ", " for _ in range(rng.randrange(4))) + ")"
        return self.lit(t)

    def bound(self, d):
        return pick("", self.ex("int", 0), self.ex("int", d - 1))

    def slice(self, e, d):
        return f"{e}[{self.bound(d)}:{self.bound(d)}]"

    def fstring(self, d):
        out = ""
        for _ in range(rng.randrange(1, 4)):
            if chance(0.5):
                out += rng.choice(["a", " ", "x: ", "(", "#", "-"])
            v = self.var(rng.choice(["int", "str", "int", "str", "exn", "list"]))
            out += "{" + (v or rng.choice(["1", "len('ab')", "2 + 3", "str(7)"])) + "}"
        return f'f"{out}"'

    def comp(self, e, d):
        x = rng.choice(VARS)
        saved = dict(self.env)
        if chance(0.25):
            it = f"{rng.choice(VARS)}, {x} in enumerate({self.ex('list', d - 1)})"
            self.env[x] = "int"
        elif chance(0.3):
            it = f"{x} in {self.ex('slist', d - 1)}"
            self.env[x] = "str"
        else:
            it = f"{x} in {self.ex(pick('list', 'bytes', 'barray'), d - 1)}"
            self.env[x] = "int"
        c = f" if {self.ex('bool', d - 1)}" if chance(0.5) else ""
        if chance(0.15):
            y = rng.choice(VARS)
            c += f" for {y} in range(0, {rng.randrange(4)})"
            self.env[y] = "int"
        r = f"[{self.ex(e, d - 1)} for {it}{c}]"
        self.env = saved
        return r

    def call(self, f, ps, d):
        args, kws = [], []
        n = rng.randrange(len(ps) + 1) if chance(0.6) else len(ps)
        for p, t, default in ps[:n]:
            args.append(self.ex(t, d - 1))
        for p, t, default in ps[n:]:
            if not default or chance(0.5):
                kws.append(f"{p}={self.ex(t, d - 1)}")
        if chance(0.03):
            args.append("1")
        if chance(0.3):
            rng.shuffle(kws)
        return f"{f}({', '.join(args + kws)})"

    def block(self, n, d, ind):
        out = []
        for _ in range(rng.randrange(1, n + 1)):
            out += self.stmt(d, ind)
        return out

    def stmt(self, d, ind):
        pad = " " * 4 * ind
        r = rng.random()
        t = rng.choice(TYPES)
        if r < 0.30:
            x = rng.choice(VARS)
            line = f"{pad}{x}{pick('', '', ': Any')} = {self.ex(t, 3)}"
            self.env[x] = t
            return [line]
        if r < 0.36:
            x, y = rng.sample(VARS, 2)
            u = rng.choice(TYPES)
            line = f"{pad}{x}, {y} = {self.ex(t, 2)}, {self.ex(u, 2)}"
            self.env[x], self.env[y] = t, u
            return [line]
        if r < 0.42:
            v = self.var("int")
            if v:
                return [f"{pad}{v} {pick('+=', '-=', '*=', '|=', '&=')} {self.ex('int', 2)}"]
        if r < 0.46:
            v = self.var("barray")
            if v:
                return [rng.choice([f"{pad}{v} += {self.ex('bytes', 2)}", f"{pad}{v}[{self.ex('int', 1)}] = {self.ex('int', 2)}",
                                    f"{pad}{v}[{self.ex('int', 1)}] |= {self.ex('int', 2)}"])]
        if r < 0.49:
            v = self.var("str")
            if v:
                return [f"{pad}{v} += {self.ex('str', 2)}"]
        if r < 0.56:
            v = self.var("dict")
            if v:
                return [rng.choice([
                    lambda: f"{pad}{v}[{self.ex(pick('str', 'str', 'int'), 1)}] = {self.ex(t, 2)}",
                    lambda: f"{pad}{v}.pop({self.ex('str', 1)}, None)",
                    lambda: f"{pad}{v}[{self.ex('str', 1)}] += {self.ex('int', 1)}"])()]
        if r < 0.61:
            v = self.var("set")
            if v:
                return [rng.choice([
                    lambda: f"{pad}{v}.update({self.ex('list', 2)})",
                    lambda: f"{pad}{v}.add({self.ex('int', 2)})",
                    lambda: f"{pad}{v}.remove({self.ex('int', 2)})"])()]
        if r < 0.64 and ind > 1 and chance(0.5):
            return [f"{pad}return {self.ex(self.ret, 2)}"] if not self.gen else [f"{pad}return"]
        if r < 0.68 and ind > 1:
            return [pad + rng.choice([
                lambda: f"raise TypeError({self.ex('str', 2)})",
                lambda: f"raise DecodeError({self.ex('str', 2)}, {self.ex('int', 2)})",
                lambda: f"raise DecodeError({self.ex('str', 2)}, pos={self.ex('int', 2)}) from None"])()]
        if d > 0 and r < 0.78:
            out = [f"{pad}if {self.ex(pick('bool', 'bool', rng.choice(TYPES)), 2)}:"] + self.block(2, d - 1, ind + 1)
            if chance(0.3):
                out += [f"{pad}elif {self.ex('bool', 2)}:"] + self.block(2, d - 1, ind + 1)
            if chance(0.5):
                out += [f"{pad}else:"] + self.block(2, d - 1, ind + 1)
            return out
        if d > 0 and r < 0.86:
            x = rng.choice(VARS)
            if chance(0.3):
                y = rng.choice(VARS)
                head = f"{pad}for {x}, {y} in enumerate({self.ex(pick('list', 'bytes', 'slist', 'tuple'), 2)}):"
                self.env[x] = self.env[y] = "int"
            else:
                u = pick("list", "list", "bytes", "barray", "slist", "set", "tuple")
                head = f"{pad}for {x} in {self.ex(u, 2)}:"
                self.env[x] = "str" if u == "slist" else "int"
            return [head] + self.block(2, d - 1, ind + 1)
        if d > 0 and r < 0.94:
            out = [f"{pad}try:"] + self.block(3, d - 1, ind + 1)
            for _ in range(rng.randrange(1, 3)):
                if chance(0.5):
                    out += [f"{pad}except {rng.choice(EXCS)} as e:"]
                    self.env["e"] = "exn"
                    out += self.block(2, d - 1, ind + 1)
                    if chance(0.5):
                        self.env.pop("e", None)
                else:
                    out += [f"{pad}except {rng.choice(EXCS)}:"] + self.block(2, d - 1, ind + 1)
            return out
        if self.gen and chance(0.7):
            return [f"{pad}yield {self.ex('int', 2)}"]
        return [f"{pad}{self.ex(t, 2)}"]

    def function(self, name, ps, ret, gen, main):
        self.env = {p: t for p, t, _ in ps}
        self.ret, self.gen = ret, gen
        if gen:
            return [f"def {name}({', '.join(p for p, _, _ in ps)}):", f"    for i in range({rng.randrange(3)}, {rng.randrange(6)}):",
                    "        if i > 3:", "            return"] * 1 + [f"        yield {pick('i', 'i * 2', 'i + 1')}"]
        sig = ", ".join(p + pick("", ": Any") + (" = " + dflt if dflt else "") for p, t, dflt in ps)
        out = [f"def {name}({sig}){pick('', ' -> Any')}:"] + ['    """Doc."""'] * chance(0.1)
        for _ in range(rng.randrange(3, 8) if main else rng.randrange(1, 4)):
            if chance(0.5):
                out += ["    try:"] + self.block(2, 1, 2) + ["    except Exception:", "        pos = -1"]
                self.env["pos"] = "int"
            else:
                out += self.stmt(2, 1)
        if gen:
            out += [f"    yield {self.ex('int', 2)}"]
        elif main:
            out += ["    return [" + ", ".join(self.env) + "]"]
        elif chance(0.9):
            out += [f"    return {self.ex(ret, 3)}"]
        return out

    def source(self):
        self.calls = []
        fs = []
        for f in FUNS[: rng.randrange(len(FUNS) + 1)]:
            k = rng.randrange(4)
            nd = rng.randrange(k + 1)
            ps = []
            for j, p in enumerate(PARAMS[:k]):
                t = rng.choice(TYPES)
                dflt = None
                if j >= nd:
                    t = pick("int", "str", "none", "bool", "bytes")
                    dflt = self.lit(t)
                ps.append((p, t, dflt))
            gen = chance(0.2)
            ps = [(p, t, None) for p, t, _ in ps] if gen else ps
            ret = "list" if gen else rng.choice(TYPES)
            fs = self.function(f, ps, ret, gen, False) + ["", ""] + fs
            self.calls.append((f, ps, ret))
        cls = ["class DecodeError(ValueError):", '    r"""An error."""', "    def __init__(self, msg, pos=0):",
               "        ValueError.__init__(self, msg + '!')", "        self.msg = msg", "        self.pos = pos", "", ""]
        return cls + self.function("decode", [], "tuple", False, True) + ["", ""] + fs


def canon(v, d=12):
    if d == 0:
        return "deep"
    c = lambda x: canon(x, d - 1)
    nums = lambda xs: "[" + ",".join(map(str, xs)) + "]"
    if v is None:
        return "N"
    if isinstance(v, bool):
        return str(v)
    if isinstance(v, int):
        return f"i{v}" if abs(v) < 10 ** 4000 else "deep"
    if isinstance(v, str):
        return "s" + nums(map(ord, v))
    if isinstance(v, bytes):
        return "b" + nums(v)
    if isinstance(v, bytearray):
        return "B" + nums(v)
    if isinstance(v, (list, range, types.GeneratorType)) or type(v) is type({}.keys()):
        return "L[" + ",".join(map(c, v)) + "]"
    if isinstance(v, tuple):
        return "T[" + ",".join(map(c, v)) + "]"
    if isinstance(v, dict):
        return "D{" + ",".join(c(k) + ":" + c(x) for k, x in v.items()) + "}"
    if isinstance(v, set):
        return "S" + nums(sorted(v))
    if isinstance(v, type):
        return "g" + v.__name__
    if isinstance(v, Exception) and type(v).__name__ == "DecodeError":
        return "IDecodeError(" + ",".join(map(c, v.args)) + "){" + ",".join(k + ":" + c(x) for k, x in vars(v).items()) + "}"
    if isinstance(v, Exception):
        return "X" + excname(v)
    return "?"


def excname(e):
    if isinstance(e, UnicodeError):
        return "UnicodeError"
    if isinstance(e, NameError):
        return "UnboundLocalError"
    if isinstance(e, binascii.Error):
        return "ValueError"
    return type(e).__name__


def too_long(*_):
    raise TimeoutError


signal.signal(signal.SIGALRM, too_long)


def python(src):
    ns = {"binascii": binascii, "Any": object}
    try:
        exec(compile(src, "<made up>", "exec"), ns)
    except SyntaxError:
        return "syntax"
    try:
        signal.alarm(20)
        return canon(ns["decode"]())
    except TimeoutError:
        return "deep"
    except Exception as e:
        return "!" + (canon(e)[0:] if type(e).__name__ == "DecodeError" else excname(e)).replace("IDecodeError", "DecodeErrorIDecodeError", 1)


import warnings
warnings.simplefilter("ignore")
programs = []
while len(programs) < N:
    try:
        programs.append("\n".join(Gen().source()))
    except RecursionError:
        pass

def model(programs):
    """What the model makes of the programs."""
    answers = []
    while len(answers) < len(programs):
        with tempfile.TemporaryFile("w+") as f:
            f.write("".join(p + "\n====\n" for p in programs[len(answers):]))
            f.seek(0)
            r = subprocess.Popen(["lake", "env", "lean", "--run", "../tools/programs.lean.txt"], cwd=lean_dir, stdin=f,
                                 stdout=subprocess.PIPE, stderr=subprocess.PIPE, start_new_session=True)
            out, wait = b"", 300
            while select.select([r.stdout], [], [], wait)[0]:
                part = os.read(r.stdout.fileno(), 65536)
                out += part
                wait = 20
                if not part:
                    break
            else:
                os.killpg(r.pid, signal.SIGKILL)
            err = r.stderr.read()
            r.wait()
        assert b"error:" not in out + err, (out + err).decode()
        answers += out.decode().splitlines()
        if r.returncode:
            answers.append("too long")
    return answers


def verdict(p, a):
    if a in ("stuck", "noparse", "too long"):
        return a
    b = python(p)
    signal.alarm(0)
    if b == "syntax":
        return "not Python"
    if "63,100,101,116,97,105,108,63" in a or "deep" in a or "deep" in b:
        return "depends on the text of a codec error"
    if a == b:
        return "raised" if a[0] == "!" else "returned"
    return "DIFFERENT"


def shrink(p):
    """Leave out lines and blocks as long as the answers differ."""
    while True:
        ls = p.split("\n")
        depth = lambda l: len(l) - len(l.lstrip())
        cands = []
        for i in range(len(ls)):
            j = i + 1
            while j < len(ls) and depth(ls[j]) > depth(ls[i]) and ls[j]:
                j += 1
            cands.append("\n".join(ls[:i] + ls[j:]))
            if j > i + 1:
                cands.append("\n".join(ls[:i] + [l[4:] for l in ls[i + 1:j]] + ls[j:]))
        for c, a in zip(cands, model(cands)):
            if verdict(c, a) == "DIFFERENT":
                p = c
                break
        else:
            return p


count = collections.Counter()
shown = 0
for p, a in zip(programs, model(programs)):
    v = verdict(p, a)
    count[v] += 1
    if v == "DIFFERENT" and shown < 5:
        shown += 1
        p = shrink(p)
        print(p, "\n--- model:", model([p])[0][:300], "\n--- here: ", python(p)[:300], "\n")
print(dict(count))
sys.exit(1 if count["DIFFERENT"] else 0)
