"""Replay the project's own tests against the Lean model.

The files in /repo/tests and /repo/iso8583/specs.py are read as text and parsed with `ast`;
nothing of /repo is imported or executed.  The small evaluator below walks the test functions
and sends every call of encode, decode and pp to the model (replay.lean.txt).

    python3 tools/check_tests.py        (after `lake build` in lean/)
"""
import ast, copy, json, pathlib, re, subprocess, sys
from types import SimpleNamespace as NS

here = pathlib.Path(__file__).resolve().parent.parent
model = subprocess.Popen(["lake", "env", "lean", "--run", "../tools/replay.lean.txt"], cwd=here / "lean",
                         stdin=subprocess.PIPE, stdout=subprocess.PIPE, text=True)
calls = 0


def ask(**request):
    global calls
    calls += 1
    model.stdin.write(json.dumps(request) + "\n")
    model.stdin.flush()
    answer = json.loads(model.stdout.readline())
    assert "bad" not in answer, answer
    return answer


def cps(t): return [ord(c) for c in t]
def txt(l): return "".join(map(chr, l))


class Raised(Exception):
    """An exception of the model: class name and attributes."""
    def __init__(self, kind, **attrs):
        super().__init__(kind, attrs)
        self.kind, self.obj = kind, NS(**attrs)


def spec_json(spec):
    return [[cps(k), {p: cps(x) if isinstance(x, str) else x for p, x in f.items()}] for k, f in spec.items()]


def key_json(k): return ["str", cps(k)] if isinstance(k, str) else ["obj", cps(repr(k))]


def val_json(v):
    if isinstance(v, str): return ["str", cps(v)]
    if isinstance(v, (bytes, bytearray)): return ["bytes", list(v)]
    return ["sized", len(v)] if hasattr(v, "__len__") else ["unsized", None]


def dec_dict(l): return {txt(k): txt(v) for k, v in l}
def enc_dict(l): return {txt(k): {"len": bytes(a), "data": bytes(b)} for k, a, b in l}


def back(doc, l):
    """The caller's dict as the model leaves it; untouched values stay the same objects."""
    keys = {json.dumps(key_json(k)): (k, v) for k, v in doc.items()}
    out = {}
    for k, v in l:
        old = keys.get(json.dumps(k))
        new = txt(v[1]) if v[0] == "str" else bytes(v[1]) if v[0] == "bytes" else None
        out[old[0] if old else txt(k[1])] = old[1] if old and val_json(old[1]) == v else new
    return out


def decode(s, spec):
    kind = type(s).__name__
    arg = [kind, list(s)] if isinstance(s, (bytes, bytearray)) else ["other", cps(kind)]
    a = ask(op="decode", spec=spec_json(spec), s=arg)
    if "ok" in a:
        return dec_dict(a["ok"][0]), enc_dict(a["ok"][1])
    if a["exc"] == "DecodeError":
        raise Raised("DecodeError", doc_dec=dec_dict(a["dec"]), doc_enc=enc_dict(a["enc"]), msg=txt(a["msg"]),
                     field=txt(a["field"]), pos=a["pos"], args=(txt(a["text"]),), s=s)
    text = txt(a["text"])
    if a["exc"] == "TypeError":
        text = f"Encoded ISO8583 data must be bytes or bytearray, not {text}"
    raise Raised(a["exc"], args=(text,))


def encode(doc, spec):
    kind = type(doc).__name__
    arg = ["dict", [[key_json(k), val_json(v)] for k, v in doc.items()]] if isinstance(doc, dict) else ["other", cps(kind)]
    a = ask(op="encode", spec=spec_json(spec), doc=arg)
    if isinstance(doc, dict):
        new = back(doc, a["doc"])
        doc.clear()
        doc.update(new)
    if "ok" in a:
        return bytes(a["ok"][0]), enc_dict(a["ok"][1])
    if a["exc"] == "EncodeError":
        raise Raised("EncodeError", doc_dec=doc, doc_enc=enc_dict(a["enc"]), msg=txt(a["msg"]), field=txt(a["field"]),
                     args=(txt(a["text"]),))
    text = txt(a["text"])
    if not isinstance(doc, dict):
        text = f"Decoded ISO8583 data must be dict, not {text}"
    raise Raised(a["exc"], args=(text,))


class Out:
    def __init__(self): self.text = ""
    def getvalue(self): return self.text
    def readouterr(self):
        text, self.text = self.text, ""
        return NS(out=text)


stdout = Out()


def pp(doc, spec, desc_width=30, stream=None, line_width=80):
    def val(v):
        if isinstance(v, str): return ["str", cps(v)]
        if isinstance(v, bytes): return ["bytes", list(v)]
        if isinstance(v, dict) and all(isinstance(x, bytes) for x in v.values()):
            return ["dict", {k: list(x) for k, x in v.items()}]
        if isinstance(v, dict):   # an entry whose data is another object prints like that object
            assert not v.get("len") and "data" in v, v
            return val(v["data"])
        return ["other", cps(repr(v))]
    a = ask(op="pp", spec=spec_json(spec), doc=[[key_json(k), val(v)] for k, v in doc.items()],
            desc_width=int(desc_width), line_width=int(line_width))
    (stream or stdout).text += txt(a["ok"] if "ok" in a else a["out"])
    if "exc" in a:
        raise Raised(a["exc"], args=(txt(a["text"]),))


def wrap(obj, width):
    tag = "str" if isinstance(obj, str) else "bytes"
    return [txt(x) for x in ask(op="wrap", spec=[], obj=[tag, list(obj) if tag == "bytes" else cps(obj)], width=width)["ok"]]


SPECS = {}
for node in ast.parse(pathlib.Path("/repo/iso8583/specs.py").read_text()).body:
    target = node.targets[0] if isinstance(node, ast.Assign) else getattr(node, "target", None)
    if isinstance(target, ast.Name) and isinstance(node.value, ast.Dict):
        SPECS[target.id] = ast.literal_eval(node.value)

GLOBALS = dict(
    iso8583=NS(encode=encode, decode=decode, pp=pp, specs=NS(**SPECS), DecodeError="DecodeError", EncodeError="EncodeError"),
    copy=NS(deepcopy=copy.deepcopy), pickle=NS(dumps=lambda x: x, loads=lambda x: x), StringIO=Out, TypeError="TypeError",
    KeyError="KeyError", ValueError="ValueError",
    _wrap_bytes_repr=wrap, _wrap_str_repr=wrap, set=set, str=str, bytearray=bytearray, bytes=bytes, sorted=sorted, int=int,
    range=range, len=len, print=lambda *a: setattr(stdout, "text", stdout.text + " ".join(map(str, a)) + "\n"))
METHODS = {"keys", "format", "zfill", "add", "split", "getvalue", "readouterr"}


class Return(Exception): pass
class Continue(Exception): pass
class Failed(Exception): pass


class Scope:
    def __init__(self, names, funcs): self.v, self.funcs = dict(names), funcs

    def ev(self, e):
        match e:
            case ast.Constant(): return e.value
            case ast.Name():
                if e.id in self.v: return self.v[e.id]
                if e.id in self.funcs: return lambda *a: call(self.funcs[e.id], self.funcs, dict(zip([x.arg for x in self.funcs[e.id].args.args], a)))
                return GLOBALS[e.id]
            case ast.Tuple(): return tuple(map(self.ev, e.elts))
            case ast.List(): return list(map(self.ev, e.elts))
            case ast.Set(): return set(map(self.ev, e.elts))
            case ast.Dict(): return {self.ev(k): self.ev(v) for k, v in zip(e.keys, e.values)}
            case ast.Slice(): return slice(*(None if x is None else self.ev(x) for x in (e.lower, e.upper, e.step)))
            case ast.Subscript(): return self.ev(e.value)[self.ev(e.slice)]
            case ast.UnaryOp(op=ast.USub()): return -self.ev(e.operand)
            case ast.Attribute():
                o = self.ev(e.value)
                if isinstance(o, NS): return getattr(o, e.attr)
                assert e.attr in METHODS, e.attr
                return getattr(o, e.attr)
            case ast.BinOp():
                a, b = self.ev(e.left), self.ev(e.right)
                match e.op:
                    case ast.Add(): return a + b
                    case ast.Mult(): return a * b
                    case ast.BitXor(): return a ^ b
            case ast.Compare(ops=[op]):
                a, b = self.ev(e.left), self.ev(e.comparators[0])
                match op:
                    case ast.Eq(): return a == b
                    case ast.In(): return a in b
                    case ast.IsNot(): return a is not b
            case ast.ListComp(generators=[ast.comprehension(target=ast.Name(id=n), ifs=[])]):
                out = []
                for x in self.ev(e.generators[0].iter):
                    inner = Scope({**self.v, n: x}, self.funcs)
                    out.append(inner.ev(e.elt))
                return out
            case ast.Call():
                return self.ev(e.func)(*map(self.ev, e.args), **{k.arg: self.ev(k.value) for k in e.keywords})
        raise NotImplementedError(ast.dump(e))

    def assign(self, t, x):
        match t:
            case ast.Name(): self.v[t.id] = x
            case ast.Subscript(): self.ev(t.value)[self.ev(t.slice)] = x
            case ast.Tuple():
                for a, b in zip(t.elts, x, strict=True): self.assign(a, b)
            case _: raise NotImplementedError(ast.dump(t))

    def run(self, body):
        for st in body:
            match st:
                case ast.Expr(): self.ev(st.value)
                case ast.Assign(targets=[t]): self.assign(t, self.ev(st.value))
                case ast.AnnAssign(): self.assign(st.target, self.ev(st.value))
                case ast.AugAssign(op=ast.Add()):
                    self.assign(st.target, self.ev(ast.BinOp(self.load(st.target), st.op, st.value)))
                case ast.Assert():
                    if not self.ev(st.test): raise Failed(st.lineno, ast.unparse(st.test))
                case ast.Return(): raise Return(self.ev(st.value))
                case ast.Continue(): raise Continue
                case ast.If(): self.run(st.body if self.ev(st.test) else st.orelse)
                case ast.For(orelse=[]):
                    for x in self.ev(st.iter):
                        self.assign(st.target, x)
                        try: self.run(st.body)
                        except Continue: pass
                case ast.Try(handlers=[h], orelse=[], finalbody=[]):
                    try: self.run(st.body)
                    except Raised as r:
                        if r.kind != self.ev(h.type): raise
                        self.v[h.name] = r.obj
                        self.run(h.body)
                case ast.With(items=[ast.withitem(context_expr=ast.Call() as c)]) if ast.unparse(c.func) == "pytest.raises":
                    try: self.run(st.body)
                    except Raised as r:
                        if r.kind != self.ev(c.args[0]): raise
                        for k in c.keywords:
                            assert k.arg == "match"
                            if not re.search(self.ev(k.value), r.obj.args[0]): raise Failed(st.lineno, r.obj.args[0])
                        if st.items[0].optional_vars is not None:
                            self.assign(st.items[0].optional_vars, NS(value=r.obj))
                    else: raise Failed(st.lineno, "nothing raised")
                case _: raise NotImplementedError(ast.dump(st))

    @staticmethod
    def load(t):
        t = copy.deepcopy(t)
        t.ctx = ast.Load()
        return t


def call(f, funcs, args):
    s = Scope(args, funcs)
    try: s.run(f.body)
    except Return as r: return r.args[0]


def main():
    tests = bad = 0
    for path in sorted(pathlib.Path("/repo/tests").glob("test_*.py")):
        tree = ast.parse(path.read_text())
        funcs = {n.name: n for n in tree.body if isinstance(n, ast.FunctionDef)}
        for f in funcs.values():
            if not f.name.startswith("test_"): continue
            rows = [{}]
            for d in f.decorator_list:
                assert ast.unparse(d.func) == "pytest.mark.parametrize"
                names = ast.literal_eval(d.args[0])
                rows = [{**r, **dict(zip(names, x, strict=True))} for r in rows for x in Scope({}, funcs).ev(d.args[1])]
            for r in rows:
                tests += 1
                stdout.text = ""
                if any(a.arg == "capsys" for a in f.args.args): r["capsys"] = stdout
                try: call(f, funcs, copy.copy(r))
                except (Failed, Raised) as e:
                    bad += 1
                    print(path.name, f.name, r, e)
    model.stdin.close()
    print(f"{tests} tests, {calls} calls of the model, {bad} failed")
    sys.exit(bool(bad))


if __name__ == "__main__":
    main()
