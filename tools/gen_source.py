#!/usr/bin/env python3
"""Print the functions of /repo/iso8583/{decoder,encoder,tools}.py, and specs.py, as Lean data.

The files are parsed with `ast.parse`; nothing of them is executed.

    gen_source.py          write lean/Verif/Source/{Names,Spellings,Code,SpecsCode,Text}.lean
    gen_source.py --check  compare instead of writing; exit status 1 when they differ

Dropped: doc strings, type annotations, imports, module assignments no function refers to, and
`from None` of a raise statement.
"""
import ast
import pathlib
import sys

REPO = pathlib.Path("/repo/iso8583")
OUT = pathlib.Path(__file__).resolve().parent.parent / "lean/Verif/Source"
# names the semantics needs besides those in the files
EXTRA = "KeyError IndexError UnicodeError UnboundLocalError".split()
names = set(EXTRA)


def ident(x):
    assert x.isidentifier() and x.isascii(), x
    names.add("underscore" if x == "_" else x)
    return "." + ("underscore" if x == "_" else x)


def string(s):
    out = []
    for c in s:
        if c in '"\\':
            out.append("\\" + c)
        elif c == "\n":
            out.append("\\n")
        else:
            assert 32 <= ord(c) < 127, repr(c)
            out.append(c)
    return 'py"' + "".join(out) + '"'


def lst(xs):
    return "[" + ", ".join(xs) + "]"


BIN = {
    ast.Add: "add", ast.Sub: "sub", ast.Mult: "mul", ast.FloorDiv: "floordiv", ast.Mod: "mod",
    ast.LShift: "shl", ast.RShift: "shr", ast.BitAnd: "band", ast.BitOr: "bor",
}
CMP = {
    ast.Eq: "eq", ast.NotEq: "ne", ast.Lt: "lt", ast.LtE: "le", ast.Gt: "gt", ast.GtE: "ge",
    ast.In: "mem", ast.NotIn: "notMem", ast.Is: "is", ast.IsNot: "isNot",
}


def expr(e):
    if e is None:
        return ".none"
    t = type(e)
    if t is ast.Name:
        return f"(.name {ident(e.id)})"
    if t is ast.Constant:
        v = e.value
        if v is None:
            return ".none"
        if v is True or v is False:
            return f"(.bool {str(v).lower()})"
        if type(v) is int:
            return f"(.int {v})"
        if type(v) is str:
            return f"(.str {string(v)})"
        if type(v) is bytes:
            return f"(.bytes {lst(map(str, v))})"
    if t is ast.JoinedStr:
        parts = []
        for p in e.values:
            if type(p) is ast.FormattedValue:
                assert p.conversion == -1 and p.format_spec is None
                p = p.value
            parts.append(expr(p))
        return f"(.fstr {lst(parts)})"
    if t is ast.Attribute:
        return f"(.attr {expr(e.value)} {ident(e.attr)})"
    if t is ast.Subscript:
        if type(e.slice) is ast.Slice:
            assert e.slice.step is None
            return f"(.slice {expr(e.value)} {expr(e.slice.lower)} {expr(e.slice.upper)})"
        return f"(.sub {expr(e.value)} {expr(e.slice)})"
    if t is ast.BinOp:
        return f"(.bin .{BIN[type(e.op)]} {expr(e.left)} {expr(e.right)})"
    if t is ast.Compare:
        assert len(e.ops) == 1
        return f"(.cmp .{CMP[type(e.ops[0])]} {expr(e.left)} {expr(e.comparators[0])})"
    if t is ast.BoolOp:
        op = "and" if type(e.op) is ast.And else "or"
        assert len(e.values) == 2
        return f"(.{op} {expr(e.values[0])} {expr(e.values[1])})"
    if t is ast.UnaryOp:
        return f"(.{ {ast.Not: 'not', ast.USub: 'neg'}[type(e.op)] } {expr(e.operand)})"
    if t is ast.IfExp:
        return f"(.ite {expr(e.test)} {expr(e.body)} {expr(e.orelse)})"
    if t is ast.Call:
        args = lst(map(expr, e.args))
        kns = lst(ident(k.arg) for k in e.keywords)
        kvs = lst(expr(k.value) for k in e.keywords)
        if type(e.func) is ast.Name:
            return f"(.call {ident(e.func.id)} {args} {kns} {kvs})"
        if type(e.func) is ast.Attribute:
            return f"(.meth {expr(e.func.value)} {ident(e.func.attr)} {args} {kns} {kvs})"
    if t is ast.List:
        return f"(.list {lst(map(expr, e.elts))})"
    if t is ast.Tuple:
        return f"(.tuple {lst(map(expr, e.elts))})"
    if t is ast.Dict:
        return f"(.dict {lst(map(expr, e.keys))} {lst(map(expr, e.values))})"
    if t is ast.ListComp:
        r = f"(.yield {expr(e.elt)})"
        for g in reversed(e.generators):
            for c in reversed(g.ifs):
                r = f"(.when {expr(c)} {r})"
            r = f"(.loop {loopvars(g.target)} {expr(g.iter)} {r})"
        return f"(.comp {r})"
    raise NotImplementedError(ast.dump(e))


def loopvars(t):
    return lst([ident(t.id)] if type(t) is ast.Name else [ident(x.id) for x in t.elts])


def target(t):
    if type(t) is ast.Name:
        return f"(.name {ident(t.id)})"
    if type(t) is ast.Subscript:
        return f"(.sub {expr(t.value)} {expr(t.slice)})"
    if type(t) is ast.Attribute:
        return f"(.attr {expr(t.value)} {ident(t.attr)})"
    raise NotImplementedError(ast.dump(t))


def isdoc(s):
    return type(s) is ast.Expr and type(s.value) is ast.Constant


def block(ss, ind):
    ss = [s for s in ss if not isdoc(s)]
    if not ss:
        return "[]"
    pad = "\n" + " " * (ind + 2)
    return "[" + ",".join(pad + stmt(s, ind + 2) for s in ss) + "]"


def stmt(s, ind):
    t = type(s)
    if t is ast.Assign:
        assert len(s.targets) == 1
        tgt = s.targets[0]
        ts = tgt.elts if type(tgt) is ast.Tuple else [tgt]
        return f".assign {lst(map(target, ts))} {expr(s.value)}"
    if t is ast.AnnAssign:
        return f".assign [{target(s.target)}] {expr(s.value)}"
    if t is ast.AugAssign:
        return f".aug {target(s.target)} .{BIN[type(s.op)]} {expr(s.value)}"
    if t is ast.Expr:
        if type(s.value) is ast.Yield:
            return f".yield {expr(s.value.value)}"
        return f".expr {expr(s.value)}"
    if t is ast.If:
        return f".ite {expr(s.test)} {block(s.body, ind)} {block(s.orelse, ind)}"
    if t is ast.For:
        assert not s.orelse
        return f".loop {loopvars(s.target)} {expr(s.iter)} {block(s.body, ind)}"
    if t is ast.Try:
        assert not s.orelse and not s.finalbody
        hs = []
        for h in s.handlers:
            b = f"(some {ident(h.name)})" if h.name else "none"
            hs.append(f"\n{' ' * (ind + 2)}.mk {ident(h.type.id)} {b} {block(h.body, ind + 2)}")
        return f".attempt {block(s.body, ind)} [{','.join(hs)}]"
    if t is ast.Raise:
        return f".raise {expr(s.exc)}"
    if t is ast.Return:
        return f".ret {expr(s.value)}"
    raise NotImplementedError(ast.dump(s))


def assigned(body):
    """The names statements assign to, in the order of the text."""
    out = []
    for s in body:
        if type(s) is ast.Assign:
            t = s.targets[0]
            out += [x.id for x in (t.elts if type(t) is ast.Tuple else [t]) if type(x) is ast.Name]
        elif type(s) in (ast.AnnAssign, ast.AugAssign):
            out += [s.target.id] if type(s.target) is ast.Name else []
        elif type(s) is ast.If:
            out += assigned(s.body) + assigned(s.orelse)
        elif type(s) is ast.For:
            out += [x.id for x in ast.walk(s.target) if type(x) is ast.Name] + assigned(s.body)
        elif type(s) is ast.Try:
            out += assigned(s.body)
            for h in s.handlers:
                out += ([h.name] if h.name else []) + assigned(h.body)
        else:
            assert type(s) in (ast.Expr, ast.Raise, ast.Return), ast.dump(s)
    return out


def lean_name(x):
    parts = x.strip("_").split("_")
    return parts[0] + "".join(p.capitalize() for p in parts[1:])


def function(f, mod, cls=None, method=None):
    a = f.args
    assert not (a.vararg or a.kwarg or a.kwonlyargs or a.posonlyargs)
    params = [x.arg for x in a.args]
    body = [s for s in f.body if not isdoc(s)]
    locs = []
    for x in assigned(body):
        if x not in params and x not in locs:
            locs.append(x)
    gen = any(type(n) is ast.Yield for n in ast.walk(f))
    base = (lean_name(cls) + (method or "Init")) if cls else lean_name(f.name)
    base = base[0].lower() + base[1:]
    out = []
    end = f.end_lineno
    refs = []
    for i, s in enumerate(body, 1):
        out.append(f"/-- {mod}:{s.lineno}-{s.end_lineno}. -/")
        out.append(f"def {base}{i} : Stmt :=\n  {stmt(s, 2)}\n")
        refs.append(f"{base}{i}")
    out.append(f"/-- {mod}:{f.lineno}-{end} `{(cls + '.') if cls else ''}{f.name}`. -/")
    out.append(f"def {base}Def : Def :=")
    init = cls and not method
    kind = "true" if init else "false"
    out.append(
        f"  {{ name := {ident(cls if init else f.name)}, isClass := {kind}, isGen := {str(gen).lower()},\n"
        f"    params := {lst(map(ident, params))},\n"
        f"    defaults := {lst(map(expr, a.defaults))},\n"
        f"    locals := {lst(map(ident, locs))},\n"
        f"    body := {lst(refs)} }}\n"
    )
    return base + "Def", "\n".join(out)


def module(fn):
    tree = ast.parse((REPO / fn).read_text())
    text, fns, classes, mods = [], [], [], []
    used = {n.id for d in tree.body if type(d) in (ast.FunctionDef,) for s in d.body
            for n in ast.walk(s) if type(n) is ast.Name and type(n.ctx) is ast.Load}
    for d in tree.body:
        if type(d) is ast.FunctionDef:
            n, t = function(d, fn)
            fns.append(n)
            text.append(t)
        elif type(d) is ast.ClassDef:
            for m in d.body:
                if type(m) is ast.FunctionDef and m.name == "__init__":
                    n, t = function(m, fn, d.name)
                    classes.append(n)
                    text.append(t)
                if type(m) is ast.FunctionDef and m.name == "__reduce__":
                    text.append(function(m, fn, d.name, "Reduce")[1])
        elif type(d) in (ast.Assign, ast.AnnAssign):
            tg = d.target if type(d) is ast.AnnAssign else d.targets[0]
            b = tg
            while type(b) is ast.Subscript:
                b = b.value
            if b.id in used and b.id.startswith("_"):
                mods.append(d)
    base = fn[:-3]
    text.append(f"/-- {fn}: the module's own statements that its functions refer to. -/")
    text.append(f"def {base}Module : List Stmt := {block(mods, 0)}\n")
    text.append(f"/-- {fn}: functions in source order, then classes; each calls only later ones. -/")
    text.append(f"def {base}Defs : List Def :=\n  {lst(fns + classes)}\n")
    return "\n".join(text)


def specs():
    tree = ast.parse((REPO / "specs.py").read_text())
    out, refs = [], []
    for i, s in enumerate((s for s in tree.body if not isdoc(s)), 1):
        out.append(f"/-- specs.py:{s.lineno}-{s.end_lineno}. -/")
        d = s.value
        # one field a line
        vs = ",\n    ".join(expr(v) for v in d.values)
        out.append(f"def specs{i} : Stmt :=\n  .assign [{target(s.targets[0])}] (.dict {lst(map(expr, d.keys))} [\n    {vs}])\n")
        refs.append(f"specs{i}")
    out.append(f"/-- specs.py: the module's statements. -/\ndef specsModule : List Stmt := {lst(refs)}\n")
    return (
        "import Verif.Source.Syntax\n"
        "/-!\n# specs.py as data\n\n"
        "Written by `tools/gen_source.py` from the text of `/repo/iso8583`; do not edit.\n-/\n\n"
        "namespace Iso8583.Src\n\n" + "\n".join(out) + "\nend Iso8583.Src\n"
    )


def source_text():
    """The files, line by line and character by character."""
    out = []
    for mod in ("decoder", "encoder", "tools", "specs", "__init__"):
        fn = mod.strip("_")
        raw = (REPO / f"{mod}.py").read_text()
        assert raw.endswith("\n") and "\r" not in raw
        lines = raw[:-1].split("\n")
        parts = []
        for i in range(0, len(lines), 50):
            parts.append(f"{fn}Text{i // 50 + 1}")
            chunk = lines[i:i + 50]
            out.append(f"/-- {mod}.py, lines {i + 1} to {i + len(chunk)}. -/")
            out.append(f"def {parts[-1]} : List Str := [\n  " + ",\n  ".join(map(string, chunk)) + "]\n")
        out.append(f"/-- The lines of {mod}.py. -/")
        out.append(f"def {fn}Text : List Str :=\n  " + " ++ ".join(parts) + "\n")
    return (
        "import Verif.Model.Py\n"
        "/-!\n# The text of the sources\n\n"
        "Written by `tools/gen_source.py`: the lines of `/repo/iso8583`, as they are; do not edit.\n-/\n\n"
        "namespace Iso8583.Src\n\n" + "\n".join(out) + "\nend Iso8583.Src\n"
    )


def main():
    body = [module(f) for f in ("decoder.py", "encoder.py", "tools.py")]
    code = (
        "import Verif.Source.Syntax\n"
        "/-!\n# The functions of decoder.py, encoder.py and tools.py as data\n\n"
        "Written by `tools/gen_source.py` from the text of `/repo/iso8583`; do not edit.\n-/\n\n"
        "namespace Iso8583.Src\n\n" + "\n".join(body) + "\nend Iso8583.Src\n"
    )
    spec_code = specs()
    ns = sorted(names)
    rows, row = [], "  "
    for n in ns:
        if len(row) + len(n) > 96:
            rows.append(row.rstrip())
            row = "  "
        row += f"| {n} "
    rows.append(row.rstrip())
    nm = (
        "/-!\n# Identifiers of the source\n\n"
        "Written by `tools/gen_source.py` from the text of `/repo/iso8583`; do not edit.\n-/\n\n"
        "namespace Iso8583.Src\n\n"
        "/-- Every identifier in the functions of decoder.py, encoder.py and tools.py, and in specs.py. -/\n"
        "inductive Ident\n" + "\n".join(rows) + "\nderiving DecidableEq, Repr\n\nend Iso8583.Src\n"
    )
    spell = (
        "import Verif.Source.Syntax\n"
        "/-!\n# How the identifiers are spelled\n\n"
        "Written by `tools/gen_source.py` from the text of `/repo/iso8583`; do not edit.\n-/\n\n"
        "namespace Iso8583.Src\n\n"
        "/-- The spelling of every identifier. -/\n"
        "def spellings : List (Str × Ident) := [\n  "
        + ",\n  ".join(f'(py"{"_" if n == "underscore" else n}", .{n})' for n in ns)
        + "]\n\nend Iso8583.Src\n"
    )
    text = source_text()
    bad = 0
    for fn, txt in (("Names.lean", nm), ("Code.lean", code), ("SpecsCode.lean", spec_code),
                    ("Spellings.lean", spell), ("Text.lean", text)):
        p = OUT / fn
        if "--check" in sys.argv:
            same = p.read_text() == txt
            bad += not same
            print(fn, "matches the text of /repo" if same else "DIFFERS from the text of /repo")
        else:
            p.write_text(txt)
    sys.exit(1 if bad else 0)


main()
