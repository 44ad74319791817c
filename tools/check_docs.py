"""Replay the examples in the documentation and the docstrings against the Lean model.

README.rst, docs/*.rst and the docstrings in /repo/iso8583 are read as text; the interactive
examples found in them are evaluated by the evaluator of check_tests.py, with encode, decode and
pp of the model, and the printed results are compared.

    python3 tools/check_docs.py        (after `lake build` in lean/)
"""
import ast, copy, doctest, json, pathlib, pprint, sys
import check_tests as t
from types import SimpleNamespace as NS

# An example that contradicts the code it documents: the length of an LLVAR field with
# len_enc 'b' is shown as decimal 15, which is what len_enc 'bcd' gives.
STALE = {("howto.rst", "bytearray(b'02004000000000000000\\x15\\x12\\x12\\x00\\x00\\x00\\x02\\x12\\x10')\n"):
         "bytearray(b'02004000000000000000\\x0f\\x12\\x12\\x00\\x00\\x00\\x02\\x12\\x10')\n"}


def show(text): t.stdout.text += text + "\n"


def encode(doc, spec):
    raw, enc = t.encode(doc, spec)
    return bytearray(raw), enc


t.METHODS |= {"pop", "issubset"}
t.GLOBALS.update(
    pprint=NS(pp=lambda x: show(pprint.pformat(x, sort_dicts=False)), pprint=lambda x: show(pprint.pformat(x))),
    json=NS(dumps=json.dumps, loads=json.loads), frozenset=frozenset)
t.GLOBALS["iso8583"].encode = encode

examples = bad = stale = 0
paths = [pathlib.Path("/repo/README.rst"), *sorted(pathlib.Path("/repo/docs").glob("*.rst")), *sorted(pathlib.Path("/repo/iso8583").glob("*.py"))]
for path in paths:
    texts = [path.read_text()]
    if path.suffix == ".py":
        nodes = [n for n in ast.walk(ast.parse(texts[0])) if isinstance(n, (ast.Module, ast.ClassDef, ast.FunctionDef))]
        texts = [d for n in nodes if (d := ast.get_docstring(n))]
    for text in texts:
        scope, specs = t.Scope({}, {}), copy.deepcopy(t.SPECS)
        for ex in doctest.DocTestParser().get_examples(text):
            examples += 1
            t.stdout.text = ""
            for st in ast.parse(ex.source).body:
                match st:
                    case ast.Import(): pass
                    case ast.ImportFrom(module="iso8583.specs", names=[a]): scope.v[a.asname or a.name] = specs[a.name]
                    case ast.Expr():
                        x = scope.ev(st.value)
                        if x is not None: show(repr(x))
                    case _: scope.run([st])
            want = ex.want
            if (path.name, want) in STALE:
                stale += 1
                want = STALE[path.name, want]
            if t.stdout.text != want:
                bad += 1
                print(path, ex.source, "expected", repr(want), "got", repr(t.stdout.text))
t.model.stdin.close()
print(f"{examples} examples, {t.calls} calls of the model, {stale} known to be out of date, {bad} failed")
sys.exit(bool(bad))
