"""Compare Model/Specs.lean with the literals in /repo/iso8583/specs.py.

Both files are read as text: specs.py is parsed with `ast`, never imported.
"""
import ast, pathlib, re, sys

here = pathlib.Path(__file__).resolve().parent.parent
py = ast.parse(pathlib.Path("/repo/iso8583/specs.py").read_text())
want = {}
for node in py.body:
    target = node.targets[0] if isinstance(node, ast.Assign) else getattr(node, "target", None)
    if isinstance(target, ast.Name) and isinstance(node.value, ast.Dict):
        want[target.id] = list(ast.literal_eval(node.value).items())

lean = (here / "lean/Verif/Model/Specs.lean").read_text()
NAMES = {"dataEnc": "data_enc", "lenEnc": "len_enc", "lenType": "len_type", "maxLen": "max_len",
         "lenCount": "len_count", "leftPad": "left_pad", "rightPad": "right_pad", "desc": "desc"}
have = {}
for name, body in re.findall(r"^def (\w+) : Spec := \[\n(.*?)\]$", lean, re.M | re.S):
    entries = []
    for line in body.strip().split("\n"):
        m = re.fullmatch(r'\s*\(py"(\w+)", \{ (.*) \}\),?', line)
        assert m, line
        fields = {}
        for k, v in re.findall(r'(\w+) := ((?:some )?py"[^"]*"|-?\d+)', m.group(2)):
            v = v.replace("some ", "")
            fields[NAMES[k]] = v[3:-1] if v.startswith('py"') else int(v)
        entries.append((m.group(1), fields))
    have[name] = entries

bad = 0
for py_name, lean_name in (("default", "defaultSpec"), ("default_ascii", "defaultAsciiSpec")):
    same = want[py_name] == have[lean_name]
    print(py_name, len(want[py_name]), "entries", "same" if same else "DIFFERENT")
    bad |= not same
sys.exit(bad)
