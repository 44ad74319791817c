"""Compare the Python primitives of Model/Py.lean, Model/Tools.lean and Model/Codecs.lean, and the
readers of literals and JSON of Spec/Literal.lean and Spec/Json.lean, with the interpreter running
this script, on random inputs.  Only built-ins are called, no code of
/repo.  Needs a finished `lake build`.  Usage: python3 tools/check_runtime.py [count] [seed]
"""
import ast, binascii, json, pathlib, random, subprocess, sys, tempfile

N = int(sys.argv[1]) if len(sys.argv) > 1 else 300
rng = random.Random(int(sys.argv[2]) if len(sys.argv) > 2 else 1)
lean_dir = pathlib.Path(__file__).resolve().parent.parent / "lean"


def lit(x):
    if x is None:
        return "none"
    if isinstance(x, bool):
        return "true" if x else "false"
    if isinstance(x, int):
        return f"({x})"
    if isinstance(x, str):
        return "([" + ", ".join(str(ord(c)) for c in x) + "] : Str)"
    if isinstance(x, (bytes, bytearray)):
        return "([" + ", ".join(map(str, x)) + "] : Bytes)"
    if isinstance(x, tuple):
        return "(some " + lit(x[0]) + ")"
    if isinstance(x, dict):
        return "([" + ", ".join(f"({lit(k)}, {lit(v)})" for k, v in x.items()) + "] : Dict Str Str)"
    if isinstance(x, list):
        return "[" + ", ".join(map(lit, x)) + "]"
    raise TypeError(x)


def attempt(f, *a):
    try:
        return (f(*a),)
    except Exception:
        return None


def text(alphabet, hi=8):
    return "".join(rng.choice(alphabet) for _ in range(rng.randrange(hi)))


def data(hi=8):
    return bytes(rng.randrange(256) for _ in range(rng.randrange(hi)))


LATIN = [chr(c) for c in range(256)]
MIXED = LATIN + [chr(c) for c in (0x100, 0x7FF, 0x800, 0xD7FF, 0xD800, 0xDFFF, 0xE000, 0xFFFF, 0x10000, 0x10FFFF)]
INTISH = list("0123456789") * 3 + list("_+- \t\n\x0b\x0c\r\x1c\x1f\x85\xa0\x00a\xb2\xbc")
HEXISH = list("0123456789abcdefABCDEF") * 2 + list(" \t\n\x0b\x0cgG\x1c\xa0")
REPRISH = list("'\"\\ab \t\n\r\x00\x1f\x7f\x80\xa0\xad\xe9\xff")
UTF8ISH = [0x00, 0x41, 0x7F, 0x80, 0x8F, 0x90, 0x9F, 0xA0, 0xBF, 0xC0, 0xC1, 0xC2, 0xDF, 0xE0, 0xE1, 0xED, 0xEF, 0xF0, 0xF1, 0xF4, 0xF5, 0xFF]

JSONISH = list("\"\\/bfnrt ab\n\t\x00\x1f\x7f\xe9") + ["\u2028", "\ud800", "\udbff", "\udc00", "\udfff", "\U0001f600"]

tests = []


def texts_only(t):
    d = json.loads(t)
    if isinstance(d, dict) and all(isinstance(v, str) for v in d.values()):
        return d
    raise ValueError


def pieces(x):
    cuts = sorted(rng.randrange(len(x) + 1) for _ in range(rng.randrange(3)))
    return [x[i:j] for i, j in zip([0] + cuts, cuts + [len(x)])]


def damage(t):
    i = rng.randrange(len(t) + 1)
    return rng.choice([t, t[:i] + t[i + 1:], t[:i] + rng.choice("\"\\{}:, u0aDd8\n") + t[i:], t.replace(" ", "\n"), t.replace(",", " ,")])


def add(lean, want):
    tests.append((lean, lit(want)))


for _ in range(N):
    t = text(INTISH)
    add(f"pyInt cpython {lit(t)}", attempt(int, t))
    t = text(LATIN, 3)
    add(f"pyInt cpython {lit(t)}", attempt(int, t))
    add(f"isNumeric cpython {lit(t)}", t.isnumeric())
    t = text(HEXISH, 7)
    add(f"fromHex {lit(t)}", attempt(bytes.fromhex, t))
    add(f"a2bHex {lit(t)}", attempt(binascii.a2b_hex, t))
    t = text(REPRISH)
    add(f"reprStr cpython {lit(t)}", repr(t))
    t = text(LATIN)
    add(f"reprStr cpython {lit(t)}", repr(t))
    b = text(REPRISH).encode("latin-1")
    add(f"reprBytes {lit(b)}", repr(b))
    b = data()
    add(f"reprBytes {lit(b)}", repr(b))
    add(f"bytesHex {lit(b)}", b.hex())
    add(f"upperAscii (bytesHex {lit(b)})", b.hex().upper())
    add(f"fromBytesBE {lit(b)}", int.from_bytes(b, "big", signed=False))
    i, j = rng.randrange(10), rng.randrange(-10, 12)
    add(f"slice {lit(b)} {i} {lit(j)}", b[i:j])
    n, w = rng.choice([rng.randrange(300), rng.randrange(70000), 2**24 - 1, 2**24]), rng.randrange(1, 5)
    add(f"toBytesBE {n} {w}", attempt(lambda: n.to_bytes(w, "big", signed=False)))
    add(f"natStr {n}", str(n))
    add(f"intStr {lit(-n)}", str(-n))
    add(f"zeroPad {w} {n}", "{:0{w}d}".format(n, w=w))
    d = text("abc\n", 5)
    k = rng.randrange(6)
    add(f"ljust {k} {lit(d)}", "{: <{k}}".format(d, k=k))
    add(f"ljust {k} ({lit(d)}.take {k})", "{desc: <{k}.{k}}".format(desc=d, k=k))
    xs = [rng.randrange(-3, 4) for _ in range(rng.randrange(6))]
    add(f"(sortedBy Prod.snd ({lit(xs)}.zipIdx.map fun p => (p.2, p.1))).map Prod.fst",
        [i for i, _ in sorted(enumerate(xs), key=lambda p: p[1])])
    for name in ("ascii", "latin-1", "cp500", "cp037", "utf-8"):
        t = text(MIXED if rng.randrange(2) else LATIN[:128], 4)
        add(f"(strEncode cpython py\"{name}\" {lit(t)}).toOption", attempt(t.encode, name))
        b = bytes(rng.choice(UTF8ISH) for _ in range(rng.randrange(6))) if name == "utf-8" else data(5)
        add(f"(bytesDecode cpython py\"{name}\" {lit(b)}).toOption", attempt(b.decode, name))
    d = {text(JSONISH, 4): text(JSONISH) for _ in range(rng.randrange(4))}
    add(f"jsonDumps {lit(d)}", json.dumps(d))
    t = damage(json.dumps(d))
    add(f"jsonLoads {lit(t)}", attempt(texts_only, t))
    t = damage(json.dumps(d, ensure_ascii=False))
    add(f"jsonLoads {lit(t)}", attempt(texts_only, t))
    t = '{"a": "' + "".join(rng.choice(["\\ud83d", "\\ude00", "\\uD83D", "\\uDE00", "\\u", "a", "\\\\"]) for _ in range(rng.randrange(5))) + '"}'
    add(f"jsonLoads {lit(t)}", attempt(texts_only, t))
    t = "\n     ".join(map(repr, pieces(text(REPRISH + ["\u0100", "\ud800", "\U000e0001"]))))
    add(f"(evalLiterals {lit(t)}).bind (fun v => match v with | .str s => some s | _ => none)", (ast.literal_eval("(" + t + ")"),))
    t = "\n     ".join(map(repr, pieces(data())))
    add(f"(evalLiterals {lit(t)}).bind (fun v => match v with | .bytes s => some s | _ => none)", (ast.literal_eval("(" + t + ")"),))
for c in range(256):
    add(f"cpython.isNumericCp {c}", chr(c).isnumeric())
    add(f"cpython.isSpaceCp {c}", chr(c).isspace())
    add(f"cpython.isPrintableCp {c}", chr(c).isprintable())
    for name in ("ascii", "latin-1", "cp500", "cp037"):
        add(f"(bytesDecode cpython py\"{name}\" {lit(bytes([c]))}).toOption", attempt(bytes([c]).decode, name))
for digits in (4299, 4300, 4301):
    add(f"pyInt cpython (List.replicate {digits} 48)", attempt(int, "0" * digits))

bad = 0
for start in range(0, len(tests), 500):
    chunk = tests[start:start + 500]
    src = "import Verif.Model.Tools\nimport Verif.Model.Codecs\nimport Verif.Model.Specs\nimport Verif.Spec.Json\nopen Iso8583\nset_option maxRecDepth 100000\n"
    src += "".join(f'#eval if ({a}) == ({b}) then "same" else "DIFFERS {start + i}"\n' for i, (a, b) in enumerate(chunk))
    with tempfile.NamedTemporaryFile("w", suffix=".lean", delete=False) as f:
        f.write(src)
    out = subprocess.run(["lake", "env", "lean", f.name], cwd=lean_dir, text=True, stdout=subprocess.PIPE, stderr=subprocess.STDOUT).stdout
    pathlib.Path(f.name).unlink()
    same = out.count('"same"')
    if same != len(chunk):
        bad += len(chunk) - same
        for line in out.splitlines():
            if '"same"' not in line:
                print(line[:300])
                if "DIFFERS" in line:
                    print("   ", tests[int(line.split("DIFFERS ")[1].split('"')[0])])
print(len(tests), "comparisons,", bad, "different")
sys.exit(bool(bad))
