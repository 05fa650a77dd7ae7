"""Run the Lean model on the test data of /repo: the conformance tables of unic/segment, unic/normal and
unic/ucd/segment, and the unit tests of unic/idna/src/process.rs and unic/bidi/src/bidi_info.rs (transcribed below).

This is a check of the model, not a proof: it is run with the interpreter, outside the kernel.
Usage: python3 tools/conformance.py   (after lake build)"""
import re, subprocess, os, sys, shutil
R = "/repo/unic"
HERE = os.path.dirname(os.path.abspath(__file__))
nums = lambda s: ",".join(str(ord(c)) for c in s)
many = lambda l: "|".join(nums(s) for s in l)

def rsv(path):
    """a table of tuples of strings and slices of strings"""
    t = re.sub(r"^\s*//.*$", "", open(path, encoding="utf-8").read(), flags=re.M)
    t = re.sub(r"\\u\{([0-9a-fA-F]+)\}", lambda m: "\\U%08x" % int(m.group(1), 16), t)
    t = t.replace("Some(", "(").replace("&[", "[")
    return eval(t)

out = []
for f in ["tables/grapheme_cluster_break_test_data.rsv", "extra_grapheme_cluster_break_test_data.rsv"]:
    for t, ps, qs in rsv(f"{R}/segment/tests/{f}"):
        out.append(f"G;{nums(t)};{many(ps)};{many(qs if qs is not None else ps)}")
for f in ["tables/word_break_test_data.rsv", "extra_word_break_test_data.rsv"]:
    for t, ps in rsv(f"{R}/segment/tests/{f}"):
        out.append(f"W;{nums(t)};{many(ps)}")
# unit tests of unic/segment/src/grapheme.rs
out.append("G;%s;%s;%s" % (nums("\n\r\n\r"), many(["\n", "\r\n", "\r"]), many(["\n", "\r\n", "\r"])))
g = ["a\u0310", "e\u0301", "o\u0308\u0332", "\r\n"]
out.append("G;%s;%s;%s" % (nums("".join(g)), many(g), many(g)))
for k, f in [("G", "grapheme_cluster_break"), ("W", "word_break")]:
    names = dict(re.findall(r"([A-Za-z]+) \{\s*abbr => (\w+),", open(f"{R}/ucd/segment/src/{f}.rs").read()))
    inv = {v: n for n, v in names.items()}
    longs = {m[1]: m[0] for m in re.findall(r"([A-Za-z]+) \{\s*abbr => \w+,\s*long => (\w+),", open(f"{R}/ucd/segment/src/{f}.rs").read())}
    for c, v in re.findall(r"\('\\u\{([0-9a-f]+)\}', (\w+)\)", open(f"{R}/ucd/segment/tests/tables/{f}_test_data.rsv").read()):
        v = {"Extend_FE": "Extend", "Format_FE": "Format", "ZWJ_FE": "ZWJ"}.get(v, v)
        out.append(f"C;{k};{int(c, 16)};Data.{'GraphemeClusterBreak' if k == 'G' else 'WordBreak'}.{longs.get(v) or inv.get(v) or v}")
for row in rsv(f"{R}/normal/tests/tables/conformance_tests_data.rsv"):
    out.append("N;" + many(row))

# unic/idna/src/process.rs, L360-477
E = None
def idna(v, t, r): out.append("I;%d;%s;%s" % (v, nums(t), "err" if r is E else nums(r)))
for t in ["xn--", "xn---", "xn-----", "xn--.", "xn--...", ".xn--", "...xn--", "xn--.xn--", "xn--.example.org",
          "\U00011C3A", "\u850f.\U00011C3A", "\u850f\uff61\U00011C3A", "0a.\u05D0", "0à.\u05D0", "xn--0ca24w"]:
    idna(1, t, E)
for t, r in [("xn--", ""), ("xn---", E), ("xn-----", E), ("xn--.", "."), ("xn--...", "..."), (".xn--", "."), ("...xn--", "..."),
             ("xn--.xn--", "."), ("xn--.example.org", ".example.org")]:
    idna(0, t, r)
for t, r in [("abc", "abc"), ("123", "123"), ("\u05d0\u05d1\u05bc\u05d2", "xn--kdb3bdf"), ("\u0627\u0628\u062c", "xn--mgbcm"),
             ("abc.\u0627\u0628\u062c", "abc.xn--mgbcm"), ("\u05d0\u05d1\u05bc\u05d2.\u0627\u0628\u062c", "xn--kdb3bdf.xn--mgbcm")]:
    idna(1, t, r)

# unic/bidi/src/bidi_info.rs: test_bidi_info, test_reorder_line
def bidi(d, t, l): out.append("B;%d;%s;%s" % (d, nums(t), ",".join(map(str, l))))
bidi(0, "abc123", [0] * 6)
bidi(0, "abc אבג", [0, 0, 0, 0, 1, 1, 1, 1, 1, 1])
bidi(1, "abc אבג", [2, 2, 2, 1, 1, 1, 1, 1, 1, 1])
bidi(0, "אבג abc", [1, 1, 1, 1, 1, 1, 0, 0, 0, 0])
bidi(2, "אבג abc", [1, 1, 1, 1, 1, 1, 1, 2, 2, 2])
bidi(0, "غ2ظ א2ג", [1, 1, 2, 1, 1, 1, 1, 1, 2, 1, 1])
bidi(2, "a א.\nג", [0, 0, 1, 1, 0, 0, 1, 1])
src = open(f"{R}/bidi/src/bidi_info.rs", encoding="utf-8").read()
body = src[src.index("fn test_reorder_line"):src.index("fn reordered_levels_for_paras")]
body = re.sub(r"//.*", "", body)
un = lambda s: re.sub(r"\\u\{([0-9a-fA-F]+)\}", lambda m: chr(int(m.group(1), 16)), s).replace("\\n", "\n")
tests = re.findall(r'reorder_paras\("((?:[^"\\]|\\.)*)"\),\s*vec!\[(.*?)\]\s*\)', body, flags=re.S)
# `]` occurs in one of the texts
tests = [(t, re.findall(r'"((?:[^"\\]|\\.)*)"', p)) for t, p in re.findall(r'reorder_paras\("((?:[^"\\]|\\.)*)"\),\s*vec!\[((?:\s*"(?:[^"\\]|\\.)*",?)*)\]', body)]
for t, ps in tests:
    out.append("R;%s;%s" % (nums(un(t)), many([un(p) for p in ps])))

W = "/tmp/conformance"
os.makedirs(W, exist_ok=True)
open(f"{W}/data", "w").write("\n".join(out) + "\n")
shutil.copy(f"{HERE}/conformance/Main.txt", f"{W}/Main.lean")
print({k: sum(1 for l in out if l[0] == k) for k in "GWCNIBR"}, "reorder", len(tests))
sys.exit(subprocess.call(["lake", "env", "lean", "--run", f"{W}/Main.lean", f"{W}/data"], cwd=f"{HERE}/../lean"))
