"""Edit one definition of the model in a scratch copy, rebuild the modules of the claim, and log what fails.

usage: mutate.py FILE.py [id ...]   (FILE.py defines M = [dict(id, file, old, new, definition, edit, claim, breaks, targets, witness?)])
The scratch copy is /tmp/mut; it is made from /verif/lean if absent.
A witness is Lean text that must compile against the edited model: it refutes an instance of the claim's theorem.
"""
import json, os, re, subprocess, sys, shutil, time, importlib.util
SRC, DST, LOG = "/verif/lean", "/tmp/mut", "/verif/seeded/LOG.jsonl"
KEY = re.compile(r"^(?:@\[[^\]]*\]\s*)?(?:private |protected |noncomputable |partial )*(theorem|lemma|def|abbrev|example|instance|structure|inductive)\s+(\S+)?")

def sh(cmd, cwd=DST, timeout=1500):
    try:
        p = subprocess.run(cmd, cwd=cwd, shell=True, capture_output=True, text=True, timeout=timeout)
        return p.returncode, p.stdout + p.stderr
    except subprocess.TimeoutExpired as e:
        return 124, (e.stdout or b"").decode() + "\ntimeout"

def enclosing(path, line):
    ls = open(os.path.join(DST, path)).read().split("\n")
    name = None
    for i in range(min(line, len(ls)) - 1, -1, -1):
        m = KEY.match(ls[i])
        if m:
            name = "example" if m.group(1) == "example" else m.group(2); break
    ns = [m.group(1) for l in ls[:line] if (m := re.match(r"^namespace (\S+)", l))]
    return (".".join(ns[-1:]) + "." + name) if name else path

def run(m, manifest):
    if not os.path.exists(DST):
        shutil.copytree(SRC, DST, symlinks=True)
    p = os.path.join(DST, m["file"])
    text = open(os.path.join(SRC, m["file"])).read()
    assert text.count(m["old"]) == 1, (m["id"], text.count(m["old"]))
    new = text.replace(m["old"], m["new"])
    open(p, "w").write(new)
    # helper lemmas that only repeat the definition are edited with it, so that what fails is what depends on its meaning
    also = {}
    for f, o, n in m.get("also", []):
        also.setdefault(f, open(os.path.join(SRC, f)).read()); t = open(os.path.join(DST, f)).read()
        assert t.count(o) == 1, (m["id"], f, t.count(o))
        open(os.path.join(DST, f), "w").write(t.replace(o, n))
    t0 = time.time()
    model = m["file"][:-5].replace("/", ".")
    code, out = sh("lake build " + model)
    res = dict(date=time.strftime("%Y-%m-%dT%H:%M"), id=m["id"], definition=m["definition"], edit=m["edit"], claim=m["claim"], breaks=m["breaks"])
    if code:
        print(m["id"], "MODEL DOES NOT BUILD", out[-1500:]); restore(p, text, also); return None
    if "witness" in m:
        w = os.path.join(DST, "Witness.lean")
        open(w, "w").write(m["witness"])
        imps = re.findall(r"^import (\S+)", m["witness"], re.M)
        c1, o1 = sh("lake build " + " ".join(imps))
        c2, o2 = sh("lake env lean Witness.lean") if c1 == 0 else (c1, o1)
        res["witness"] = "refuted" if c2 == 0 else "not checked"
        if c2: print(m["id"], "WITNESS FAILS", o2[-1500:])
        os.remove(w)
    code, out = sh("lake build " + " ".join(m["targets"]))
    errs = []
    for f, l in re.findall(r"error: (Verif/\S+?\.lean):(\d+):", out):
        n = enclosing(f, int(l))
        if n not in errs: errs.append(n)
    failed_mods = set(re.findall(r"^- (Verif\S+)", out, re.M)) | set(re.findall(r"✖ \[\d+/\d+\] (?:Building|Running) (\S+)", out))
    props = [t for c in manifest["claims"] for t in c["theorems"]]
    blocked = []
    for t in m["targets"]:
        c, _ = (1, "") if t in failed_mods else sh("lake build " + t)
        if c and t.startswith("Verif.Props") and t not in failed_mods: blocked.append(t)
    res["theorems_failed"] = errs
    res["theorems_blocked"] = sorted({t for t in props for b in blocked if t.startswith(b.replace("Verif.", "", 1) + ".")} - set(errs))
    res["theorems_tightened"] = m.get("tightened", [])
    res["survived"] = code == 0
    res["seconds"] = round(time.time() - t0)
    restore(p, text, also)
    return res

def restore(p, text, also):
    open(p, "w").write(text)
    for f, t in also.items(): open(os.path.join(DST, f), "w").write(t)
    sync()

def sync():
    shutil.rmtree(DST + "/Verif"); shutil.copytree(SRC + "/Verif", DST + "/Verif")
    # put the compiled files of the unedited model back
    shutil.rmtree(DST + "/.lake/build"); shutil.copytree(SRC + "/.lake/build", DST + "/.lake/build", symlinks=True)

spec = importlib.util.spec_from_file_location("muts", sys.argv[1]); mod = importlib.util.module_from_spec(spec); spec.loader.exec_module(mod)
manifest = json.load(open("/verif/MANIFEST.json"))
done = {r["id"] for r in map(json.loads, open(LOG)) if not r.get("open")} if os.path.exists(LOG) else set()
if os.path.exists(DST): sync()
for m in mod.M:
    if sys.argv[2:] and m["id"] not in sys.argv[2:]: continue
    if not sys.argv[2:] and m["id"] in done: continue
    r = run(m, manifest)
    if r is None: continue
    print(m["id"], m["claim"], "SURVIVED" if r["survived"] else "failed: " + " ".join(r["theorems_failed"][:6]), len(r["theorems_blocked"]), r.get("witness", ""), r["seconds"], flush=True)
    # every attempt is logged; a survivor without an explanation stays open and is tried again
    if r["survived"] and not m.get("log_survivor"): r["open"] = True
    r.pop("seconds")
    with open(LOG, "a") as f: f.write(json.dumps(r, ensure_ascii=False) + "\n")
