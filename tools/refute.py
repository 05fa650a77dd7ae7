"""Edit one definition of the model in a scratch copy and evaluate the theorems' statements on many inputs.

usage: refute.py FILE.py [id ...]   (FILE.py defines R = name of the file in seeded/refute, Lean source with the ending .txt, NS = theorem name -> full name, M = [dict(id, file, old, new, definition, edit, claim, breaks, ...)])
Unlike mutate.py, which sees whether the proofs still go through, this shows that the statement itself has become false:
a theorem that is refuted cannot be proved of the edited program by any proof.
"""
import json, os, re, subprocess, sys, shutil, time, importlib.util
import threading
from concurrent.futures import ThreadPoolExecutor
SRC, LOG = "/verif/lean", "/verif/seeded/LOG.jsonl"
lock = threading.Lock()
W = int(os.environ.get("WORKERS", "3"))

def sh(cmd, cwd, timeout=1500):
    try:
        p = subprocess.run(cmd, cwd=cwd, shell=True, capture_output=True, text=True, timeout=timeout)
        return p.returncode, p.stdout + p.stderr
    except subprocess.TimeoutExpired:
        return 124, "timeout"

def fresh(d):
    shutil.rmtree(d, ignore_errors=True)
    os.makedirs(d + "/.lake/build")
    for f in os.listdir(SRC):
        if f != ".lake":
            (shutil.copytree if os.path.isdir(f"{SRC}/{f}") else shutil.copy)(f"{SRC}/{f}", f"{d}/{f}")
    for f in os.listdir(SRC + "/.lake"):
        if f != "build": os.symlink(f"{SRC}/.lake/{f}", f"{d}/.lake/{f}")
    for kind in os.listdir(SRC + "/.lake/build"):
        for sub in ("Data", "Model", "Spec"):
            for base, _, files in os.walk(f"{SRC}/.lake/build/{kind}"):
                if f"/Verif/{sub}" in base + "/":
                    t = base.replace(SRC, d); os.makedirs(t, exist_ok=True)
                    for f in files: shutil.copy2(f"{base}/{f}", f"{t}/{f}")

spec = importlib.util.spec_from_file_location("muts", sys.argv[1]); mod = importlib.util.module_from_spec(spec); spec.loader.exec_module(mod)
done = {r["id"] for r in map(json.loads, open(LOG)) if not r.get("open")}

def run(k, m):
    d = f"/tmp/ref{k}"
    fresh(d)
    text = open(f"{SRC}/{m['file']}").read()
    assert text.count(m["old"]) == 1, (m["id"], text.count(m["old"]))
    open(f"{d}/{m['file']}", "w").write(text.replace(m["old"], m["new"]))
    ref = m.get("refuter", mod.R)
    imps = re.findall(r"^import (Verif\S+)", open(f"/verif/seeded/refute/{ref}").read(), re.M)
    c, o = sh("lake build " + " ".join(imps), d)
    if c: print(m["id"], "MODEL DOES NOT BUILD", o[-1200:], flush=True); return
    shutil.copy(f"/verif/seeded/refute/{ref}", f"{d}/refute.lean")
    c, o = sh("lake env lean --run refute.lean " + m.get("args", ""), d)
    hits = list({h[0]: h for h in reversed(re.findall(r"^REFUTED (\S+) ?(.*)$", o, re.M))}.values())[::-1]
    if "DONE" not in o: print(m["id"], "EVALUATION", o[-800:], flush=True)
    if m["claim"] is None and hits: m = dict(m, claim=hits[0][0][:3].upper())
    print(m["id"], m["claim"], "SURVIVED" if not hits else "refuted: " + " ".join(h[0] for h in hits), flush=True)
    # every attempt is logged; a survivor without an explanation stays open and is tried again
    if hits: method = "statement evaluated on the edited model; counterexample " + hits[0][1]
    elif "DONE" not in o: method = "the evaluation did not finish; nothing can be said"
    elif m.get("equivalent"): method = "evaluated on samples; no counterexample. Argued, not proved: " + m["equivalent"]
    else: method = "evaluated on samples; no counterexample, not explained"
    r = dict(date=time.strftime("%Y-%m-%dT%H:%M"), id=m["id"], definition=m["definition"], edit=m["edit"], claim=m["claim"], breaks=m["breaks"],
             theorems_failed=[mod.NS(h[0]) for h in hits], theorems_tightened=m.get("tightened", []), survived=not hits, method=method)
    if not hits and ("DONE" not in o or not m.get("equivalent")): r["open"] = True
    with lock, open(LOG, "a") as f: f.write(json.dumps(r, ensure_ascii=False) + "\n")

todo = [m for m in mod.M if (m["id"] in sys.argv[2:] if sys.argv[2:] else m["id"] not in done)]
for m in todo:
    text = open(f"{SRC}/{m['file']}").read()
    if text.count(m["old"]) != 1: sys.exit(f"{m['id']}: old text occurs {text.count(m['old'])} times")
import queue
slots = queue.Queue()
for k in range(W): slots.put(k)
def job(m):
    k = slots.get()
    try: run(k, m)
    finally: slots.put(k)
with ThreadPoolExecutor(W) as ex: list(ex.map(job, todo))
