#!/usr/bin/env python3
"""Run mutants of tools/mutants.json in a scratch copy and append the outcome to seeded/LOG.jsonl.
usage: mutate.py [id ...]   (default: those not in the log); MUT_TARGET: the modules to build instead of all"""
import json, os, re, signal, subprocess, sys, threading, time
V = "/verif"; S = "/tmp/mut/lean"
muts = json.load(open(f"{V}/tools/mutants.json"))
log = f"{V}/seeded/LOG.jsonl"
BASE = "/tmp/mutbase/lean"
done = {json.loads(l).get("id") for l in open(log) if l.strip()}
ids = sys.argv[1:]
dry = False
if ids and ids[0] == "--dry":
    dry = True; ids = ids[1:]
todo = [m for m in muts if (m["id"] in ids if ids else m["id"] not in done)]
for m in todo:
    n = open(f"{V}/lean/Verif/{m['file']}").read().count(m["old"])
    if n < 1: print("NO MATCH", m["id"])
    if n > 1 and not m.get("all"): print("AMBIGUOUS", m["id"], n)
if dry: sys.exit()
os.makedirs(S, exist_ok=True)
DECL = re.compile(r"^(?:@\[[^\]]*\]\s*)?(?:private |protected |noncomputable |mutual )*(theorem|def|instance|example|abbrev|structure|inductive)\s+(\S+)?")
def decl_at(path, line):
    ls = open(path).read().split("\n")
    for i in range(min(line, len(ls)) - 1, -1, -1):
        mm = DECL.match(ls[i])
        if mm: return (mm.group(2) or "example") if mm.group(1) != "example" else f"example@{i+1}"
    return "?"
def build(cwd, grace=60, limit=1800):
    """lake build; stops `grace` seconds after the first error"""
    pr = subprocess.Popen(["lake", "build"] + os.environ.get("MUT_TARGET", "").split(), cwd=cwd, stdout=subprocess.PIPE, stderr=subprocess.STDOUT, text=True,
                          start_new_session=True, env={**os.environ, "LEAN_NUM_THREADS": os.environ.get("MUT_THREADS", "2")})
    buf = []; first = [None]
    def rd():
        for line in pr.stdout:
            buf.append(line)
            if "error:" in line and first[0] is None: first[0] = time.time()
    th = threading.Thread(target=rd, daemon=True); th.start()
    t0 = time.time(); stopped = False
    while pr.poll() is None:
        time.sleep(1)
        if (first[0] and time.time() - first[0] > grace) or time.time() - t0 > limit:
            os.killpg(pr.pid, signal.SIGKILL); stopped = True; break
    pr.wait(); th.join(5)
    rc = 1 if first[0] else (-1 if stopped else pr.returncode)
    return "".join(buf), rc
for m in todo:
    subprocess.run(f"rm -rf {S} && mkdir -p /tmp/mut && cp -a {BASE} {S}", shell=True, check=True)
    p = f"{S}/Verif/{m['file']}"
    src = open(p).read()
    if m["old"] not in src: print("SKIP", m["id"]); continue
    src = src.replace(m["old"], m["new"]) if m.get("all") else src.replace(m["old"], m["new"], 1)
    for o, n in m.get("also", []):
        assert o in src, (m["id"], o)
        src = src.replace(o, n)
    open(p, "w").write(src)
    out, rc = build(S)
    failed = []
    for f, l in re.findall(r"error: (\S+?\.lean):(\d+):\d+", out):
        f = f if f.startswith("/") else f"{S}/{f}"
        d = os.path.basename(f)[:-5] + ":" + decl_at(f, int(l))
        if d not in failed: failed.append(d)
    rec = dict(id=m["id"], definition=f"{m['file']}: {m['def']}", edit=m["edit"], claim=m["claim"],
               theorems_failed=failed if rc != 0 else [], killed=rc != 0, theorems_tightened=[])
    if rc == -1: rec["note"] = "build timed out"
    print(json.dumps(rec), flush=True)
    with open(log, "a") as fh: fh.write(json.dumps(rec, ensure_ascii=False) + "\n")
