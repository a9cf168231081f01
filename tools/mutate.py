#!/usr/bin/env python3
"""Apply one wrong edit at a time to a scratch copy of the model, rebuild, and log which theorems fail.

usage: mutate.py MUTATIONS.py [first [last]]
MUTATIONS.py defines MUTS = [dict(file=, old=, new=, definition=, edit=, claim=, [count=])...].
Results are appended to seeded/LOG.jsonl (key `tightened` is filled in by hand afterwards)."""
import json, os, re, signal, subprocess, sys, threading, runpy

SRC = "/verif/lean"
BASE = f"/tmp/mut/base{os.getpid()}"  # frozen copy, so that work can go on in /verif
DST = f"/tmp/mut/lean{os.getpid()}"
LOG = "/verif/seeded/LOG.jsonl"
GRACE = 15  # seconds

def enclosing(path, line):
    """Name of the declaration which contains the line."""
    name, ns = None, []
    for n, l in enumerate(open(path), 1):
        if n > line: break
        m = re.match(r"namespace\s+(\S+)", l)
        if m: ns.append(m.group(1))
        m = re.match(r"end\s+(\S+)", l)
        if m and ns and ns[-1] == m.group(1): ns.pop()
        m = re.match(r"(?:private |protected |noncomputable |@\[[^\]]*\]\s*)*(theorem|lemma|def|example|instance|abbrev|structure)\s*([^\s:({\[]*)", l)
        if m: name = ".".join(ns + [m.group(2) or m.group(1)])
    return name

def build():
    """Build, and stop soon after the first error."""
    r = subprocess.Popen(["lake", "build"], cwd=DST, stdout=subprocess.PIPE, stderr=subprocess.STDOUT, text=True, start_new_session=True)
    out, timer = [], None
    stop = lambda: os.killpg(r.pid, signal.SIGKILL)
    for l in r.stdout:
        out.append(l)
        if timer is None and l.startswith("error: Verif/"):
            timer = threading.Timer(GRACE, stop)
            timer.start()
    r.wait()
    if timer: timer.cancel()
    return r.returncode == 0, "".join(out)

def run(m):
    subprocess.run(["rm", "-rf", DST], check=True)
    subprocess.run(["cp", "-a", BASE, DST], check=True)
    p = f"{DST}/Verif/{m['file']}"
    s = open(p).read()
    c = s.count(m["old"])
    if c < 1 or (c > 1 and not m.get("all") and "nth" not in m):
        return dict(error=f"pattern occurs {c} times")
    if m.get("all"): s = s.replace(m["old"], m["new"])
    elif "nth" in m:
        parts = s.split(m["old"])
        k = m["nth"]
        s = m["old"].join(parts[:k + 1]) + m["new"] + m["old"].join(parts[k + 1:])
    else: s = s.replace(m["old"], m["new"])
    open(p, "w").write(s)
    ok, out = build()
    failed = []
    for f, l in re.findall(r"error: (Verif/\S+?\.lean):(\d+):\d+:", out):
        n = enclosing(f"{DST}/{f}", int(l))
        if n and n not in failed: failed.append(n)
    modelfail = any(re.search(r"error: Verif/Model/", x) for x in out.splitlines())
    return dict(ok=ok, failed=failed, modelfail=modelfail)

def claims_of(failed):
    """Properties whose theorems failed, or which have theorems in the same namespaces."""
    m = json.load(open("/verif/MANIFEST.json"))["claims"]
    c = [x["property"] for x in m if set(x["theorems"]) & set(failed)]
    if not c:
        ns = {f.rsplit(".", 1)[0] for f in failed}
        c = [x["property"] for x in m if any(t.rsplit(".", 1)[0] in ns for t in x["theorems"])]
    return " ".join(c[:3])

def main():
    muts = runpy.run_path(sys.argv[1])["MUTS"]
    os.makedirs("/tmp/mut", exist_ok=True)
    subprocess.run(["cp", "-a", SRC, BASE], check=True)
    a = int(sys.argv[2]) if len(sys.argv) > 2 else 0
    b = int(sys.argv[3]) if len(sys.argv) > 3 else len(muts)
    for i, m in enumerate(muts[a:b], a):
        r = run(m)
        if "error" in r or r.get("modelfail"):
            print(i, "BAD MUTATION", m["edit"], r, flush=True); continue
        e = dict(definition=m["definition"], file="lean/Verif/" + m["file"], edit=m["edit"], claim=m["claim"],
                 failed=r["failed"], tightened=[])
        if r["ok"]:
            e["survived"] = True
        if not e["claim"]: e["claim"] = claims_of(r["failed"])
        print(i, "SURVIVED" if r["ok"] else "caught", m["edit"], r["failed"], flush=True)
        if r["ok"] and not m["claim"]: continue  # an edit which may break nothing: to be looked at
        open(LOG, "a").write(json.dumps(e, ensure_ascii=False) + "\n")

main()
