#!/usr/bin/env python3
"""Seeded-bug runner. Usage: mutate.py batch.json

batch.json is a list of {"file","old","new","definition","edit","claim"}; each edit is
applied alone to a scratch copy of lean/, which is rebuilt: first the modules named in
"targets", if any, and everything if these still build. One line per attempt is
appended to seeded/LOG.jsonl. Prints SURVIVED when everything still builds."""
import json, os, re, shutil, subprocess, sys
SRC = "/verif/lean"
SCR = "/tmp/mut/lean"
LOG = "/verif/seeded/LOG.jsonl"

def sync():
    os.makedirs("/tmp/mut", exist_ok=True)
    subprocess.run(["rsync", "-a", "--delete", SRC + "/", SCR + "/"], check=True) if shutil.which("rsync") \
        else (shutil.rmtree(SCR, ignore_errors=True), subprocess.run(["cp", "-a", SRC, SCR], check=True))

def decl(path, line):
    name = "?"
    for i, l in enumerate(open(os.path.join(SCR, path)), 1):
        if i > line: break
        m = re.match(r"\s*(?:@\[[^\]]*\]\s*)?(?:private |protected )?(theorem|def|example|instance|lemma|structure|inductive|abbrev)\s*([^\s:({\[]*)", l)
        if m: name = m.group(2) or "example (line %d)" % i
    return name

def run(m):
    f = os.path.join(SCR, m["file"])
    s = open(f).read()
    n = s.count(m["old"])
    if n != 1 and not m.get("all"):
        print("BAD EDIT (%d matches):" % n, m["definition"], m["edit"]); return
    open(f, "w").write(s.replace(m["old"], m["new"]))
    build = lambda t: subprocess.run(["lake", "build"] + t, cwd=SCR, capture_output=True, text=True, timeout=3600)
    r = build(m.get("targets", []))
    if m.get("targets") and r.returncode == 0: r = build([])
    out = r.stdout + r.stderr
    failed = []
    for x in re.finditer(r"error: (Verif/\S+?\.lean):(\d+):\d+", out):
        d = decl(x.group(1), int(x.group(2)))
        t = x.group(1)[6:-5].replace("/", ".") + ":" + d
        if t not in failed: failed.append(t)
    open(f, "w").write(s)
    ok = r.returncode == 0
    rec = {"definition": m["definition"], "edit": m["edit"], "claim": m["claim"],
           "failed": failed, "tightened": m.get("tightened", [])}
    if ok: rec["survived"] = True
    if m.get("note"): rec["note"] = m["note"]
    with open(LOG, "a") as l: l.write(json.dumps(rec) + "\n")
    print(("SURVIVED " if ok else "killed   ") + m["definition"] + " | " + m["edit"] + " | " + ", ".join(failed[:6]), flush=True)

sync()
for m in json.load(open(sys.argv[1])): run(m)
