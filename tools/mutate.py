#!/usr/bin/env python3
"""Mutation tests of the model: python3 tools/mutate.py mutations.json

Each mutation is {"definition", "file", "old", "new", "edit", "claim"}; the edit is applied to a scratch copy
(/tmp/mut), the project is rebuilt there and the theorems whose proofs fail are recorded, one JSON
line per mutation appended to seeded/LOG.jsonl.  The scratch copy is reverted after each one."""
import json, os, re, signal, subprocess, sys, threading, time
SRC = "/verif/lean/"; DST = os.environ.get("MUT_DST", "/tmp/mut/")
def sync():
    os.makedirs(DST, exist_ok=True)
    subprocess.run(["rsync", "-a", "--delete", SRC, DST], check=True) if subprocess.run(
        ["which", "rsync"], capture_output=True).returncode == 0 else subprocess.run(
        "rm -rf %s && cp -a %s %s" % (DST, SRC, DST), shell=True, check=True)
def enclosing(path, line):
    name = "?"
    for i, l in enumerate(open(DST + path), 1):
        if i > line: break
        m = re.match(r"(?:@\[[^\]]*\]\s*)?(?:private |noncomputable |protected )*(theorem|lemma|def|example|instance|abbrev)\s*([^\s:({\[]*)", l)
        if m: name = m.group(2) or m.group(1)
    return name
def build(wait=90):
    """Build the scratch copy; `wait` seconds after the first failing proof the rest is left unbuilt."""
    p = subprocess.Popen(["lake", "build"], cwd=DST, stdout=subprocess.PIPE, stderr=subprocess.STDOUT, text=True,
                         start_new_session=True)
    out, stop = [], None
    def reader():
        nonlocal stop
        for l in p.stdout:
            out.append(l)
            if stop is None and re.match(r"error: Verif/", l): stop = time.time() + wait
    t = threading.Thread(target=reader); t.start()
    while t.is_alive():
        t.join(1)
        if stop is not None and time.time() > stop and p.poll() is None:
            os.killpg(p.pid, signal.SIGKILL)
    rc = p.wait(); out = "".join(out)
    failed = {}
    for m in re.finditer(r"error: (Verif/\S+?\.lean):(\d+):", out):
        n = enclosing(m.group(1), int(m.group(2)))
        failed.setdefault(m.group(1), [])
        if n not in failed[m.group(1)]: failed[m.group(1)].append(n)
    return rc, failed
def imports():
    dep = {}
    for root, _, files in os.walk(DST + "Verif"):
        for f in files:
            if f.endswith(".lean"):
                p = os.path.relpath(os.path.join(root, f), DST)
                dep[p] = [x.replace(".", "/") + ".lean" for x in re.findall(r"^import (Verif\S*)", open(DST + p).read(), re.M)]
    return dep
def main():
    muts = json.load(open(sys.argv[1]))
    sync()
    log = open("/verif/seeded/LOG.jsonl", "a")
    for mu in muts:
        path = DST + mu["file"]
        orig = open(path).read()
        if orig.count(mu["old"]) != 1:
            print("SKIP (old text found %d times): %s" % (orig.count(mu["old"]), mu["definition"])); continue
        open(path, "w").write(orig.replace(mu["old"], mu["new"]))
        rc, failed = build()
        if mu["definition"].split(".")[-1] in failed.get(mu["file"], []):
            print("DROPPED (edit does not compile) %s | %s" % (mu["definition"], mu["edit"]), flush=True)
            open(path, "w").write(orig); continue
        dep = imports(); blocked = set(failed)
        ch = True
        while ch:
            ch = False
            for p, ds in dep.items():
                if p not in blocked and any(d in blocked for d in ds): blocked.add(p); ch = True
        blocked -= set(failed)
        open(path, "w").write(orig)
        rec = {"definition": mu["definition"], "file": mu["file"], "edit": mu["edit"], "claim": mu["claim"],
               "failed": sorted(n for ns in failed.values() for n in ns),
               "modules_not_reached": sorted(p for p in blocked if "Props" in p),
               "caught": rc != 0, "tightened": mu.get("tightened", [])}
        log.write(json.dumps(rec) + "\n"); log.flush()
        print("%-7s %s | %s -> %s" % ("caught" if rc else "MISSED", mu["definition"], mu["edit"], rec["failed"][:6]), flush=True)
    build()
main()
