#!/usr/bin/env python3
"""Applies one textual edit to a scratch copy of the Lean project, rebuilds, reports which theorems fail and appends a line
to ../seeded/LOG.jsonl.
usage: mutate.py SPEC.json   with SPEC a list of {"file","definition","old","new","claim","tightened"?}"""
import json, os, re, shutil, subprocess, sys
here = os.path.dirname(os.path.abspath(__file__))
root = os.path.dirname(here)
scratch = "/tmp/mut/lean"
def sync():
    os.makedirs("/tmp/mut", exist_ok=True)
    subprocess.run(["rsync", "-a", "--delete", root + "/lean/", scratch + "/"], check=False) if shutil.which("rsync") else (
        shutil.rmtree(scratch, ignore_errors=True), shutil.copytree(root + "/lean", scratch, symlinks=True))
def enclosing(f, line):
    name = "?"
    for i, l in enumerate(open(f), 1):
        if i > line: break
        m = re.match(r"(?:@\[[^\]]*\] )?(?:private |protected )?(?:theorem|lemma|def|instance|abbrev)\s+(\S+)", l)
        if m: name = m.group(1)
        elif re.match(r"example\b", l): name = "example"
    return name
for spec in json.load(open(sys.argv[1])):
    sync()
    p = os.path.join(scratch, spec["file"])
    s = open(p).read()
    n = s.count(spec["old"])
    if n != 1:
        print("SKIP", spec["definition"], "old text occurs", n, "times"); continue
    open(p, "w").write(s.replace(spec["old"], spec["new"]))
    failed, props, seen = [], [], set()
    r = subprocess.run(["lake", "build"], cwd=scratch, capture_output=True, text=True, timeout=3600)
    out = r.stdout + r.stderr
    for m in re.finditer(r"error: (\S+?\.lean):(\d+):\d+", out):
        t = (m.group(1), enclosing(os.path.join(scratch, m.group(1)), int(m.group(2))))
        if t not in seen:
            seen.add(t); failed.append(t[1])
    # properties whose files could not be checked because a helper failed: check them one by one is not needed, the build is broken there
    blocked = sorted(set(re.findall(r"^✖ \[[^\]]*\] Building (\S+)", out, re.M)))
    entry = {"definition": spec["definition"], "file": spec["file"], "edit": spec["old"].strip() + "  ==>  " + spec["new"].strip(),
             "claim": spec["claim"], "failed": failed, "failed_modules": blocked, "tightened": spec.get("tightened", [])}
    print(("CAUGHT " if r.returncode else "SURVIVED ") + spec["definition"], failed, blocked)
    if r.returncode or spec.get("log_survivor"):
        open(os.path.join(root, "seeded", "LOG.jsonl"), "a").write(json.dumps(entry, ensure_ascii=False) + "\n")
