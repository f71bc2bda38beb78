#!/usr/bin/env python3
"""Mutation testing of the model, in a scratch copy.

usage: mutate.py MUTATIONS.json [SCRATCH]   (SCRATCH defaults to /tmp/scratch, a copy of /verif/lean with .lake)

Each mutation is {id, file, old, new, def, edit, claim, target}: `old` (which must occur exactly once, or
`nth` selects the occurrence) is replaced by `new` in `file`, the module `target` is rebuilt, and the
declarations containing errors are collected.  One JSON line per mutation is appended to
/verif/seeded/LOG.jsonl.  A mutation whose own file does not compile is reported as INVALID and not logged.
"""
import json, os, re, subprocess, sys
muts = json.load(open(sys.argv[1]))
scratch = sys.argv[2] if len(sys.argv) > 2 else "/tmp/scratch"
LOG = "/verif/seeded/LOG.jsonl"
done = set()
if os.path.exists(LOG):
    for l in open(LOG):
        try: done.add(json.loads(l).get("id"))
        except Exception: pass

def decl_at(path, line):
    lines = open(path).read().split("\n")
    for i in range(min(line, len(lines)) - 1, -1, -1):
        m = re.match(r"^(?:@\[[^\]]*\]\s*)?(?:private |protected |noncomputable )*(theorem|lemma|def|abbrev|instance|structure|example)\b\s*([^\s:({\[]*)", lines[i])
        if m:
            return (m.group(1) + " " + m.group(2)).strip() if m.group(1) == "example" else m.group(2)
    return "?"

for m in muts:
    if m["id"] in done: continue
    path = os.path.join(scratch, m["file"])
    orig = open(os.path.join("/verif/lean", m["file"])).read()
    cnt = orig.count(m["old"])
    nth = m.get("nth", 0)
    if cnt == 0 or (cnt > 1 and "nth" not in m):
        print("BADPATTERN", m["id"], cnt, flush=True); continue
    pos = -1
    for _ in range(nth + 1): pos = orig.index(m["old"], pos + 1)
    new = orig[:pos] + m["new"] + orig[pos + len(m["old"]):]
    open(path, "w").write(new)
    try:
        r = subprocess.run(["lake", "build", m["target"]], cwd=scratch, capture_output=True, text=True, timeout=1800)
        out = r.stdout + r.stderr
    except subprocess.TimeoutExpired:
        out = "error: timeout"; 
    failed, files = [], set()
    for e in re.finditer(r"error: (Verif/[^:]+\.lean):(\d+):", out):
        f, ln = e.group(1), int(e.group(2)); files.add(f)
        d = decl_at(os.path.join(scratch, f), ln)
        s = f[6:-5].replace("/", ".") + ":" + d
        if s not in failed: failed.append(s)
    blocked = sorted(set(re.findall(r"^- (Verif\.[\w.]+)", out, re.M)))
    open(path, "w").write(orig)
    if m["file"] in files and not m.get("same_file"):
        print("INVALID", m["id"], failed, out[-600:], flush=True); continue
    if blocked and not failed:
        print("NOBUILD", m["id"], out[-600:], flush=True); continue
    res = "killed" if failed else "SURVIVED"
    print(res, m["id"], failed[:6], flush=True)
    rec = {"id": m["id"], "definition": m["def"], "edit": m["edit"], "claim_broken": m["claim"],
           "failed_theorems": failed, "modules_not_built": blocked, "result": res, "tightened": m.get("tightened", [])}
    open(LOG, "a").write(json.dumps(rec, ensure_ascii=False) + "\n")
