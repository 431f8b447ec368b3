#!/usr/bin/env python3
"""Mutation tests. usage: mutate.py MUTANTS.jsonl  (run from anywhere; works in a scratch copy, default /tmp/mut)

Each input line: {"id", "file" (relative to lean/Verif), "definition", "old", "new", "claim", optional "tightened"}.
The edit is applied to the scratch copy, `lake build` is run, and one line is appended to seeded/LOG.jsonl:
definition, edit, claim, theorems_failed (declarations with an error), blocked (property theorems in modules that
could not be built), theorems_tightened, result. "not compiled": the edited definition is not valid Lean; no test."""
import json, os, re, subprocess, sys
root = os.path.dirname(os.path.dirname(os.path.abspath(__file__)))
scratch = os.environ.get("MUT_DIR", "/tmp/mut")
log = os.path.join(root, "seeded", "LOG.jsonl")
done = set()
if os.path.exists(log):
    for l in open(log):
        if l.strip():
            done.add(json.loads(l).get("id"))
subprocess.check_call(["rm", "-rf", scratch])
subprocess.check_call(["cp", "-a", os.path.join(root, "lean"), scratch])
man = json.load(open(os.path.join(root, "MANIFEST.json")))
props = [t.split(".")[-1] for c in man["claims"] for t in c["theorems"]]
decl = re.compile(r"^\s*(?:@\[[^\]]*\]\s*)?(?:private |protected |noncomputable )*(theorem|lemma|def|instance|example|structure|abbrev)\s*([^\s:({\[]*)")

def decl_at(path, line):
    name = "?"
    for k, l in enumerate(open(path), 1):
        if k > line:
            break
        m = decl.match(l)
        if m:
            name = m.group(2) if m.group(1) != "example" else f"example at line {k}"
    return name

imports = {}
def deps(mod):
    if mod in imports:
        return imports[mod]
    p = os.path.join(scratch, mod.replace(".", "/") + ".lean")
    ds = set()
    for l in open(p):
        m = re.match(r"import (Verif\.\S+)", l)
        if m:
            ds.add(m.group(1)); ds |= deps(m.group(1))
    imports[mod] = ds
    return ds

where = {}
for d, _, fs in os.walk(os.path.join(scratch, "Verif", "Props")):
    for f in fs:
        if f.endswith(".lean"):
            mod = os.path.relpath(os.path.join(d, f), scratch)[:-5].replace("/", ".")
            for l in open(os.path.join(d, f)):
                m = decl.match(l)
                if m and m.group(1) == "theorem":
                    where[m.group(2)] = mod

for l in open(sys.argv[1]):
    if not l.strip():
        continue
    m = json.loads(l)
    if m["id"] in done:
        continue
    path = os.path.join(scratch, "Verif", m["file"])
    src = open(path).read()
    if src.count(m["old"]) != 1:
        print(m["id"], "pattern found", src.count(m["old"]), "times; skipped", flush=True)
        continue
    open(path, "w").write(src.replace(m["old"], m["new"]))
    try:
        r = subprocess.run(["lake", "build", "Verif"], cwd=scratch, stdout=subprocess.PIPE, stderr=subprocess.STDOUT, text=True,
                           env=dict(os.environ, LEAN_NUM_THREADS=os.environ.get("MUT_THREADS", "2")))
        failed, fmods = [], set()
        for e in re.finditer(r"error: (Verif/\S+\.lean):(\d+):", r.stdout):
            n = decl_at(os.path.join(scratch, e.group(1)), int(e.group(2)))
            fm = e.group(1)[:-5].replace("/", ".")
            fmods.add(fm)
            n = f"{n} ({fm[6:]})"
            if n not in failed:
                failed.append(n)
        for e in re.finditer(r"✖ \[[^\]]*\] Building (Verif\.\S+)", r.stdout):
            if e.group(1) not in fmods:  # no message: the prover ran out of memory or time
                fmods.add(e.group(1))
                failed.append(f"no proof found ({e.group(1)[6:]})")
        if r.returncode != 0 and not failed:
            print(m["id"], "build failed without a module; not logged", r.stdout[-300:], flush=True)
            continue
        blocked = sorted(p for p in set(props) if p in where and (deps(where[p]) & fmods))
        status = "killed" if failed else "survived"
        if any(re.search(r"\((Base|Model|Spec)\.", n) for n in failed):  # the edited model itself is refused: says nothing about the theorems
            status = "not compiled"
        rec = {"id": m["id"], "definition": m["definition"], "edit": f"{m['old'].strip()}  =>  {m['new'].strip()}",
               "claim": m["claim"], "theorems_failed": failed, "blocked": blocked,
               "theorems_tightened": m.get("tightened", []), "result": status}
        with open(log, "a") as f:
            f.write(json.dumps(rec, ensure_ascii=False) + "\n")
        print(m["id"], status, failed[:4], len(blocked), flush=True)
    finally:
        open(path, "w").write(src)
