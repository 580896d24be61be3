#!/usr/bin/env python3
"""Seeded-bug runs: apply one wrong edit at a time to a scratch copy of the model, rebuild, and log
which theorems no longer prove.

usage: tools/seed.py seeds.json [first [last]]
seeds.json: list of {"file", "definition", "old", "new", "edit", "breaks": [property ids], "claim"},
optionally "also": [[file, old, new], ...] for further edits (for example the same bug in a reference
definition, so that only the statement of the property can notice it).
"""
import json, os, re, shutil, subprocess, sys
ROOT = os.path.dirname(os.path.dirname(os.path.abspath(__file__)))
SCR, PRI = "/tmp/scratch", "/tmp/pristine"
LOG = os.path.join(ROOT, "seeded", "LOG.jsonl")

def copy(src, dst):
    subprocess.check_call(["rsync", "-a", "--delete", src + "/", dst + "/"]) if shutil.which("rsync") \
        else (shutil.rmtree(dst, ignore_errors=True), subprocess.check_call(["cp", "-a", src, dst]))

def decl_at(path, line):
    name, ns = None, []
    with open(path) as fh:
        for i, l in enumerate(fh, 1):
            if i > line: break
            m = re.match(r"(?:@\[[^\]]*\]\s*)?(?:private |noncomputable |protected )*(?:theorem|lemma|def|instance|abbrev|structure)\s+(\S+)", l)
            if m: name = m.group(1)
            elif re.match(r"(example|instance)\b", l): name = "example at line %d" % i
    return name

def tainted(b, mods):
    """Theorems of property b in the modules with errors that rely on a proof that failed there."""
    res = []
    for q in sorted(mods):
        t = open(os.path.join(SCR, q)).read()
        ns = re.findall(r"^namespace (\S+)", t, re.M)
        ns += ["Dw." + x for x in ns]
        names = re.findall(r"^theorem (%s_\S+)" % b, t, re.M)
        if not names: continue
        f = os.path.join(SCR, "Tmp.lean")
        open(f, "w").write(t + "\n" + "\n".join("#print axioms %s.%s" % (x, n)
                                                for n in names for x in dict.fromkeys(ns)))
        r = subprocess.run(["lake", "env", "lean", "Tmp.lean"], cwd=SCR, capture_output=True, text=True)
        for m in re.finditer(r"'(?:\S+\.)?(%s_\S+)' depends on axioms: \[([^\]]*)\]" % b, r.stdout + r.stderr):
            if "sorryAx" in m.group(2):
                res.append("%s (%s, relies on a failed proof)" % (m.group(1), q))
    return res

def main():
    seeds = json.load(open(sys.argv[1]))
    lo = int(sys.argv[2]) if len(sys.argv) > 2 else 0
    hi = int(sys.argv[3]) if len(sys.argv) > 3 else len(seeds)
    copy(os.path.join(ROOT, "lean"), PRI)
    for s in seeds[lo:hi]:
        copy(PRI, SCR)
        bad = False
        for f, old, new in [(s["file"], s["old"], s["new"])] + s.get("also", []):
            p = os.path.join(SCR, f)
            t = open(p).read()
            if t.count(old) != 1:
                print("BAD SEED", s["edit"], f, t.count(old), flush=True); bad = True
            open(p, "w").write(t.replace(old, new))
        if bad: continue
        r = subprocess.run(["lake", "build"], cwd=SCR, capture_output=True, text=True)
        out = r.stdout + r.stderr
        failed, mods = [], set()
        for m in re.finditer(r"error: (Verif/\S+?\.lean):(\d+):\d+: (.*)", out):
            if "object file" in m.group(3): continue
            mods.add(m.group(1))
            n = decl_at(os.path.join(SCR, m.group(1)), int(m.group(2)))
            key = "%s (%s)" % (n, m.group(1))
            if key not in failed: failed.append(key)
        # modules that import a failed one and were therefore not rebuilt
        imp = {}
        for d, _, fs in os.walk(os.path.join(SCR, "Verif")):
            for f in fs:
                if f.endswith(".lean"):
                    q = os.path.relpath(os.path.join(d, f), SCR)
                    imp[q] = ["/".join(x.split(".")) + ".lean" for x in
                              re.findall(r"^import (Verif\S+)", open(os.path.join(SCR, q)).read(), re.M)]
        blocked, ch = set(mods), True
        while ch:
            ch = False
            for q, ds in imp.items():
                if q not in blocked and any(x in blocked for x in ds):
                    blocked.add(q); ch = True
        blocked -= mods
        props = []
        for b in s["breaks"]:
            hit = [f for f in failed if f.startswith(b + "_")]
            if not hit:
                for q in sorted(blocked):
                    hit += ["%s (%s, not rebuilt: depends on a failed proof)" % (x, q) for x in
                            re.findall(r"theorem (%s_\S+)" % b, open(os.path.join(SCR, q)).read())]
            if not hit:
                hit = tainted(b, mods)
            props.append({"property": b, "theorems": hit})
        ok = r.returncode != 0 and bool(failed) and all(x["theorems"] for x in props)
        rec = {"definition": s["definition"], "file": "lean/" + s["file"], "edit": s["edit"],
               "claim_broken": s["claim"], "properties": s["breaks"],
               "also_edited": [x[0] for x in s.get("also", [])],
               "theorems_failed": failed[:12], "property_theorems": props,
               "detected": ok, "tightened": s.get("tightened", [])}
        print(("ok   " if ok else "MISS ") + s["definition"], "|", s["edit"], "|", failed[:4], flush=True)
        with open(LOG, "a") as fh:
            fh.write(json.dumps(rec, ensure_ascii=False) + "\n")
main()
