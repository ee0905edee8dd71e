#!/usr/bin/env python3
"""Seeded-bug runner.  Usage: mutate.py FILE.json

Each mutation: {"file","definition","old","new","breaks","tightened":[...]}.  Optional
"edits": [{"file","old","new"}] for further edits, so that an auxiliary definition that restates the
edited one can be changed with it.  Optional "witness": {"imports","claim","clean","refute"}: a
closed proposition that follows from the theorems on the real model (proof "clean") and is false
on the edited model (proof "refute", which imports model files only).
Optional "confirm": true: the line for this edit is already in the log; only check the witness and
note the refuted instance there.  Optional "targets": build these modules instead of everything.
Works in a scratch copy under /tmp; appends to seeded/LOG.jsonl.
"""
import json, os, re, shutil, subprocess, sys, time
root = os.path.dirname(os.path.dirname(os.path.abspath(__file__)))
scratch = "/tmp/mut"
muts = json.load(open(sys.argv[1]))
if not os.path.isdir(scratch + "/lean"):
    os.makedirs(scratch, exist_ok=True)
    shutil.copytree(root + "/lean", scratch + "/lean")
def sync():
    subprocess.run(["rsync", "-a", "--delete", "--exclude", ".lake", root + "/lean/", scratch + "/lean/"], check=True) if shutil.which("rsync") else copy()
def copy():
    for d, _, fs in os.walk(root + "/lean"):
        if ".lake" in d: continue
        for f in fs:
            src = os.path.join(d, f); dst = src.replace(root, scratch, 1)
            os.makedirs(os.path.dirname(dst), exist_ok=True)
            if not os.path.exists(dst) or open(src, "rb").read() != open(dst, "rb").read():
                shutil.copyfile(src, dst)
    for d, _, fs in os.walk(scratch + "/lean"):
        if ".lake" in d: continue
        for f in fs:
            dst = os.path.join(d, f)
            if not os.path.exists(dst.replace(scratch, root, 1)): os.remove(dst)
def enclosing(path, line):
    name = None
    for i, l in enumerate(open(path).read().split("\n")[:line]):
        m = re.match(r"^(?:private |@\[.*\] )?(?:theorem|def|lemma|abbrev) (\S+)", l)
        if m: name = m.group(1)
        if re.match(r"^example", l): name = "example@%s:%d" % (os.path.basename(path), i + 1)
    return name
def failed_in(out):
    bad = []
    for m in re.finditer(r"error: (\S+\.lean):(\d+):\d+", out):
        n = enclosing(scratch + "/lean/" + m.group(1), int(m.group(2)))
        if n and n not in bad: bad.append(n)
    return bad
for mu in muts:
    sync()
    p = os.path.join(scratch, "lean", mu["file"])
    s = open(p).read()
    assert s.count(mu["old"]) >= 1, ("not found", mu["definition"], mu["old"])
    if s.count(mu["old"]) > 1 and not mu.get("all"):
        i = s.index(mu["definition"].split()[-1]) if mu.get("after") is None else s.index(mu["after"])
        j = s.index(mu["old"], i)
        s = s[:j] + mu["new"] + s[j + len(mu["old"]):]
    else:
        s = s.replace(mu["old"], mu["new"])
    open(p, "w").write(s)
    for e in mu.get("edits", []):
        q = os.path.join(scratch, "lean", e["file"])
        t = open(q).read()
        assert t.count(e["old"]) == 1, ("edit not unique", mu["definition"], e["old"], t.count(e["old"]))
        open(q, "w").write(t.replace(e["old"], e["new"]))
    wit = None
    if mu.get("witness"):
        w = mu["witness"]
        head = "open Verif Verif.Doc Verif.Doc.Spec Verif.Props\n"
        open("/tmp/clean.lean", "w").write("import Verif\n" + head + "example : " + w["claim"] + " := " + w["clean"] + "\n")
        while True:
            c = subprocess.run(["lake", "env", "lean", "/tmp/clean.lean"], cwd=root + "/lean", capture_output=True, text=True)
            if "object file" not in c.stdout: break
            time.sleep(20)  # the real model is being built
        if c.returncode: print("CLEAN WITNESS FAILS", c.stdout[:2000])
        open("/tmp/refute.lean", "w").write("".join("import %s\n" % m for m in w["imports"]) + "namespace Verif.Props\nend Verif.Props\nnamespace Verif.Doc.Spec\nend Verif.Doc.Spec\n" + head + "example : ¬ (" + w["claim"] + ") := " + w["refute"] + "\n")
        subprocess.run(["lake", "build"] + w["imports"], cwd=scratch + "/lean", capture_output=True, text=True)
        r = subprocess.run(["lake", "env", "lean", "/tmp/refute.lean"], cwd=scratch + "/lean", capture_output=True, text=True)
        if r.returncode: print("REFUTATION FAILS", r.stdout[:2000])
        wit = c.returncode == 0 and r.returncode == 0
    if mu.get("confirm"):
        log = [json.loads(l) for l in open(root + "/seeded/LOG.jsonl")]
        hits = [d for d in log if d["definition"] == mu["definition"] and d["edit"] == mu["edit"]]
        assert hits, ("no such line", mu["definition"], mu["edit"])
        if wit:
            for d in hits: d["instance_refuted"] = mu["witness"]["claim"]
            open(root + "/seeded/LOG.jsonl", "w").write("".join(json.dumps(d) + "\n" for d in log))
        print("CONFIRMED" if wit else "UNCONFIRMED", mu["definition"], "|", mu["edit"], flush=True)
        continue
    # -KE style: keep going so that independent modules are tried too
    r = subprocess.run(["lake", "build"] + mu.get("targets", []), cwd=scratch + "/lean", capture_output=True, text=True)
    out = r.stdout + r.stderr
    bad = failed_in(out)
    blocked = sorted(set(re.findall(r"✖ \[[^\]]*\] Building (\S+)", out)))
    entry = {"definition": mu["definition"], "file": mu["file"], "edit": mu.get("edit") or (mu["old"] + "  ==>  " + mu["new"]),
             "claim_broken": mu["breaks"], "theorems_failed": bad, "modules_failed": blocked,
             "theorems_tightened": mu.get("tightened", []), "caught": r.returncode != 0}
    if wit is not None: entry["instance_refuted"] = mu["witness"]["claim"] if wit else False
    if mu.get("note"): entry["note"] = mu["note"]
    open(root + "/seeded/LOG.jsonl", "a").write(json.dumps(entry) + "\n")
    print("CAUGHT" if r.returncode else "SURVIVED", mu["definition"], "|", mu.get("edit") or mu["old"][:60], "|", bad[:6], flush=True)
