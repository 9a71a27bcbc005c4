#!/usr/bin/env python3
"""Seed a bug in a scratch copy of the model and see which theorems stop proving.

usage: mutate.py FILE.json   (list of {file, def, old, new, claim, expect})
Results are appended to seeded/LOG.jsonl.  A mutation nothing notices is printed as SURVIVED.
"""
import json, os, re, shutil, subprocess, sys

ROOT = os.path.dirname(os.path.dirname(os.path.abspath(__file__)))
SCRATCH = os.environ.get("SCRATCH", "/tmp/mut/lean")
DECL = re.compile(r"^(?:private |@\[[^\]]*\] )*(theorem|example|def|instance|inductive|structure|abbrev)\s*(\S*)")


def sync():
    subprocess.run(["mkdir", "-p", SCRATCH], check=True)
    subprocess.run(["rm", "-rf", SCRATCH + "/Verif"], check=True)
    subprocess.run(["cp", "-r", ROOT + "/lean/Verif", SCRATCH + "/Verif"], check=True)
    for f in os.listdir(ROOT + "/lean"):
        if f not in ("Verif", ".lake"):
            shutil.copy(os.path.join(ROOT, "lean", f), SCRATCH)
    # The test vectors are concrete runs; a bug only they notice is not noticed by a theorem.
    v = open(SCRATCH + "/Verif.lean").read().split("\n")
    open(SCRATCH + "/Verif.lean", "w").write("\n".join(l for l in v if ".Props.Vectors" not in l))
    if not os.path.exists(SCRATCH + "/.lake"):
        subprocess.run(["cp", "-rp", ROOT + "/lean/.lake", SCRATCH + "/.lake"], check=True)


def failures(out):
    res = []
    for m in re.finditer(r"^error: (Verif/\S+?\.lean):(\d+):\d+", out, re.M):
        lines = open(os.path.join(SCRATCH, m.group(1))).read().split("\n")
        name = "?"
        for i in range(int(m.group(2)) - 1, -1, -1):
            d = DECL.match(lines[i])
            if d:
                name = d.group(2) if d.group(1) != "example" else "example at %s:%d" % (m.group(1), i + 1)
                break
        if name not in res:
            res.append(name)
    blocked = sorted(set(re.findall(r"^- (Verif\S*)", out, re.M)))
    return res, blocked


def main():
    muts = json.load(open(sys.argv[1]))
    for mu in muts:
        sync()
        p = os.path.join(SCRATCH, "Verif", mu["file"])
        s = open(p).read()
        assert s.count(mu["old"]) >= 1, mu
        if mu.get("all"):
            s = s.replace(mu["old"], mu["new"])
        else:
            i = s.index(mu["def"]) if mu.get("at_def", True) else 0
            j = s.index(mu["old"], i)
            s = s[:j] + mu["new"] + s[j + len(mu["old"]):]
        open(p, "w").write(s)
        r = subprocess.run(["lake", "build"] + mu.get("targets", []), cwd=SCRATCH, capture_output=True, text=True)
        failed, blocked = failures(r.stdout + r.stderr)
        print("SURVIVED" if r.returncode == 0 else "killed", mu["def"], "|", mu["new"][:60], "|", failed[:6], flush=True)
        entry = {"definition": mu["file"] + ": " + mu["def"], "edit": mu["old"] + "  ->  " + mu["new"], "claim": mu["claim"],
                 "failed": failed, "modules_not_built": blocked, "tightened": mu.get("tightened", [])}
        if r.returncode == 0:
            entry["note"] = mu.get("note", "survived")
        with open(os.path.join(ROOT, "seeded/LOG.jsonl"), "a") as f:
            f.write(json.dumps(entry) + "\n")


main()
