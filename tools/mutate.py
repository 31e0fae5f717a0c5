#!/usr/bin/env python3
"""Seed a bug into a scratch copy of the model and rebuild it.
usage: mutate.py FILE(relative to lean/Verif) DEFINITION CLAIM  <<< "OLD\n====\nNEW"
Appends the outcome to seeded/LOG.jsonl."""
import sys, json, re, subprocess, pathlib, shutil, fcntl
root = pathlib.Path("/verif"); scratch = pathlib.Path("/tmp/mut")
file, definition, claim = sys.argv[1:4]
tight = sys.argv[4] if len(sys.argv) > 4 else ""
old, new = sys.stdin.read().removesuffix("\n").split("\n====\n")
scratch.mkdir(exist_ok=True)
# One at a time: two runs in the same scratch copy would record each other's failures.
lock = open("/tmp/mut.lock","w"); fcntl.flock(lock, fcntl.LOCK_EX)
subprocess.run(["rsync","-a","--delete",str(root/"lean")+"/",str(scratch/"lean")+"/"],check=True) if shutil.which("rsync") else (shutil.rmtree(scratch/"lean",ignore_errors=True), subprocess.run(["cp","-a",str(root/"lean"),str(scratch/"lean")],check=True))
f = scratch/"lean/Verif"/file
s = f.read_text()
if s.count(old) != 1: print("PATTERN COUNT", s.count(old)); sys.exit(2)
f.write_text(s.replace(old,new))
r = subprocess.run(["lake","build"],cwd=scratch/"lean",capture_output=True,text=True)
out = r.stdout + r.stderr
failed = {}
for m in re.finditer(r"error: (Verif/\S+?\.lean):(\d+):(\d+)", out):
    p, ln = m.group(1), int(m.group(2))
    lines = (scratch/"lean"/p).read_text().splitlines()
    name = None
    for i in range(min(ln,len(lines))-1, -1, -1):
        mm = re.match(r"(?:@\[[^\]]*\] )?(?:private )?(theorem|example|def|abbrev|instance)\b ?(\S*)", lines[i])
        if mm:
            name = mm.group(2) if mm.group(1) != "example" else f"example@{i+1}"
            break
    failed.setdefault(p, [])
    if name not in failed[p]: failed[p].append(name)
print(json.dumps(failed, indent=1))
# A failure in a file that does not import the mutated one has another cause, so the run shows nothing.
def imports(p, seen):
    if p not in seen and (scratch/"lean"/p).exists():
        seen.add(p)
        for m in re.findall(r"^import (Verif\.\S+)", (scratch/"lean"/p).read_text(), re.M): imports(m.replace(".","/")+".lean", seen)
    return seen
if any("Verif/"+file not in imports(p, set()) for p in failed):
    print("UNRELATED FAILURE, not logged"); sys.exit(4)
# A mutant that does not elaborate is not a wrong program: it says nothing about the theorems.
if any(p.startswith(("Verif/Model/","Verif/Spec/")) for p in failed) or (r.returncode and not failed):
    print("INVALID MUTANT, not logged"); sys.exit(3)
# lake does not build Props after a failure in Proofs, so a helper-only failure shows that a proof
# script broke, not that the property itself is false of the mutant.
evidence = ("none" if not failed else
            "property" if any(p.startswith("Verif/Props/") for p in failed) else "helper-lemma-only")
entry = dict(definition=definition, file="lean/Verif/"+file, edit=dict(old=old,new=new), claim_broken=claim,
             theorems_failed=[f"{p}: {n}" for p, ns in failed.items() for n in ns],
             build_failed=r.returncode != 0, evidence=evidence, theorems_tightened=tight)
with open(root/"seeded/LOG.jsonl","a") as g: g.write(json.dumps(entry, ensure_ascii=False)+"\n")
print("BUILD", "FAILED (good)" if r.returncode else "SUCCEEDED (theorems too weak?)")
