#!/usr/bin/env python3
"""mutate.py MUTANTS.json [--log]
Apply each mutant {file, definition, old, new, edit, claim} to a scratch copy of the Lean project, rebuild and report which
declarations no longer check. With --log, append the outcome to seeded/LOG.jsonl."""
import json, sys, subprocess, pathlib, re, shutil
root = pathlib.Path(__file__).resolve().parent.parent
scratch = pathlib.Path("/tmp/mut/lean")
def sync():
    scratch.parent.mkdir(exist_ok=True)
    subprocess.run(["rsync","-a","--delete",f"{root}/lean/",f"{scratch}/"],check=True) if shutil.which("rsync") else (
        shutil.rmtree(scratch, ignore_errors=True), shutil.copytree(root/"lean", scratch, symlinks=True))
def decl_at(path, line):
    lines = (scratch/path).read_text().split("\n")
    for i in range(min(line, len(lines))-1, -1, -1):
        m = re.match(r"\s*(?:@\[[^\]]*\]\s*)?(?:private |protected |noncomputable )*(theorem|def|example|instance|lemma|structure|inductive)\s*([^\s:({\[]*)", lines[i])
        if m: return m.group(2) or m.group(1)
    return "?"
def main():
    muts = json.load(open(sys.argv[1])); log = "--log" in sys.argv
    sync()
    for m in muts:
        p = scratch/"Verif"/m["file"]; orig = p.read_text()
        n = orig.count(m["old"])
        if n == 0: print("NOT FOUND", m["definition"], m["edit"]); continue
        p.write_text(orig.replace(m["old"], m["new"], 1))
        r = subprocess.run(["lake","build"],cwd=scratch,capture_output=True,text=True,timeout=1800)
        out = r.stdout + r.stderr
        failed = []
        for f, l in re.findall(r"error: (?:\./)?(Verif/[\w/]+\.lean):(\d+):", out):
            d = decl_at(f, int(l))
            s = f"{pathlib.Path(f).stem}.{d}"
            if s not in failed: failed.append(s)
        nb = sorted(set(re.findall(r"Verif\.(?:Props|Lemmas|Spec|Model)\.\w+", "\n".join(x for x in out.split("\n") if x.startswith("- ")))))
        p.write_text(orig)
        res = "SURVIVED" if r.returncode == 0 else "killed"
        print(res, "|", m["definition"], "|", m["edit"], "|", failed[:8], flush=True)
        if log:
            e = {"definition": m["definition"], "file": "lean/Verif/"+m["file"], "edit": m["edit"], "claim": m["claim"],
                 "theorems_failed": failed, "modules_failed": nb, "theorems_tightened": m.get("tightened", []),
                 "outcome": res.lower() if res=="killed" else m.get("outcome","survived")}
            with open(root/"seeded"/"LOG.jsonl","a") as fh: fh.write(json.dumps(e)+"\n")
main()
