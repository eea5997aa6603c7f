#!/usr/bin/env python3
"""Applies edits to a scratch copy of the model, rebuilds, and logs which declarations fail.

usage: mutate.py edits.json   (list of {file, defn, old, new, claim, target})
The scratch copy is /tmp/mut; results are appended to seeded/LOG.jsonl.
"""
import json, os, re, subprocess, sys
ROOT = os.path.join(os.path.dirname(os.path.abspath(__file__)), "..")
MUT = "/tmp/mut"
def decl_at(path, line):
    name = "?"
    for i, l in enumerate(open(path, encoding="utf-8"), 1):
        if i > line: break
        m = re.match(r"(?:private |protected |noncomputable )*(theorem|def|instance|example|inductive|structure|abbrev)\s*(\S*)", l)
        if m: name = m.group(2) if m.group(1) != "example" else "example@%d" % i
    return name
def main():
    edits = json.load(open(sys.argv[1], encoding="utf-8"))
    subprocess.check_call(["rsync", "-a", "--delete", os.path.join(ROOT, "lean") + "/", MUT + "/"]) if os.path.exists("/usr/bin/rsync") else subprocess.check_call("rm -rf %s && cp -a %s/lean %s" % (MUT, ROOT, MUT), shell=True)
    for e in edits:
        p = os.path.join(MUT, e["file"])
        src = open(p, encoding="utf-8").read()
        if src.count(e["old"]) != 1:
            print("SKIP (old text occurs %d times): %s" % (src.count(e["old"]), e["old"][:60])); continue
        open(p, "w", encoding="utf-8").write(src.replace(e["old"], e["new"]))
        r = subprocess.run(["lake", "build", e["target"]], cwd=MUT, capture_output=True, text=True)
        out = r.stdout + r.stderr
        failed = []
        for m in re.finditer(r"error: (Verif/\S+?\.lean):(\d+):", out):
            d = decl_at(os.path.join(MUT, m.group(1)), int(m.group(2)))
            tag = m.group(1)[6:-5].replace("/", ".") + ":" + d
            if tag not in failed: failed.append(tag)
        open(p, "w", encoding="utf-8").write(src)
        print("%s | %s" % ("KILLED" if failed else "SURVIVED", e["claim"])); print("    ", failed[:8])
        if failed or e.get("log_survivor"):
            row = dict(definition=e["defn"], edit=e["old"].strip() + "  ==>  " + e["new"].strip(), claim=e["claim"],
                       failed=failed, tightened=e.get("tightened", []))
            if not failed: row["note"] = e.get("note", "survived")
            open(os.path.join(ROOT, "seeded", "LOG.jsonl"), "a", encoding="utf-8").write(json.dumps(row, ensure_ascii=False) + "\n")
main()
