#!/usr/bin/env python3
"""Writes the axioms of every claimed theorem into DESIGN.md (run after mkmanifest.py and a build)."""
import os, re, subprocess
ROOT = os.path.join(os.path.dirname(os.path.abspath(__file__)), "..")
r = subprocess.run(["lake", "env", "lean", "/tmp/Audit.lean"], cwd=os.path.join(ROOT, "lean"), capture_output=True, text=True)
text = re.sub(r"\s*\n\s+", " ", r.stdout)
groups = {}
for line in text.splitlines():
    m = re.match(r"'(\S+)' (?:depends on axioms: \[(.*)\]|does not depend on any axioms)", line)
    if not m: print("??", line); continue
    ax = tuple(sorted(x.strip() for x in (m.group(2) or "").split(",") if x.strip()))
    if m.group(1) not in groups.setdefault(ax, []): groups[ax].append(m.group(1))
bad = [a for a in groups if set(a) - {"propext", "Classical.choice", "Quot.sound"}]
if bad: print("BAD AXIOMS", bad)
out = ["## Axioms per theorem", "", "Generated by `tools/axioms.py` from `#print axioms`.", ""]
for ax in sorted(groups):
    out += ["**%s**" % (", ".join(ax) or "no axioms"), ""]
    by = {}
    for t in groups[ax]:
        ns, n = t.rsplit(".", 1); by.setdefault(ns, []).append(n)
    out += ["* `%s`: %s" % (ns, ", ".join("`%s`" % n for n in by[ns])) for ns in sorted(by)] + [""]
p = os.path.join(ROOT, "DESIGN.md")
s = open(p, encoding="utf-8").read()
s = s.split("## Axioms per theorem")[0].rstrip() + "\n\n" + "\n".join(out).rstrip() + "\n"
open(p, "w", encoding="utf-8").write(s)
print({", ".join(a): len(v) for a, v in groups.items()}, r.stderr[:300])
