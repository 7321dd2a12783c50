#!/usr/bin/env python3
"""Writes AXIOMS.md: the axioms every manifest theorem depends on, via `#print axioms` in a scratch file."""
import json,re,subprocess,os
root=os.path.dirname(os.path.dirname(os.path.abspath(__file__)))
m=json.load(open(root+'/MANIFEST.json'))
t=[x for c in m['claims'] for x in c['theorems']]
open('/tmp/ax.lean','w').write("import Verif\n"+"\n".join(f"#print axioms {x}" for x in t)+"\n")
s=subprocess.run(["lake","env","lean","/tmp/ax.lean"],cwd=root+"/lean",capture_output=True,text=True).stdout
g={}
for k in re.finditer(r"'([^']+)' (depends on axioms: \[([^\]]*)\]|does not depend on any axioms)",s):
    g.setdefault(re.sub(r"\s+"," ",k.group(3) or "no axioms"),[]).append(k.group(1))
assert sum(map(len,g.values()))==len(t)
with open(root+"/AXIOMS.md","w") as f:
    f.write("# Axioms per theorem\n\nGenerated by `tools/axioms.py`.\n")
    for a in sorted(g):
        f.write(f"\n## {a}\n\n"+"".join(f"* `{x}`\n" for x in g[a]))
