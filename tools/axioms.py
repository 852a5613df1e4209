#!/usr/bin/env python3
"""Print the axioms every theorem of MANIFEST.json depends on into AXIOMS.txt (run after `lake build`)."""
import json, os, re, subprocess, tempfile, collections
root = os.path.dirname(os.path.dirname(os.path.abspath(__file__)))
thms = [t for c in json.load(open(f"{root}/MANIFEST.json"))["claims"] for t in c["theorems"]]
src = "import Verif\n" + "".join(f"#print axioms {t}\n" for t in thms)
with tempfile.NamedTemporaryFile("w", suffix=".lean", delete=False) as f: f.write(src)
out = subprocess.run(["lake", "env", "lean", f.name], cwd=f"{root}/lean", capture_output=True, text=True).stdout
out = re.sub(r"\s+", " ", out)
res = re.findall(r"'(\S+?)' (does not depend on any axioms|depends on axioms: \[[^\]]*\])", out)
assert len(res) == len(thms), (len(res), len(thms))
with open(f"{root}/AXIOMS.txt", "w") as f:
    for t, a in res: f.write(f"{t.replace('Fundu.Props.', '')}: {a}\n")
print(collections.Counter(a for _, a in res))
