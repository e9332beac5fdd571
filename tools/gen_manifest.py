"""Collect the theorems named C<nn>_... from lean/Verif/Props and write MANIFEST.json.

Status and notes come from tools/status.json ({"C01": ["proved", "note"], ...})."""
import json, pathlib, re
root = pathlib.Path(__file__).resolve().parent.parent
status = json.loads((root / "tools/status.json").read_text())
ids = [json.loads(l)["id"] for l in (root / "properties.jsonl").read_text().splitlines() if l]
thms = {i: [] for i in ids}
for f in sorted((root / "lean/Verif/Props").rglob("*.lean")):
    ns = []
    for line in f.read_text().splitlines():
        if m := re.match(r"namespace (\S+)", line):
            ns.append(m.group(1))
        elif m := re.match(r"end (\S+)", line):
            if ns and ns[-1] == m.group(1):
                ns.pop()
        elif m := re.match(r"theorem (C(\d\d+)_\S+)", line):
            thms["C" + m.group(2)].append(".".join(ns + [m.group(1)]))
claims = []
for i in ids:
    if not thms[i]:
        continue
    st, note = status.get(i, ["partial", "in progress"])
    claims.append({"property": i, "status": st, "theorems": thms[i], "note": note})
(root / "MANIFEST.json").write_text(json.dumps({"claims": claims}, indent=1) + "\n")
print(len(claims), "claims,", sum(len(c["theorems"]) for c in claims), "theorems; missing:",
      [i for i in ids if not thms[i]])
