"""Rebuild MANIFEST.json: theorem names Cnn_* come from lean/Verif/Props, status and
notes from scripts/status.json (default status: proved if theorems exist)."""
import json, pathlib, re
root = pathlib.Path(__file__).resolve().parent.parent
thms = {}
for f in sorted((root / "lean/Verif/Props").glob("*.lean")):
    ns = []
    for line in f.read_text().splitlines():
        m = re.match(r"namespace (\S+)", line)
        if m:
            ns.append(m.group(1))
        m = re.match(r"end (\S+)", line)
        if m and ns and ns[-1] == m.group(1):
            ns.pop()
        m = re.match(r"(?:protected )?theorem ((C\d\d+)_\S+)", line)
        if m:
            thms.setdefault(m.group(2), []).append(".".join(ns + [m.group(1)]))
status = json.loads((root / "scripts/status.json").read_text())
claims = []
for line in (root / "properties.jsonl").read_text().splitlines():
    pid = json.loads(line)["id"]
    st = status.get(pid, {})
    names = thms.get(pid, [])
    if not names:
        claims.append({"property": pid, "status": "partial", "theorems": [],
                       "note": st.get("note", "not yet modelled")})
        continue
    claims.append({"property": pid, "status": st.get("status", "proved"),
                   "theorems": names, "note": st.get("note", "")})
(root / "MANIFEST.json").write_text(json.dumps({"claims": claims}, indent=1) + "\n")
print(sum(len(c["theorems"]) for c in claims), "theorems;",
      [c["property"] for c in claims if not c["theorems"]])
