"""Write MANIFEST.json from the theorem names in lean/Verif/Props and the notes below."""
import glob, json, re, os
root = os.path.dirname(os.path.dirname(os.path.abspath(__file__)))
props = [json.loads(l) for l in open(f"{root}/properties.jsonl")]
thms = {}
for f in sorted(glob.glob(f"{root}/lean/Verif/Props/*.lean")):
    scopes = []
    for line in open(f):
        if m := re.match(r"(namespace|section)\b *(\S*)", line):
            scopes.append(m.group(2) if m.group(1) == "namespace" else "")
        elif re.match(r"end\b", line):
            scopes.pop()
        elif m := re.match(r"(?:theorem|instance) ((C\d+)_\w+)", line):
            thms.setdefault(m.group(2), []).append(".".join([x for x in scopes if x] + [m.group(1)]))
notes = json.load(open(f"{root}/tools/notes.json"))
claims = []
for p in props:
    t = thms.get(p["id"], [])
    # counterexamples alone belong to statements that say what is false
    partial = any(x.endswith("_partial") for x in t)
    status = "partial" if partial or not t else "proved"
    claims.append({"property": p["id"], "status": status, "theorems": t,
                   "note": notes.get(p["id"], "" if t else "not yet proved")})
json.dump({"claims": claims}, open(f"{root}/MANIFEST.json", "w"), indent=1, ensure_ascii=False)
