"""Writes MANIFEST.json: every theorem named Cnn_... under lean/Verif/Theorems and lean/Verif/Instances is listed under
property Cnn.  Theorems whose name ends in _partial make the property partial unless it is listed in FULL."""
import json, os, re, glob
HERE = os.path.dirname(os.path.abspath(__file__))
NOTES = {}
NA = {}
FULL = set()
names = {}
for f in sorted(glob.glob(os.path.join(HERE, "../lean/Verif/Theorems/*.lean")) +
                glob.glob(os.path.join(HERE, "../lean/Verif/Instances/*.lean"))):
    for m in re.finditer(r"^(?:@\[[^\]]*\] )?theorem ((C\d+)_\w+)", open(f).read(), re.M):
        names.setdefault(m.group(2), []).append("ZkHash." + m.group(1))
out = []
ids = [json.loads(l)["id"] for l in open(os.path.join(HERE, "../properties.jsonl"))]
for k in ids:
    if k in names:
        partial = any(n.endswith("_partial") for n in names[k]) and k not in FULL
        out.append({"property": k, "status": "partial" if partial else "proved", "theorems": names[k],
                    "note": NOTES.get(k, "")})
    elif k in NA:
        out.append({"property": k, "status": "not_applicable", "theorems": [], "note": NA[k]})
    else:
        print("missing", k)
json.dump({"claims": out}, open(os.path.join(HERE, "..", "MANIFEST.json"), "w"), indent=1)
