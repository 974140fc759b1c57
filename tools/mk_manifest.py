"""Writes MANIFEST.json from tools/claims.py."""
import json, os, sys
here = os.path.dirname(os.path.abspath(__file__))
sys.path.insert(0, here)
sys.dont_write_bytecode = True
from claims import CLAIMS
out = {"claims": [{"property": p, "status": s, "theorems": [("Verif.Props." + t) for t in ts], "note": n}
                  for p, s, ts, n in CLAIMS]}
json.dump(out, open(os.path.join(here, "..", "MANIFEST.json"), "w"), indent=1, ensure_ascii=False)
