"""Write MANIFEST.json from tools/claims.txt (property | status | theorems | note)."""
import json, os
here = os.path.dirname(os.path.abspath(__file__))
claims = []
for line in open(os.path.join(here, 'claims.txt')):
    line = line.rstrip('\n')
    if not line.strip() or line.startswith('#'):
        continue
    p, status, thms, note = [x.strip() for x in line.split('|', 3)]
    claims.append({"property": p, "status": status, "theorems": thms.split(), "note": note})
json.dump({"claims": claims}, open(os.path.join(here, '..', 'MANIFEST.json'), 'w'), indent=1)
