#!/usr/bin/env python3
"""Regenerates MANIFEST.json: collects theorems in lean/Verif/Props/*.lean whose docstring starts
with property tags (`/-- C19/C33: ...`), and the statuses/notes in tools/status.json."""
import json, re, glob, os
root = os.path.dirname(os.path.dirname(os.path.abspath(__file__)))
props = [json.loads(l) for l in open(root + '/properties.jsonl') if l.strip()]
status = json.load(open(root + '/tools/status.json'))
thms = {}
for f in sorted(glob.glob(root + '/lean/Verif/Props/*.lean')):
    s = open(f).read()
    for m in re.finditer(r'/--\s*(C\d+(?:/C\d+)*)(.*?)-/\s*(?:@\[[^\]]*\]\s*)?theorem\s+(\S+)', s, re.S):
        for c in m.group(1).split('/'):
            thms.setdefault(c, []).append('PyLisp.Props.' + m.group(3))
claims = []
for p in props:
    c = p['id']
    st = status.get(c, {})
    t = thms.get(c, [])
    s = st.get('status', 'proved' if t else 'partial')
    claims.append({'property': c, 'status': s, 'theorems': t, 'note': st.get('note', '')})
json.dump({'claims': claims}, open(root + '/MANIFEST.json', 'w'), indent=1)
for c in claims:
    print(c['property'], c['status'], len(c['theorems']))
ids = {p['id'] for p in props}
print('unknown tags:', sorted(set(thms) - ids))
