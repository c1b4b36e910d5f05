"""Regenerate MANIFEST.json from the theorem names Cnn_* in lean/Verif/Props and notes.json."""
import re, json, glob, os
root = os.path.dirname(os.path.dirname(os.path.abspath(__file__)))
thms = {}
for f in sorted(glob.glob(root + '/lean/Verif/Props/*.lean')):
    ns = 'Pysnobal.'
    for m in re.finditer(r'^theorem (C(\d+)_\w+)', open(f).read(), re.M):
        thms.setdefault('C' + m.group(2), []).append(ns + m.group(1))
notes = json.load(open(root + '/tools/notes.json'))
claims = []
for l in open(root + '/properties.jsonl'):
    p = json.loads(l)['id']
    n = notes.get(p, {})
    ts = thms.get(p, [])
    if not ts and 'status' not in n:
        continue
    st = n.get('status') or ('partial' if any(t.endswith('_partial') for t in ts) else 'proved')
    claims.append({'property': p, 'status': st, 'theorems': ts, 'note': n.get('note', '')})
json.dump({'claims': claims}, open(root + '/MANIFEST.json', 'w'), indent=1)
print(len(claims), sum(len(c['theorems']) for c in claims))
