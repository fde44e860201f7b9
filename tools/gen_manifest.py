#!/usr/bin/env python3
"""Regenerate MANIFEST.json from the theorem names in lean/Verif (a theorem Cxx_... belongs to property Cxx)."""
import glob, json, re, os
root = os.path.dirname(os.path.dirname(os.path.abspath(__file__)))
props = [json.loads(l) for l in open(root + '/properties.jsonl') if l.strip()]
notes = json.load(open(root + '/tools/notes.json'))
thms = {}
for f in sorted(glob.glob(root + '/lean/Verif/**/*.lean', recursive=True)):
    ns = []
    for line in open(f):
        m = re.match(r'namespace (\S+)', line)
        if m: ns.append(m.group(1))
        m = re.match(r'end (\S+)', line)
        if m and ns and ns[-1] == m.group(1): ns.pop()
        m = re.match(r'(?:@\[[^\]]*\] )?theorem (C(\d\d+)_\S+)', line)
        if m: thms.setdefault('C' + m.group(2), []).append('.'.join(ns + [m.group(1)]))
claims = []
for p in props:
    i = p['id']
    n = notes.get(i, {})
    t = thms.get(i, [])
    status = n.get('status', 'proved')
    if not t:
        continue
    claims.append({'property': i, 'status': status, 'theorems': t, 'note': n.get('note', p['title'])})
json.dump({'claims': claims}, open(root + '/MANIFEST.json', 'w'), indent=1, ensure_ascii=False)
missing = [p['id'] for p in props if p['id'] not in thms]
print(len(claims), 'claims; missing:', missing, 'theorems without property:', sorted(set(thms) - {p['id'] for p in props}))
