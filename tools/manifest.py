#!/usr/bin/env python3
"""Write MANIFEST.json: the theorems of property Cnn are those named cnn_* under Verif/Props."""
import re, glob, json, os
R = os.path.join(os.path.dirname(os.path.abspath(__file__)), '..')
notes = json.load(open(R + '/tools/notes.json'))
thms = {}
for f in sorted(glob.glob(R + '/lean/Verif/Props/*.lean')):
    s = open(f).read()
    # strip block comments
    s = re.sub(r'/-.*?-/', '', s, flags=re.S)
    ns = []
    for l in s.split('\n'):
        m = re.match(r'namespace (\S+)', l)
        if m: ns.append(m.group(1))
        m = re.match(r'end (\S+)', l)
        if m and ns and ns[-1] == m.group(1): ns.pop()
        m = re.match(r'(?:@\[[^\]]*\] )?theorem (c(\d\d)_\w+)', l)
        if m: thms.setdefault('C' + m.group(2), []).append('.'.join(ns + [m.group(1)]))
claims = []
for l in open(R + '/properties.jsonl'):
    p = json.loads(l)
    st, note = notes.get(p['id'], ['partial', 'not yet proved'])
    claims.append({'property': p['id'], 'status': st, 'theorems': thms.get(p['id'], []), 'note': note})
    if not thms.get(p['id']): print('no theorem:', p['id'])
json.dump({'claims': claims}, open(R + '/MANIFEST.json', 'w'), indent=1)
