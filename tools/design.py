"""Fill the generated parts of DESIGN.md: the table of properties and the axioms.

Usage: python3 tools/design.py [output of `#print axioms` for every theorem of the manifest]
"""
import json, re, sys
from collections import defaultdict

proofs = json.load(open('tools/proofs.json'))
claims = json.load(open('MANIFEST.json'))['claims']
text = open('DESIGN.md').read()


def fill(name, body):
    global text
    a, b = '<!-- %s -->' % name, '<!-- /%s -->' % name
    i, j = text.index(a) + len(a), text.index(b)
    text = text[:i] + '\n' + body + '\n' + text[j:]


rows = ['| id | status | modelled | proof | gap or remark |', '|---|---|---|---|---|']
for c in claims:
    m, p = proofs[c['property']]
    rows.append('| %s | %s | %s | %s | %s |' % (c['property'], c['status'], m, p, c['note'].replace('|', '\\|')))
fill('table', '\n'.join(rows))

if len(sys.argv) > 1:
    out = re.sub(r'\n\s+', ' ', open(sys.argv[1]).read())
    groups = defaultdict(list)
    for line in out.splitlines():
        m = re.match(r"'Stix\.(.*)' depends on axioms: \[(.*)\]", line)
        if m:
            groups[m.group(2)].append(m.group(1))
        else:
            m = re.match(r"'Stix\.(.*)' does not depend", line)
            if not m:
                sys.exit('unexpected line: ' + line)
            groups['no axioms'].append(m.group(1))
    body = []
    for k in sorted(groups, key=len):
        body.append('* %s (%d): %s' % (k, len(groups[k]), ', '.join('`%s`' % t for t in groups[k])))
    fill('axioms', '\n'.join(body))

open('DESIGN.md', 'w').write(text)
