#!/usr/bin/env python3
"""Runs the model on the documents of /repo and compares with what the tests of /repo expect.

The model is executed by Lean (lean/Verif/Conform.lean); nothing of /repo is built or run.

* testresources/crashesCollectionAdd/*: an error, no panic (crash_test.go)
* testresources/**/*.json and every JSON text of an object in *_test.go: `FromJSON` gives a
  collection with each identifier of the document once, unless listed in ERRORS; and each object is
  written as it stands in the document, up to what `same` allows.
"""
import datetime, glob, json, os, re, subprocess, sys, tempfile

LEAN = os.path.join(os.path.dirname(os.path.abspath(__file__)), '..', 'lean')
REPO = '/repo'
# Texts the tests give to json.Unmarshal, where Collection.Add, which FromJSON calls, refuses the
# identifier; and those whose tests expect an error.
ERRORS = {'artifact_test.go:146': 'no id', 'process_test.go:152': 'the id is no UUID',
          'extension_test.go:20': 'test expects an error', 'extension_test.go:41': 'test expects an error',
          'extension_test.go:145': 'test expects an error'}
# Objects without a required property are read, but not written (C59).
UNWRITTEN = {'apt1-report.json': 78, 'bundle_test.go:16': 1, 'indicator_test.go:94': 1,
             'relationship_test.go:82': 1}
# The extended properties that all.json passes on from one object to later ones (C36).
PASSED_ON = {'rank', 'toxicity', 'action_type', 'action_reference', 'some_property_name1',
             'some_property_name2', 'created'}
# Members the structs do not have: "id" of an external reference, and a misspelt one.
UNKNOWN = {('all.json', 'external_references'), ('all.json', 'policy_contraints'),
           ('x509_test.go:115', 'policy_contraints')}


def run(mode, files):
    with tempfile.TemporaryDirectory() as tmp:
        start = os.path.join(tmp, 'start.lean')
        with open(start, 'w') as f:
            f.write('import Verif.Conform\ndef main := Stix.Conform.run\n')
        out = subprocess.run(['lake', 'env', 'lean', '--run', start, mode] + files,
                             cwd=LEAN, capture_output=True, text=True, check=True).stdout
    res = {}
    for line in out.splitlines():
        if line.startswith('@'):
            f, r = line[1:].rsplit(' ', 1)
            res[f] = (r, [])
        elif res:
            res[f][1].append(line)
    return res


def instant(s):
    m = re.fullmatch(r'(\d{4}-\d\d-\d\dT\d\d:\d\d:\d\d)(?:\.(\d+))?Z', s) if isinstance(s, str) else None
    return m and (m[1], ((m[2] or '') + '000')[:3])


def same(k, a, b, doc):
    """May the value a of a document be written as b?"""
    if a == b or (doc, k) in UNKNOWN:
        return True
    if a is None:
        return b is False or (doc == 'all.json' and k in PASSED_ON)
    if b is None:
        return a in ('', False, [], {}, 0)          # empty and optional
    if instant(a) and instant(a) == instant(b):     # truncated to milliseconds
        return True
    if k == 'payload_bin':                          # the spare bits of base64
        return a[:-3] == b[:-3]
    if k == 'extension_types':                      # an unknown type
        return a == ['invalid-type'] and b == ['']
    if isinstance(a, dict) and isinstance(b, dict):
        return all(same(x, a.get(x), b.get(x), doc) for x in set(a) | set(b))
    if isinstance(a, list) and isinstance(b, list) and len(a) == len(b):
        return all(same(k, x, y, doc) for x, y in zip(a, b))
    return False


def main():
    bad = 0
    crashes = sorted(glob.glob(REPO + '/testresources/crashesCollectionAdd/*'))
    for f, (r, _) in run('drop', crashes).items():
        if r != 'err':
            bad += 1
            print('expected an error:', f, r)
    with tempfile.TemporaryDirectory() as tmp:
        docs = {}
        for f in sorted(glob.glob(REPO + '/testresources/**/*.json', recursive=True)):
            docs[os.path.basename(f)] = open(f).read()
        for f in sorted(glob.glob(REPO + '/*_test.go')):
            s = open(f).read()
            for m in re.finditer(r'`([^`]*)`', s):
                name = '%s:%d' % (os.path.basename(f), s[:m.start()].count('\n') + 1)
                try:
                    d = json.loads(m[1])
                except ValueError:
                    continue
                if isinstance(d, list) and d and 'type' in d[0] or isinstance(d, dict) and d.get('type') == 'bundle':
                    docs[name] = m[1]
                elif isinstance(d, dict) and 'type' in d:
                    docs[name] = '[' + m[1] + ']'
        for n, t in docs.items():
            open(os.path.join(tmp, n), 'w').write(t)
        objects = 0
        for f, (r, lines) in run('keep', [os.path.join(tmp, n) for n in docs]).items():
            n = os.path.basename(f)
            if r != ('err' if n in ERRORS else 'ok'):
                bad += 1
                print('outcome:', n, r)
            if r != 'ok':
                continue
            d = json.loads(docs[n])
            src = {o['id']: o for o in (d['objects'] if isinstance(d, dict) else d)}
            out = [json.loads(l) for l in lines if l != '!']
            if lines.count('!') != UNWRITTEN.get(n, 0) or len(lines) != len(src):
                bad += 1
                print('objects:', n, len(src), len(out))
            for o in out:
                objects += 1
                s = src[o['id']]
                for k in set(s) | set(o):
                    if not same(k, s.get(k), o.get(k), n):
                        bad += 1
                        print('written:', n, o['id'], k, s.get(k), '=>', o.get(k))
    print(len(crashes), 'crash files,', len(docs), 'documents,', objects, 'objects,', bad, 'disagreements')
    return bad != 0


sys.exit(main())
