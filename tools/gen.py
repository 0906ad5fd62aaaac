#!/usr/bin/env python3
"""Generate lean/Verif/Gen/*.lean from the Go sources in /repo (read as text).

Run: python3 tools/gen.py        (from /verif; the output is committed)
"""
import re, glob, os
REPO = '/repo'
OUT = os.path.join(os.path.dirname(os.path.abspath(__file__)), '..', 'lean', 'Verif', 'Gen')

def src(f):
    return open(os.path.join(REPO, f)).read().split('\n')

def files():
    return [os.path.basename(f) for f in sorted(glob.glob(REPO + '/*.go')) if not f.endswith('_test.go')]

HEAD = '/-! Generated from /repo by tools/gen.py; do not edit. -/\n'

def write(name, imports, body):
    p = os.path.join(OUT, name + '.lean')
    os.makedirs(OUT, exist_ok=True)
    with open(p, 'w') as f:
        f.write(''.join('import %s\n' % i for i in imports) + '\n' + HEAD + '\nnamespace Stix\n\n' + body + '\nend Stix\n')

def b(s):
    return 'b!"%s"' % s

# ---------------------------------------------------------------- type constants
def gen_types():
    ls = src('data-types.go')
    consts = []
    for n, l in enumerate(ls, 1):
        m = re.match(r'\s*(Type\w+) STIXType = "([^"]*)"', l)
        if m: consts.append((m.group(1), m.group(2), n))
    i0 = next(i for i, l in enumerate(ls) if l.startswith('var AllTypes'))
    i1 = next(i for i in range(i0, len(ls)) if ls[i] == '}')
    allt = [l.strip().rstrip(',') for l in ls[i0+1:i1]]
    exts = []
    for n, l in enumerate(ls, 1):
        m = re.match(r'\s*(Ext\w+) = "([^"]*)"', l)
        if m: exts.append((m.group(1), m.group(2), n))
    o = []
    for c, v, n in consts:
        o.append('/-- `%s` (data-types.go:%d) -/\ndef %s : Str := %s' % (c, n, c, b(v)))
    o.append('/-- `AllTypes` (data-types.go:%d-%d) -/\ndef allTypes : List Str :=\n  [%s]' % (i0+1, i1+1, ',\n   '.join(allt)))
    o.append('/-- All declared type constants, `TypeBundle` included (data-types.go:%d-%d). -/\ndef typeConsts : List Str :=\n  [%s]' % (consts[0][2], consts[-1][2], ',\n   '.join(c for c, _, _ in consts)))
    for c, v, n in exts:
        o.append('/-- `%s` (data-types.go:%d) -/\ndef %s : Str := %s' % (c, n, c, b(v)))
    rels = []
    for n, l in enumerate(src('relationship.go'), 1):
        m = re.match(r'\s*(RelationshipType\w+)\s+RelationshipType = "([^"]*)"', l)
        if m: rels.append((m.group(1), m.group(2), n))
    for c, v, n in rels:
        o.append('/-- `%s` (relationship.go:%d) -/\ndef %s : Str := %s' % (c, n, c, b(v)))
    write('TypeConsts', ['Verif.Model.Basic'], '\n\n'.join(o) + '\n')
    return dict((c, v) for c, v, _ in consts), allt

# ---------------------------------------------------------------- enumerations
def gen_enums():
    o = []; ids = []
    for f in files():
        ls = src(f); txt = '\n'.join(ls)
        for n, l in enumerate(ls, 1):
            m = re.match(r'type (\w+) (uint8|byte)$', l)
            if not m: continue
            ty = m.group(1)
            # the const block of this type: iota numbering
            ci = next(i for i, x in enumerate(ls) if re.match(r'\s*\w+ %s = iota' % ty, x))
            base = 1 if 'iota + 1' in ls[ci] else 0
            vals = {}; i = ci; k = base
            while ls[i] != ')':
                s = ls[i].strip()
                if s and not s.startswith('//'):
                    vals[s.split()[0]] = k; k += 1
                i += 1
            mi = next(i for i, x in enumerate(ls) if re.match(r'var \w+ = map\[%s\]string\{' % ty, x))
            table = []; i = mi + 1
            while ls[i] != '}':
                mm = re.match(r'\s*(\w+):\s*"([^"]*)",', ls[i]); table.append((vals[mm.group(1)], mm.group(2), mm.group(1))); i += 1
            ui = next(i for i, x in enumerate(ls) if re.match(r'func \(\w+ \*%s\) UnmarshalJSON' % ty, x))
            j = ui
            while ls[j] != '}': j += 1
            body = '\n'.join(ls[ui:j])
            if 'json.Unmarshal(b, &s)' in body: mode = 'viaString'
            elif 'len(b) < 3' in body: mode = 'guarded'
            else: mode = 'sliced'
            ids.append((ty, f, n, table, mode, mi + 1, i + 1, ui + 1, j + 1, len(vals), base))
    o.append('/-- The enumerated types (defined types over `uint8`/`byte` with a name table). -/\ninductive EnumId where')
    o[-1] += ''.join('\n  /-- %s:%d -/\n  | %s' % (f, n, ty) for ty, f, n, *_ in ids) + '\n  deriving DecidableEq, Repr'
    o.append('''/-- How `UnmarshalJSON` of an enumeration gets at the name. -/
inductive EnumMode where
  /-- `b[1:len(b)-1]` with no length check -/
  | sliced
  /-- `len(b) < 3` yields the zero value, otherwise `b[1:len(b)-1]` -/
  | guarded
  /-- decodes a JSON string first, errors included -/
  | viaString
  deriving DecidableEq, Repr''')
    o.append('/-- The name tables (value, name), in source order.\n' + ''.join('  %s: %s:%d-%d\n' % (ty, f, a, c) for ty, f, n, t, m, a, c, *_ in ids) + '-/\ndef enumTable : EnumId → List (UInt8 × Str)\n' +
        '\n'.join('  | .%s => [%s]' % (ty, ', '.join('(%d, %s)' % (v, b(s)) if s else '(%d, [])' % v for v, s, _ in t)) for ty, f, n, t, *_ in ids))
    o.append('/-- The decoding style of each enumeration.\n' + ''.join('  %s: %s:%d-%d\n' % (ty, f, u, j) for ty, f, n, t, m, a, c, u, j, *_ in ids) + '-/\ndef enumMode : EnumId → EnumMode\n' +
        '\n'.join('  | .%s => .%s' % (ty, m) for ty, f, n, t, m, *_ in ids))
    o.append('/-- The declared constants of each enumeration (the values of its `const` block). -/\ndef enumConsts : EnumId → List UInt8\n' +
        '\n'.join('  | .%s => [%s]' % (x[0], ', '.join(str(x[10]+i) for i in range(x[9]))) for x in ids))
    o.append('def allEnums : List EnumId := [%s]' % ', '.join('.' + x[0] for x in ids))
    write('Enums', ['Verif.Model.Basic'], '\n\n'.join(o) + '\n')
    return [x[0] for x in ids]

# ---------------------------------------------------------------- structs
STRTYPES = ['string', 'Identifier', 'STIXType', 'Hex', 'RelationshipType', 'WindowsPEBinaryType', 'HashAlgorithm']
BASES = ['STIXRelationshipObject', 'STIXDomainObject', 'STIXCyberObservableObject']

def parse_structs():
    """name -> (file, first, last, base or None, [(field, gotype, key, omit, line)])"""
    r = {}
    for f in files():
        ls = src(f)
        for n, l in enumerate(ls, 1):
            m = re.match(r'type (\w+) struct \{$', l)
            if not m: continue
            base = None; fs = []; i = n
            while ls[i] != '}':
                t = ls[i].strip()
                if t and not t.startswith('//'):
                    mm = re.match(r'(\w+)\s+(\S+)\s+`json:"([^"]*)"`$', t)
                    if mm:
                        parts = mm.group(3).split(',')
                        assert parts[1:] in ([], ['omitempty']), t
                        fs.append((mm.group(1), mm.group(2), parts[0], len(parts) > 1, i + 1))
                    elif t in BASES: base = t
                    else: assert t in ('toplevelProperties *CustomObject', 'time.Time') or m.group(1) == 'Collection', t
                i += 1
            r[m.group(1)] = (f, n, i + 1, base, fs)
    return r

def ty(g, enums, structs):
    if g in STRTYPES: return '.str (%s)' % b(g)
    if g == 'bool': return '.bool'
    if g in ('int', 'int64'): return '.int (%s)' % b(g)
    if g == 'float64': return '.flt'
    if g in enums: return '.enum .%s' % g
    if g == 'Binary': return '.bin'
    if g == 'Timestamp': return '.time'
    if g == 'interface{}': return '.dyn'
    if g == 'Extensions': return '.ext knownExts'
    if g == 'json.RawMessage': return '.raw'
    if g == 'Hashes': return '.map (%s) (%s) (.str (%s))' % (b('Hashes'), b('HashAlgorithm'), b('string'))
    if g == 'CustomObject': return '.map (%s) (%s) .dyn' % (b('CustomObject'), b('string'))
    if g.startswith('[]'): return '.slice (%s)' % ty(g[2:], enums, structs)
    if g.startswith('*'): return '.ptr (%s)' % ty(g[1:], enums, structs)
    m = re.match(r'map\[(\w+)\](.*)$', g)
    if m: return '.map [] (%s) (%s)' % (b(m.group(1)), ty(m.group(2), enums, structs))
    if g in structs: return '.struct (%s) fields%s' % (b(g), g)
    raise Exception(g)

def deps(g, structs):
    g = re.sub(r'^(\[\]|\*|map\[\w+\])+', '', g)
    return [g] if g in structs and g not in ('Timestamp',) else (['Extensions'] if g == 'Extensions' else [])

def ext_cases():
    ls = src('extension.go'); r = []
    for n, l in enumerate(ls, 1):
        m = re.match(r'\s*case (Ext\w+):', l)
        if m:
            r.append((m.group(1), re.match(r'\s*ext = &(\w+)\{\}', ls[n]).group(1), n))
    return r

def gen_structs(enums):
    st = parse_structs()
    ext = ext_cases()
    dispatch = []
    ls = src('stix.go')
    for n, l in enumerate(ls, 1):
        m = re.match(r'\s*case (Type\w+):', l)
        if m: dispatch.append((m.group(1), re.match(r'\s*obj = &(\w+)\{\}', ls[n]).group(1), n))
    objs = [d[1] for d in dispatch]
    done = set(); o = []
    def emit(g):
        if g in done: return
        done.add(g)
        if g == 'Extensions':
            for _, s, _ in ext: emit(s)
            o.append('/-- The structs `Extensions.UnmarshalJSON` knows (extension.go:%d-%d), in the order of its cases. -/\ndef knownExts : Known := mkKnown\n  [%s]' % (
                ext[0][2], ext[-1][2] + 1, ',\n   '.join('(%s, %s, fields%s)' % (k, b(s), s) for k, s, _ in ext)))
            return
        f, a, z, base, fs = st[g]
        if base: emit(base)
        for x in fs:
            for d in deps(x[1], st): emit(d)
        o.append('/-- `%s` (%s:%d-%d)%s -/\ndef fields%s : Fields := mkFields\n  [%s]' % (g, f, a, z, ': the fields of its own, beside the embedded `%s`' % base if base else '', g,
            ',\n   '.join('⟨%s, %s, %s, %s⟩' % (b(x[0]), b(x[2]), 'true' if x[3] else 'false', ty(x[1], enums, st)) for x in fs)))
    for g in objs: emit(g)
    emit('Bundle')
    o.append('/-- The Go struct types of the library that are STIX objects. -/\ninductive SId where\n' + ''.join('  /-- %s:%d -/\n  | %s\n' % (st[g][0], st[g][1], g) for g in objs) + '  deriving DecidableEq, Repr')
    o.append('/-- The embedded struct of an object type. -/\ninductive Base where\n  /-- object.go:36-118 -/\n  | sro\n  /-- object.go:173-257 -/\n  | sdo\n  /-- object.go:318-350 -/\n  | sco\n  /-- no embedded struct -/\n  | none\n  deriving DecidableEq, Repr')
    bn = {'STIXRelationshipObject': 'sro', 'STIXDomainObject': 'sdo', 'STIXCyberObservableObject': 'sco', None: 'none'}
    o.append('/-- Which struct is embedded. -/\ndef baseOf : SId → Base\n' + '\n'.join('  | .%s => .%s' % (g, bn[st[g][3]]) for g in objs))
    o.append('/-- The Go name of the struct. -/\ndef goName : SId → Str\n' + '\n'.join('  | .%s => %s' % (g, b(g)) for g in objs))
    o.append('/-- The fields of each struct without those of the embedded one. -/\ndef ownFields : SId → Fields\n' + '\n'.join('  | .%s => fields%s' % (g, g) for g in objs))
    o.append('/-- The fields of the embedded structs. -/\ndef baseFields : Base → Fields\n  | .sro => fieldsSTIXRelationshipObject\n  | .sdo => fieldsSTIXDomainObject\n  | .sco => fieldsSTIXCyberObservableObject\n  | .none => .nil')
    o.append('def allSIds : List SId :=\n  [%s]' % ', '.join('.' + g for g in objs))
    o.append('/-- The cases of the type switch in `processObjects` (stix.go:%d-%d). -/\ndef dispatchTable : List (Str × SId) :=\n  [%s]' % (dispatch[0][2], dispatch[-1][2] + 1,
        ',\n   '.join('(%s, .%s)' % (t, g) for t, g, _ in dispatch)))
    # which types have addCustomProperties and marshalToJSONHelper
    cust = set(); mj = set()
    for f in files():
        t = '\n'.join(src(f))
        cust |= set(re.findall(r'func \(\w+ \*(\w+)\) addCustomProperties', t))
        mj |= set(re.findall(r'func \(\w+ \*(\w+)\) MarshalJSON\(\) \(\[\]byte, error\) \{\n\s*return marshalToJSONHelper', t))
    o.append('/-- The type has a method `addCustomProperties` (interface `canHaveExtensions`, stix.go:31-33):\nobject.go:120-122, 259-261, 352-354 for the embedded structs, meta.go:139-141, 275-277. -/\ndef canHaveExtensions : SId → Bool\n' +
        '\n'.join('  | .%s => %s' % (g, 'true' if (g in cust or st[g][3] in cust) else 'false') for g in objs))
    where = []
    for f in files():
        for i, l in enumerate(src(f)):
            m = re.match(r'func \(\w+ \*(\w+)\) MarshalJSON\(\)', l)
            if m and m.group(1) in mj: where.append('%s:%d-%d' % (f, i + 1, i + 3))
    o.append('/-- The type has a `MarshalJSON` that calls `marshalToJSONHelper`; the others are written by `encoding/json` itself.\n(' +
        ',\n'.join(', '.join(where[i:i + 5]) for i in range(0, len(where), 5)) + ') -/\ndef hasMarshalHelper : SId → Bool\n' +
        '\n'.join('  | .%s => %s' % (g, 'true' if g in mj else 'false') for g in objs))
    # typed getters
    t = '\n'.join(ls); gets = []
    for m in re.finditer(r'func \(c \*Collection\) (\w+)\(id Identifier\) \*(\w+) \{\n\s*obj := c\.getObject\((Type\w+), id\)\n\s*if obj == nil \{\n\s*return nil\n\s*\}\n\s*return obj\.\(\*(\w+)\)\n\}', t):
        gets.append(('singular', m.group(1), m.group(2), m.group(3), m.group(4), t[:m.start()].count('\n') + 1))
    for m in re.finditer(r'func \(c \*Collection\) (\w+)\(\) \[\]\*(\w+) \{\n\s*data := make\(\[\]\*(\w+), 0, len\(c\.objects\[(Type\w+)\]\)\)\n\s*for _, v := range c\.objects\[(Type\w+)\] \{\n\s*data = append\(data, v\.\(\*(\w+)\)\)\n\s*\}\n\s*return data\n\}', t):
        assert m.group(4) == m.group(5) and m.group(2) == m.group(3) == m.group(6)
        gets.append(('plural', m.group(1), m.group(2), m.group(4), m.group(6), t[:m.start()].count('\n') + 1))
    assert all(g[2] == g[4] for g in gets)
    sing = [g for g in gets if g[0] == 'singular']; plur = [g for g in gets if g[0] == 'plural']
    nfun = len(re.findall(r'func \(c \*Collection\)', t))
    print('getters', len(sing), len(plur), 'of', nfun, 'methods')
    for nm, gs in (('singularGetters', sing), ('pluralGetters', plur)):
        o.append('/-- %s typed getters of `Collection` (stix.go:%d-%d): method, type constant, Go type asserted. -/\ndef %s : List (Str × Str × SId) :=\n  [%s]' % (
            'Singular' if nm[0] == 's' else 'Plural', gs[0][5], gs[-1][5] + 7, nm, ',\n   '.join('(%s, %s, .%s)' % (b(g[1]), g[3], g[4]) for g in gs)))
    write('Structs', ['Verif.Gen.TypeConsts', 'Verif.Model.Types'], '\n\n'.join(o) + '\n')
    return st

# ---------------------------------------------------------------- options
def gen_options(enums, st):
    t = '\n'.join(src('option.go')); rows = []
    for m in re.finditer(r'func (Option\w+)\((\w+) (\S+)\) STIXOption \{\n\treturn func\(obj STIXObject\) error \{\n\t\treturn setField\(obj, "(\w+)", (\w+), reflect\.(\w+)\)\n\t\}\n\}', t):
        assert m.group(2) == m.group(5)
        rows.append((m.group(1), m.group(3), m.group(4), m.group(6), t[:m.start()].count('\n') + 1))
    nf = re.findall(r'\nfunc (Option\w+)\(', t)
    print('options', len(rows), 'of', len(nf), set(nf) - set(r[0] for r in rows))
    kinds = dict(String='string', Ptr='ptr', Bool='bool', Slice='slice', Int='int', Int64='int64', Float64='float64', Map='map', Uint8='uint8', Struct='struct')
    o = ['/-- An option function that sets a field: its name, the type of its parameter, the field it\nnames and the kind it expects. -/\nstructure OptRow where\n  name : Str\n  ty : Ty\n  field : Str\n  kind : Kind']
    for r in rows:
        o.append('/-- option.go:%d-%d -/\ndef %s : OptRow := ⟨%s, %s, %s, .%s⟩' % (r[4], r[4] + 4, r[0], b(r[0]), ty(r[1], enums, st), b(r[2]), kinds[r[3]]))
    o.append('/-- Every option function that calls `setField`. -/\ndef optTable : List OptRow :=\n  [%s]' % ',\n   '.join(r[0] for r in rows))
    write('Options', ['Verif.Gen.Structs'], '\n\n'.join(o) + '\n')

# ---------------------------------------------------------------- extension accessors
def gen_option_docs(st):
    L = src('option.go')
    rows = []
    special = {'STIX Domain Objects': '.domain', 'STIX Relationships Objects': '.relationship',
               'STIX Cyber-observable Objects': '.observable', 'Bundle': '.bundle',
               'All types execpt Bundle and Extension.': '.allButExtension',
               'STIX ExtensionDefinition': '.kind .ExtensionDefinition'}
    for i, l in enumerate(L):
        m = re.match(r'func (Option\w+)\(', l)
        if not m: continue
        j = i
        while L[j - 1].startswith('//'): j -= 1
        items = [re.sub(r'^//\s*-\s*', '', x).strip() for x in L[j:i] if re.match(r'^//\s*-\s', x)]
        rows.append((m.group(1), [special.get(x) or '.kind .' + x for x in items], j + 1, i))
    o = ['/-- An entry of the list of types in the comment of an option function. -/\ninductive Audience where\n  | domain\n  | relationship\n  | observable\n  | bundle\n  | allButExtension\n  | kind (s : SId)\n  deriving DecidableEq, Repr',
     '/-- What the comments of the option functions say they are valid for (option.go:%d-%d).  (One comment has an empty list.) -/\ndef optionDocs : List (Str × List Audience) :=\n  [%s]' % (rows[0][2], rows[-1][3],
       ',\n   '.join('(%s, [%s])' % (b(r[0]), ', '.join(r[1])) for r in rows))]
    write('OptionDocs', ['Verif.Gen.Structs'], '\n\n'.join(o) + '\n')

def gen_extgetters():
    rows = []
    for f in files():
        t = '\n'.join(src(f))
        for m in re.finditer(r'func \((\w) \*(\w+)\) (\w+)\(\) \*(\w+) \{\n\s*data, ok := (\w)\.Extensions\[(Ext\w+)\]\n\s*if !ok \{\n\s*return nil\n\s*\}\n\s*return data\.\(\*(\w+)\)\n\}', t):
            assert m.group(1) == m.group(5) and m.group(4) == m.group(7)
            rows.append((f, t[:m.start()].count('\n') + 1, m.group(2), m.group(3), m.group(6), m.group(7)))
        n = len(re.findall(r'\.Extensions\[Ext', t))
        assert n == len([r for r in rows if r[0] == f]), f
    print('extension accessors', len(rows))
    write('ExtGetters', ['Verif.Gen.Structs'],
        '/-- Methods that return an extension (%s): method, receiver, key, Go type asserted. -/\ndef extGetters : List (Str × SId × Str × Str) :=\n  [%s]\n' % (
        ', '.join('%s:%d-%d' % (r[0], r[1], r[1] + 6) for r in rows).replace(', file.go:78', ',\nfile.go:78').replace(', network.go:115', ',\nnetwork.go:115'),
        ',\n   '.join('(%s, .%s, %s, %s)' % (b(r[3]), r[2], r[4], b(r[5])) for r in rows)))

# ---------------------------------------------------------------- relationship helpers
def gen_rels(st):
    rows = []
    for f in files():
        t = '\n'.join(src(f))
        for m in re.finditer(r'func \((\w+) \*(\w+)\) (Add\w+)\(id Identifier, opts \.\.\.STIXOption\) \(\*Relationship, error\) \{\n(.*?)\n\}', t, re.S):
            n = t[:m.start()].count('\n') + 1
            body = re.sub(r'//.*', '', m.group(4)); flat = ' '.join(body.split())
            mm = re.match(r'^(?:if (.*?) \{ return nil, ErrInvalidParameter \} )?return NewRelationship\((RelationshipType\w+), (\w+)\.ID, id, opts\.\.\.\)$', flat)
            assert mm and mm.group(3) == m.group(1), flat
            g = mm.group(1)
            if g is None: guard = 'none'; allowed = None
            else:
                assert g.startswith('!IsValidIdentifier(id)')
                g = g[len('!IsValidIdentifier(id)'):]
                if g == '': guard = 'valid'; allowed = []
                else:
                    g = g[len(' || '):]
                    mt = re.match(r'^!id\.ForTypes\(([^)]*)\)$', g)
                    if mt: allowed = mt.group(1).split(', ')
                    else:
                        allowed = re.findall(r'!id\.ForType\((Type\w+)\)', g)
                        rest = re.sub(r'!id\.ForType\(Type\w+\)', 'X', g).replace('(', '').replace(')', '')
                        assert re.match(r'^X( && X)*$', rest), g
                    guard = 'types'
            rows.append((m.group(2), m.group(3), mm.group(2), guard, allowed, f, n, n + m.group(0).count('\n')))
    print('helpers', len(rows), 'of', sum(len(re.findall(r'\nfunc \(\w+ \*\w+\) Add\w+\(id', '\n'.join(src(f)))) for f in files()))
    bn = {'STIXDomainObject': '.base .sdo', 'STIXCyberObservableObject': '.base .sco'}
    o = ['/-- The receiver type of a method: an object struct or one of the embedded structs. -/\ninductive Recv where\n  | obj (s : SId)\n  | base (b : Base)\n  deriving DecidableEq, Repr',
     '/-- The test before the relationship is made. -/\ninductive Guard where\n  /-- none -/\n  | none\n  /-- `IsValidIdentifier(id)` -/\n  | valid\n  /-- `IsValidIdentifier(id)` and `id.ForTypes(…)`; a conjunction of negated `ForType` calls is the same -/\n  | types (ts : List Str)',
     '/-- A relationship helper method: receiver, name, guard, relationship type. -/\nstructure RelRow where\n  recv : Recv\n  name : Str\n  guard : Guard\n  rel : Str']
    names = []
    for r in rows:
        nm = r[0] + '_' + r[1]; names.append(nm)
        o.append('/-- `%s.%s` (%s:%d-%d) -/\ndef %s : RelRow := ⟨%s, %s, %s, %s⟩' % (r[0], r[1], r[5], r[6], r[7], nm, bn.get(r[0], '.obj .' + r[0]), b(r[1]),
            {'none': '.none', 'valid': '.valid', 'types': '.types [%s]' % ', '.join(r[4] or [])}[r[3]], r[2]))
    o.append('/-- Every relationship helper. -/\ndef relTable : List RelRow :=\n  [%s]' % ',\n   '.join(names))
    write('Rels', ['Verif.Gen.Structs'], '\n\n'.join(o) + '\n')

if __name__ == '__main__':
    TYPES, ALL = gen_types()
    ENUMS = gen_enums()
    ST = gen_structs(ENUMS)
    gen_options(ENUMS, ST)
    gen_option_docs(ST)
    gen_rels(ST)
    gen_extgetters()
