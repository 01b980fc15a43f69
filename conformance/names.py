"""Compares names in the code with those in the model, as texts: the license list and constants of the RDF reader, the
tags of the tag-value reader and writer, the keys of JSON."""
import glob, os, re
here = os.path.dirname(os.path.abspath(__file__))
lean = open(os.path.join(here, '../lean/Verif/Model/RdfTerms.lean')).read()
model = ''.join(open(f).read() for f in glob.glob(os.path.join(here, '../lean/Verif/Model/*.lean')))
def lits(s): return re.findall(r'"((?:[^"\\]|\\.)*)"', s)
def block(name):
    i = lean.index('def ' + name + ' ')
    j = lean.find('\n\n', i)
    return lits(lean[i:j])
for v in ('v2_2', 'v2_3'):
    go = open(f'/repo/spdx/v2/{v}/rdf/reader/constants.go').read()
    code = re.sub(r'//.*', '', go)
    lst = lits(go[go.index('func AllStandardLicenseIDS'):])
    print(v, 'license list:', 'same' if lst == block('allStandardLicenseIDs') else 'DIFF', len(lst))
    consts = {}
    for m in re.finditer(r'(\w+)\s*=\s*(?:(\w+)\s*\+\s*)?"([^"]*)"', go[:go.index('func ')]):
        consts[m.group(1)] = (consts.get(m.group(2), 'http://www.w3.org/1999/02/22-rdf-syntax-ns#') if m.group(2) else '') + m.group(3)
    used = ''
    d = f'/repo/spdx/v2/{v}/rdf/reader'
    for f in os.listdir(d):
        if f.endswith('.go') and not f.endswith('_test.go') and f != 'constants.go':
            used += open(os.path.join(d, f)).read()
    known = set(lits(model))
    missing = [(k, x) for k, x in consts.items() if re.search(r'\b' + k + r'\b', used) and not k.startswith('NS_') and x not in known]
    print(v, 'constants that are used:', 'same' if not missing else 'DIFF %s' % missing)
for v in ('v2_1', 'v2_2', 'v2_3'):
    known = set(lits(model))
    tags = set()
    for f in glob.glob(f'/repo/spdx/v2/{v}/tagvalue/reader/*.go'):
        if not f.endswith('_test.go'):
            for m in re.finditer(r'\bcase ((?:"[^"]*",?\s*)+):', open(f).read()): tags |= set(lits(m.group(1)))
    missing = sorted(t for t in tags if t not in known)
    print(v, 'tags that are read:', len(tags), 'same' if not missing else 'DIFF %s' % missing)
    tags = set()
    for f in glob.glob(f'/repo/spdx/v2/{v}/tagvalue/writer/*.go'):
        if not f.endswith('_test.go'):
            tags |= set(re.findall(r'Fprintf\(w, "([A-Za-z]+):', open(f).read()))
    missing = sorted(t for t in tags if t not in known and t + ': ' not in known and t + ':' not in known)
    print(v, 'tags that are written:', len(tags), 'same' if not missing else 'DIFF %s' % missing)
for v in ('v2_2', 'v2_3'):
    keys = set()
    for f in glob.glob(f'/repo/spdx/v2/{v}/*.go') + glob.glob('/repo/spdx/v2/common/*.go'):
        if not f.endswith('_test.go'):
            keys |= set(re.findall(r'json:"([A-Za-z]+)', open(f).read()))
    missing = sorted(k for k in keys if k not in known)
    print(v, 'JSON keys:', len(keys), 'same' if not missing else 'DIFF %s' % missing)
