"""Regenerate Verif.lean and MANIFEST.json from the theorem names in lean/Verif/Props."""
import json, re, glob, os
root = os.path.dirname(os.path.dirname(os.path.abspath(__file__)))
mods = sorted(glob.glob(root + '/lean/Verif/**/*.lean', recursive=True))
with open(root + '/lean/Verif.lean', 'w') as f:
    for m in mods:
        f.write('import ' + os.path.relpath(m, root + '/lean')[:-5].replace('/', '.') + '\n')
notes = json.load(open(root + '/tools/notes.json'))
thms = {}
docs = {}
for m in mods:
    if '/Props/' not in m: continue
    src = open(m).read()
    for a in re.finditer(r'/--((?:(?!-/).)*)-/\s*(?:private )?(?:theorem|lemma) (C\d+_\w+)', src, re.S):
        docs[a.group(2)] = ' '.join(a.group(1).split())
    ns = []
    for line in src.split('\n'):
        a = re.match(r'namespace (\S+)', line)
        if a: ns.append(a.group(1))
        a = re.match(r'end (\S+)', line)
        if a and ns and ns[-1] == a.group(1): ns.pop()
        a = re.match(r'(?:private )?(?:theorem|lemma) (C(\d\d\d?)_\S+)', line)
        if a: thms.setdefault('C' + a.group(2), []).append('.'.join(ns + [a.group(1)]))
def auto_note(t):
    """The documentation of the theorems that bound the claim: where it holds, and where the code refutes it."""
    names = [x.split('.')[-1] for x in t]
    part = [x for x in names if x.endswith('_partial')]
    bad = [x for x in names if x.endswith('counterexample')]
    out = []
    if part: out.append('PROVED PART: ' + ' | '.join(docs.get(x, x) for x in part))
    if bad: out.append('THE CODE REFUTES THE REST: ' + ' | '.join('[' + x + '] ' + docs.get(x, x) for x in bad))
    return ' '.join(out)

props = [json.loads(l) for l in open(root + '/properties.jsonl')]
claims = []
for p in props:
    i = p['id']
    t = thms.get(i, [])
    if not t:
        if i in notes: claims.append({'property': i, 'status': 'not_applicable', 'theorems': [], 'note': notes[i]})
        continue
    st = 'partial' if any(x.endswith('_partial') or x.endswith('counterexample') for x in t) else 'proved'
    claims.append({'property': i, 'status': st, 'theorems': t, 'note': notes.get(i) or auto_note(t)})
json.dump({'claims': claims}, open(root + '/MANIFEST.json', 'w'), indent=1)
print({s: sum(c['status'] == s for c in claims) for s in ('proved', 'partial', 'not_applicable')})
for k in thms:
    if k not in [p['id'] for p in props]: print('no property for', k)
