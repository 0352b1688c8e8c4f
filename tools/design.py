"""Regenerate the list of disagreements at the end of DESIGN.md from the documentation of the counterexample theorems."""
import re, glob, os
root = os.path.dirname(os.path.dirname(os.path.abspath(__file__)))
out = []
for m in sorted(glob.glob(root + '/lean/Verif/Props/*.lean')):
    s = open(m).read()
    for a in re.finditer(r'/--((?:(?!-/).)*)-/\s*(?:private )?(?:theorem|lemma) (C\d+_\w*counterexample)\b', s, re.S):
        out.append((a.group(2), ' '.join(a.group(1).split())))
key = '## Where the code disagrees with the property'
d = open(root + '/DESIGN.md').read()
i = d.index(key)
open(root + '/DESIGN.md', 'w').write(d[:i] + key + '\n\nEach entry is a theorem; the list is also the list of suspected bugs for the maintainers.\n\n'
    + ''.join('* `%s`: %s\n' % x for x in sorted(out)))
