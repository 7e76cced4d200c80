"""Regenerates the two generated sections of DESIGN.md: findings (from MANIFEST.json and properties.jsonl) and the
axioms of every listed theorem (from `#print axioms`, needs a finished `lake build`)."""
import json, re, subprocess, textwrap

D = '/verif/DESIGN.md'
man = json.load(open('/verif/MANIFEST.json'))['claims']
props = {json.loads(l)['id']: json.loads(l) for l in open('/verif/properties.jsonl')}


def section(doc, name, body):
    a, b = f'<!-- begin {name} -->', f'<!-- end {name} -->'
    i, j = doc.index(a) + len(a), doc.index(b)
    return doc[:i] + '\n' + body.strip('\n') + '\n' + doc[j:]


doc = open(D).read()

rows = []
for c in man:
    v = [t for t in c['theorems'] if t.endswith('_violated')]
    if v:
        rows.append(f"* **{c['property']}** {props[c['property']]['title']}. {c['note']}\n  "
                    + ', '.join(f'`{t}`' for t in v))
doc = section(doc, 'findings', '\n'.join(rows))

names = [t for c in man for t in c['theorems']]
seen = list(dict.fromkeys(names))
src = 'import Verif\n' + '\n'.join(f'#print axioms {t}' for t in seen)
open('/tmp/axioms.lean', 'w').write(src)
out = subprocess.run(['lake', 'env', 'lean', '/tmp/axioms.lean'], cwd='/verif/lean', capture_output=True, text=True).stdout
got = {}
for m in re.finditer(r"'([^']+(?:'[^' ]*)?)' (does not depend on any axioms|depends on axioms: \[([^\]]*)\])", out):
    got[m.group(1)] = tuple(sorted(x.strip() for x in (m.group(3) or '').split(',') if x.strip()))
missing = [t for t in seen if t not in got]
assert not missing, missing[:5]
groups = {}
for t in seen:
    groups.setdefault(got[t], []).append(t)
body = []
for k in sorted(groups, key=lambda k: (len(k), k)):
    title = ', '.join(f'`{x}`' for x in k) or 'no axioms'
    body.append(f"**{title}** ({len(groups[k])} theorems)\n")
    by = {}
    for t in groups[k]:
        ns, _, n = t.rpartition('.')
        by.setdefault(ns, []).append(n)
    for ns in sorted(by):
        body.append(textwrap.fill(f"* {ns}: " + ', '.join(by[ns]), 110, subsequent_indent='  ',
                                  break_long_words=False, break_on_hyphens=False))
    body.append('')
doc = section(doc, 'axioms', '\n'.join(body))
open(D, 'w').write(doc)
print(len(seen), {k: len(v) for k, v in groups.items()})
