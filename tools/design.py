"""Writes /verif/DESIGN.md from design_head.md, design_tail.md, how.json, properties.jsonl, MANIFEST.json and ax.txt
(ax.txt: theorem and axioms, one per line, printed by Ax.txt run as a Lean file)."""
import json, re, glob, collections
T = '/verif/tools/'
props = [json.loads(l) for l in open('/verif/properties.jsonl')]
man = {c['property']: c for c in json.load(open('/verif/MANIFEST.json'))['claims']}
how = json.load(open(T + 'how.json'))
ax = {}
for l in open(T + 'ax.txt'):
    if '\t' in l:
        n, a = l.rstrip('\n').split('\t')
        ax[n] = set(x.strip() for x in a.strip('[]').split(',') if x.strip())
where = {}
for f in sorted(glob.glob('/verif/lean/Verif/Props/*.lean')):
    for m in re.finditer(r'^(?:@\[[^\]]*\] *)?theorem (C\d\d\w*)', open(f).read(), re.M):
        where[m.group(1)] = f.split('/')[-1]
o = open('/verif/DESIGN.md', 'w')
o.write(open(T + 'design_head.md').read())
o.write("\n## Properties\n\nFor each: the claim in full, its status, what is modelled and how it is proved, the theorems, and, for a partial one,\nwhat is missing.  The English statement with quantifier is in properties.jsonl.  `_false` theorems are\ncounterexamples to the full claim; the code, not the model, is the reason.\n")
for p in props:
    i = p['id']
    c = man[i]
    o.write(f"\n### {i} {p['title']} ({c['status']})\n\n")
    o.write(f"*Claim:* {p['statement']}\n*For:* {p['quantifier']}.\n\n")
    o.write(f"*How:* {how[i]}\n\n")
    o.write(f"*Result:* {c['note']}\n\n")
    g = collections.OrderedDict()
    for t in c['theorems']:
        n = t.split('.')[-1]
        g.setdefault(where.get(n, '?'), []).append(n)
    o.write("*Theorems:* " + '; '.join(f"Props/{f}: " + ', '.join(f'`{n}`' for n in ns) for f, ns in g.items()) + ".\n")
    a = set().union(*[ax.get(t, {'?'}) for t in c['theorems']])
    o.write("*Axioms:* " + (', '.join(sorted(a)) if a else 'none') + ".\n")
o.write("\n" + open(T + 'design_tail.md').read())
