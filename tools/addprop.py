"""Append one property: reads a JSON object {id,title,statement,quantifier,why_tests_cant,anchors,modelled,proof,imports} on stdin."""
import json, sys
o = json.load(sys.stdin)
m, p, imps = o.pop('modelled'), o.pop('proof'), o.pop('imports', [])
ids = [json.loads(l)['id'] for l in open('properties.jsonl')]
assert o['id'] not in ids
prev = ids[-1]
with open('properties.jsonl', 'a') as f:
    f.write(json.dumps(o, ensure_ascii=False) + '\n')
d = open('DESIGN.md').read().split('\n')
k = [i for i, l in enumerate(d) if l.startswith('| %s |' % prev)][0]
d.insert(k + 1, '| %s | %s | %s | %s |' % (o['id'], o['title'], m, p))
open('DESIGN.md', 'w').write('\n'.join(d))
v = open('lean/Verif.lean').read()
for i in imps:
    if 'import ' + i + '\n' not in v:
        v = 'import ' + i + '\n' + v
open('lean/Verif.lean', 'w').write(v)
