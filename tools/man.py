import json,re,glob,collections
# status/notes by property; theorems found automatically by the C## prefix
notes=json.load(open('/tmp/w/notes.json'))
th=collections.defaultdict(list)
for f in sorted(glob.glob('/verif/lean/Verif/Props/*.lean')):
    ns=[]
    for l in open(f):
        m=re.match(r'namespace (\S+)',l)
        if m: ns.append(m.group(1))
        m=re.match(r'end (\S+)',l)
        if m and ns and ns[-1]==m.group(1): ns.pop()
        m=re.match(r'(?:@\[[^\]]*\] *)?theorem (C\d\d\w*)',l)
        if m: th[m.group(1)[:3] if not re.match(r'C\d\d\d',m.group(1)) else m.group(1)[:4]].append('.'.join(ns+[m.group(1)]))
claims=[]
for l in open('/verif/properties.jsonl'):
    i=json.loads(l)['id']
    if i in notes and th[i]:
        st,n=notes[i]
        claims.append(dict(property=i,status=st,theorems=th[i],note=n))
    elif th[i]: print('no note',i,th[i])
    else: print('missing',i)
json.dump({"claims":claims},open('/verif/MANIFEST.json','w'),indent=1)
