from goparse import *
src=open('/repo/lex_test.go').read()
i=src.index('= []lexFixture{')+2
fx=P(src[i:]).expr()
out=[]
for f in fx['list']:
    out.append((f['list'][0],[(t['list'][0],t['list'][1]) for t in f['list'][1]['list']]))
json.dump(out,open('lexfx.json','w'))
print(len(out),[o[0] for o in out])
src=open('/repo/parse_test.go').read()
i=src.index('= []parseFixture{')+2
fx=P(src[i:]).expr()
print(len(fx['list']))
for f in fx['list']: print(f['list'][0],f['list'][1],json.dumps({k:v for k,v in f['list'][2]['kv'].items()})[:300])
json.dump(fx,open('parsefx.json','w'))
