import re,json
class P:
    def __init__(s,t): s.t=t; s.i=0
    def ws(s):
        while True:
            m=re.compile(r'\s+|//[^\n]*|/\*.*?\*/',re.S).match(s.t,s.i)
            if not m: return
            s.i=m.end()
    def peek(s): s.ws(); return s.t[s.i] if s.i<len(s.t) else ''
    def expect(s,c):
        s.ws(); assert s.t.startswith(c,s.i),(c,s.t[s.i:s.i+80]); s.i+=len(c)
    def string(s):
        if s.t[s.i]=='`':
            j=s.t.index('`',s.i+1); r=s.t[s.i+1:j]; s.i=j+1; return r
        m=re.compile(r'"(?:\\.|[^"\\])*"').match(s.t,s.i); s.i=m.end()
        return json.loads(re.sub(r'\\x([0-9a-f]{2})',r'\\u00\1',m.group(0)).replace("\\'","'"))
    def expr(s):
        r=s.prim()
        while s.peek()=='+':
            s.i+=1; r2=s.prim(); r=r+r2
        return r
    def prim(s):
        c=s.peek()
        if c in '"`': return s.string()
        if c=='&': s.i+=1; return s.prim()
        if c=='{': return s.comp(None)
        m=re.compile(r"'(.)'").match(s.t,s.i)
        if m: s.i=m.end(); return m.group(1)
        m=re.compile(r'-?\d+').match(s.t,s.i)
        if m: s.i=m.end(); return int(m.group(0))
        m=re.compile(r'(\[\])?(map\[\w+\])?[\[\]\*]*[\w.]+(\{\})?').match(s.t,s.i)
        if s.t.startswith('func(',s.i): # func literal
            d=0;j=s.t.index('{',s.i)
            k=j
            while True:
                if s.t[k]=='{': d+=1
                if s.t[k]=='}':
                    d-=1
                    if d==0: break
                k+=1
            r={'func':s.t[s.i:k+1]}; s.i=k+1; return r
        ty=m.group(0)
        if ty.endswith('{}'): ty=ty[:-2]
        s.i=m.start()+len(ty)
        if s.peek()=='{' : return s.comp(ty)
        while s.peek() in '.(':
            if s.peek()=='.':
                m=re.compile(r'\.\w+').match(s.t,s.i); ty+=m.group(0); s.i=m.end()
            else:
                s.expect('('); a=[]
                while s.peek()!=')':
                    a.append(s.expr())
                    if s.peek()==',': s.i+=1
                s.expect(')'); return {'call':ty,'args':a}
        return {'ident':ty}
    def comp(s,ty):
        s.expect('{'); L=[];K={}
        while s.peek()!='}':
            m=re.compile(r'(\w+|"(?:\\.|[^"\\])*"):').match(s.t,s.i)
            if m:
                s.i=m.end(); K[m.group(1).strip('"')]=s.expr()
            else: L.append(s.expr())
            if s.peek()==',': s.i+=1
        s.expect('}')
        return {'ty':ty,'list':L,'kv':K}
