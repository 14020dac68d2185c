import re,sys,collections
def parse(path, start, end):
    src=open(path,encoding='utf8').read().split('\n')
    txt='\n'.join(src[start-1:end])
    # tokenise
    tok=re.findall(r"'(?:\\u\{[0-9a-fA-F]+\}|\\.|[^'\\])'|'''|\"(?:[^\"\\]|\\.)*\"|Node|transitions|output|None|Some|vec!|[\[\]\(\)\{\}:,;]|\S",txt)
    return tok
def ch(t):
    b=t[1:-1]
    if b.startswith('\\u'): return chr(int(b[3:-1],16))
    if b.startswith('\\'): return {'n':'\n',"'":"'",'\\':'\\'}[b[1:]]
    return b
class P:
    def __init__(s,t): s.t=t; s.i=0
    def pk(s): return s.t[s.i]
    def nx(s): s.i+=1; return s.t[s.i-1]
    def ex(s,*xs):
        for x in xs:
            y=s.nx(); assert y==x,(x,y,s.t[s.i-5:s.i+5])
    def trans(s):
        # None | Some(vec![..]) | vec![..]
        if s.pk()=='None': s.nx(); return None
        opt=False
        if s.pk()=='Some': s.nx(); s.ex('('); opt=True
        s.ex('vec!','[')
        r=[]
        while s.pk()!=']':
            s.ex('('); c=ch(s.nx()); s.ex(','); n=s.node()
            if s.pk()==',': s.nx()
            s.ex(')')
            if s.pk()==',': s.nx()
            r.append((c,n))
        s.ex(']')
        if opt:
            if s.pk()==',': s.nx()
            s.ex(')')
        return r
    def node(s):
        s.ex('Node','{','transitions',':'); t=s.trans(); s.ex(',','output',':')
        if s.pk()=='None': s.nx(); o=None
        elif s.pk()=='Some': s.nx(); s.ex('('); o=s.nx()[1:-1]; s.ex(')')
        else: o=s.nx()[1:-1]
        if s.pk()==',': s.nx()
        s.ex('}')
        return (t,o)
def load(path):
    src=open(path,encoding='utf8').read().split('\n')
    st=[i for i,l in enumerate(src) if 'let transitions' in l][0]
    toks=parse(path,st+1,len(src))
    p=P(toks)
    i=toks.index('=')
    p.i=i+1
    return p.trans()
if __name__=='__main__':
    for f in ['to_kana','to_romaji']:
        t=load(f'/repo/src/{f}_node_tree.rs')
        def cnt(t): return sum(1+cnt(n[0]) for c,n in (t or []))
        def dep(t): return 1+max([0]+[dep(n[0]) for c,n in t]) if t else 0
        print(f,len(t),cnt(t),dep(t))
        def walk(t,p):
            ks=[c for c,_ in t or []]
            d=[k for k,v in collections.Counter(ks).items() if v>1]
            if d: print('dups at',repr(p),d,[(c,[x for x,_ in (n[0] or [])],n[1]) for c,n in t if c in d])
            if ks!=sorted(ks): print('unsorted at',repr(p))
            for c,n in t or []:
                if n[0]==[]: pass
                walk(n[0],p+c)
        walk(t,'')
        def dump(t,p):
            for c,n in t or []:
                print(p+c, '->',n[1], end=' ; ')
                dump(n[0],p+c)
        dump(t,''); print()
