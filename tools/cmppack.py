import re,ast
def rhs(path,a,b):
    out=[]
    for l in open(path).read().split('\n')[a-1:b]:
        m=re.match(r'\s*(\w+)\s*((?:\[[^\]]*\])+)\s*=\s*(.*);\s*$',l)
        if m:
            def norm(s):
                s=re.sub(r'\(uint\d+_t\)','',s)
                s=re.sub(r'(\w+)((?:\[[^\]]*\])+)',lambda q:q.group(1)[0].replace('M','d')+'_'+(re.findall(r'\[([^\]]*)\]',q.group(2))[-1].replace(' ','').replace('offset_byte','').replace('offset_data','').replace('+','') or '0').replace('j','0'),s)
                s=s.strip()
                return s
            out.append((norm(m.group(1)+m.group(2)),ast.dump(ast.parse(norm(m.group(3)),mode='eval'))))
    return out
A='/repo/AVX_Implementation_KEM/'; R='/repo/Reference_Implementation_KEM/'
P='pack_unpack.c'
for n,a,b in [('3',(A+P,3,16),(R+P,5,16)),('u3',(A+P,18,37),(R+P,38,54)),('4',(A+P,39,49),(R+P,18,23)),('u4',(A+P,51,62),(R+P,56,62)),('6',(A+P,64,77),(R+P,25,32)),('u6',(A+P,80,95),(R+P,64,72)),
 ('p',(A+P,121,143),(R+P,119,132)),('q',(A+P,145,186),(R+P,78,99)),('up',(A+P,188,206),(R+P,134,146)),('uq',(A+P,208,231),(R+P,101,117)),('BS2POLq',(A+'SABER_indcpa.c',81,102),(R+P,101,117)),
 ('10',(A+P,97,119),(R+P,119,132)),('u10',(A+P,235,255),(R+P,134,146)),('13',(A+P,258,299),(R+P,78,99)),('u13',(A+P,301,324),(R+P,101,117)),('pu13',(A+P,326,351),(R+P,101,117))]:
    x=rhs(*a);y=rhs(*b)
    print(n,len(x),len(y),x==y)
    if x!=y:
        for p,q in zip(x,y):
            if p!=q: print(p[0],q[0],'\n',p[1],'\n',q[1])
