import itertools,random
from m import *
ivs=[E_,F_]+[(k,p) for k in('point','upto','upfrom','to','from') for p in range(6)]+[(k,l,r) for k in('open','lo','ro','closed') for l in range(6) for r in range(6)]
def ps(l): return ','.join(map(pr,l))
b1=lambda c:'1' if c else '0'
for a in ivs:
    print(pr(a),pr(norm(a)),pr(denorm(a)),ps(r_complement(a)),pr(r_closure(a)),po(str,r_inf(a)),po(str,r_sup(a)),''.join(b1(r_contains(a,x)) for x in range(6)),sep=';')
for a in ivs:
    for b in ivs:
        print(pr(r_intersect(a,b)),ps(r_union(a,b)),ps(r_minus(a,b)),pr(r_enclose(a,b)),b1(r_adj(a,b)),b1(r_intersects(a,b)),sep=';')
# union_all on lists picked by a small generator shared with the other side
x=12345
def nx():
    global x
    x=(x*1103515245+12345)%2147483648
    return x>>8
for _ in range(20000):
    n=nx()%6
    print(ps(r_union_all([ivs[nx()%len(ivs)] for _ in range(n)])))
