# Second transcription of /repo/src (tine.rs, tine_tree.rs, raw_interval.rs, bound.rs, normalize.rs, selection.rs, interval.rs).
class P(Exception): pass
INF=('inf',)
MIN,MAX=0,5
DBG=True
def dassert(c):
    if DBG and not c: raise P('debugAssert')
def I(x): return ('incl',x)
def X(x): return ('excl',x)
def bref(b): return None if b==INF else b[1]
# --- bound
def least_union(a,b):
    if a==INF or b==INF: return INF
    p,o=a[1],b[1]
    k=(a[0],b[0])
    if k==('incl','incl'): return a if p<o else b
    if k==('incl','excl'): return a if p<=o else b
    if k==('excl','incl'): return a if p<o else b
    return a if p<o else b
def least_intersect(a,b):
    if a==INF and b==INF: return INF
    if b==INF: return a
    if a==INF: return b
    p,o=a[1],b[1]; k=(a[0],b[0])
    if k==('excl','incl'): return a if p<=o else b
    return a if p<o else b
def greatest_union(a,b):
    if a==INF or b==INF: return INF
    p,o=a[1],b[1]; k=(a[0],b[0])
    if k==('incl','excl'): return a if p>=o else b
    return a if p>o else b
def greatest_intersect(a,b):
    if a==INF and b==INF: return INF
    if b==INF: return a
    if a==INF: return b
    p,o=a[1],b[1]; k=(a[0],b[0])
    if k==('excl','incl'): return a if p>=o else b
    return a if p>o else b
def adj(a,b):
    if a==INF or b==INF: return False
    if a[0]=='excl' and b[0]=='excl': return False
    return a[1]==b[1]
# --- raw interval: tuples ('empty',) ('point',p) ('open',l,r) ('lo',l,r) ('ro',l,r) ('closed',l,r) ('upto',r) ('upfrom',l) ('to',r) ('from',l) ('full',)
E_=('empty',); F_=('full',)
def r_open(l,u): return ('open',l,u) if l<u else E_
def r_lo(l,u): return ('lo',l,u) if l<u else (('point',u) if l==u else E_)
def r_ro(l,u): return ('ro',l,u) if l<u else (('point',l) if l==u else E_)
def r_closed(l,u): return ('closed',l,u) if l<u else (('point',l) if l==u else E_)
def r_new(l,u):
    if l==INF and u==INF: return F_
    if l==INF: return ('to',u[1]) if u[0]=='incl' else ('upto',u[1])
    if u==INF: return ('from',l[1]) if l[0]=='incl' else ('upfrom',l[1])
    k=(l[0],u[0])
    return {('incl','incl'):r_closed,('incl','excl'):r_ro,('excl','incl'):r_lo,('excl','excl'):r_open}[k](l[1],u[1])
def r_contains(i,x):
    k=i[0]
    if k=='empty': return False
    if k=='point': return x==i[1]
    if k=='open': return i[1]<x<i[2]
    if k=='lo': return i[1]<x<=i[2]
    if k=='ro': return i[1]<=x<i[2]
    if k=='closed': return i[1]<=x<=i[2]
    if k=='upto': return x<i[1]
    if k=='upfrom': return x>i[1]
    if k=='to': return x<=i[1]
    if k=='from': return x>=i[1]
    return True
def r_lb(i):
    k=i[0]
    if k=='empty': return None
    if k in('point','ro','closed','from'): return I(i[1])
    if k in('open','lo','upfrom'): return X(i[1])
    return INF
def r_ub(i):
    k=i[0]
    if k=='empty': return None
    if k=='point': return I(i[1])
    if k in('lo','closed'): return I(i[2])
    if k in('open','ro'): return X(i[2])
    if k=='to': return I(i[1])
    if k=='upto': return X(i[1])
    return INF
def r_inf(i):
    b=r_lb(i); return None if b is None else bref(b)
def r_sup(i):
    b=r_ub(i); return None if b is None else bref(b)
def r_intersect(a,b):
    if r_lb(a) is None or r_lb(b) is None: return E_
    lb=greatest_intersect(r_lb(a),r_lb(b)); ub=least_intersect(r_ub(a),r_ub(b))
    if bref(lb)==bref(ub) and ((lb[0]=='incl' and ub[0]=='excl') or (lb[0]=='excl' and ub[0]=='incl')): return E_
    return r_new(lb,ub)
def r_intersects(a,b): return r_intersect(a,b)!=E_
def r_adj(a,b):
    x = adj(r_lb(a),r_ub(b)) if r_lb(a) is not None and r_ub(b) is not None else False
    y = adj(r_lb(b),r_ub(a)) if r_ub(a) is not None and r_lb(b) is not None else False
    return x or y
def r_complement(i):
    k=i[0]
    if k=='empty': return [F_]
    if k=='point': return [('upto',i[1]),('upfrom',i[1])]
    if k=='open': return [('to',i[1]),('from',i[2])]
    if k=='lo': return [('to',i[1]),('upfrom',i[2])]
    if k=='ro': return [('upto',i[1]),('from',i[2])]
    if k=='closed': return [('upto',i[1]),('upfrom',i[2])]
    if k=='upto': return [('from',i[1])]
    if k=='upfrom': return [('to',i[1])]
    if k=='to': return [('upfrom',i[1])]
    if k=='from': return [('upto',i[1])]
    return []
def r_enclose(a,b):
    la,lb_=r_lb(a),r_lb(b)
    if la is not None and lb_ is not None: l=least_union(la,lb_)
    elif la is not None: l=la
    elif lb_ is not None: l=lb_
    else: return E_
    ua,ub_=r_ub(a),r_ub(b)
    if ua is not None and ub_ is not None: u=greatest_union(ua,ub_)
    elif ua is not None: u=ua
    else: u=ub_
    return r_new(l,u)
def r_union(a,b):
    if a==E_ and b==E_: return []
    if a==E_: return [b]
    if b==E_: return [a]
    if r_intersects(a,b) or r_adj(a,b): return [r_enclose(a,b)]
    return [a,b]
def r_minus(a,b): return [z for z in (r_intersect(a,c) for c in r_complement(b)) if z!=E_]
def r_closure(i):
    k=i[0]
    if k in('open','lo','ro'): return ('closed',i[1],i[2])
    if k=='upto': return ('to',i[1])
    if k=='upfrom': return ('from',i[1])
    return i
def r_union_all(ivs):
    it=[i for i in ivs if i!=E_]
    if not it: return []
    prev=[it[0]]
    for nx in it[1:]:
        if nx==F_: prev=[F_]; continue
        for k in range(len(prev)):
            if r_intersects(prev[k],nx) or r_adj(prev[k],nx):
                prev[k]=r_enclose(prev[k],nx); break
        else: prev.append(nx)
    return prev
# --- normalize
def pred(x): return None if x==MIN else x-1
def succ(x): return None if x==MAX else x+1
def norm(i):
    k=i[0]
    if k=='open':
        l,r=succ(i[1]),pred(i[2])
        return ('closed',l,r) if l is not None and r is not None else E_
    if k=='lo':
        l=succ(i[1]); return E_ if l is None else ('closed',l,i[2])
    if k=='ro':
        r=pred(i[2]); return E_ if r is None else ('closed',i[1],r)
    if k=='upto':
        r=pred(i[1]); return E_ if r is None else ('closed',MIN,r)
    if k=='upfrom':
        l=succ(i[1]); return E_ if l is None else ('closed',l,MAX)
    if k=='to': return ('closed',MIN,i[1])
    if k=='from': return ('closed',i[1],MAX)
    if k=='full': return ('closed',MIN,MAX)
    return i
def denorm(i):
    k=i[0]
    if k in('point','closed'):
        l=pred(i[1]); r=succ(i[-1])
        if l is not None and r is not None: return ('open',l,r)
        if l is not None: return ('upfrom',l)
        if r is not None: return ('upto',r)
        return F_
    if k=='lo':
        r=succ(i[2]); return ('open',i[1],r) if r is not None else ('upfrom',i[1])
    if k=='ro':
        l=pred(i[1]); return ('open',l,i[2]) if l is not None else ('upto',i[2])
    if k=='to':
        r=pred(i[1]); return E_ if r is None else ('upto',r)
    if k=='from':
        l=succ(i[1]); return E_ if l is None else ('upfrom',l)
    return i
# --- tine: ('L'|'P'|'U', bound)
def tines(i):
    k=i[0]
    if k=='empty': return []
    if k=='point': return [('P',I(i[1]))]
    return [('L',r_lb(i)),('U',r_ub(i))]
def is_pe(t): return t[0]=='P' and t[1][0]=='excl'
def is_pi(t): return t[0]=='P' and t[1][0]=='incl'
def is_l(t): return t[0]=='L' or is_pe(t)
def is_u(t): return t[0]=='U' or is_pe(t)
def tref(t): return bref(t[1])
def t_union(s,o):
    dassert(tref(s)==tref(o))
    a,b=s[0],o[0]; x,y=s[1],o[1]; xk,yk=x[0],y[0]; l=bref(x)
    if a=='L' and b=='L':
        if xk=='incl' and yk=='excl': return ('L',I(l))
        if xk=='excl' and yk=='incl': return ('L',I(l))
        return ('L',x)
    if a=='L' and b=='P':
        if (xk,yk)==('incl','incl'): return ('L',I(l))
        if (xk,yk)==('incl','excl'): return None
        if (xk,yk)==('excl','incl'): return ('L',I(l))
        if (xk,yk)==('excl','excl'): return ('P',X(l))
        raise P('unreachable')
    if a=='L' and b=='U':
        if xk=='incl' and yk in('incl','excl'): return None
        if xk=='excl' and yk=='incl': return None
        if xk=='excl' and yk=='excl': return ('P',X(l))
        raise P('unreachable')
    if a=='P' and xk=='incl':
        if b=='L': return ('L',I(l))
        if b=='P' and yk=='incl': return ('P',I(l))
        if b=='U': return ('U',I(l))
        return None
    if a=='P' and xk=='excl':
        if yk=='excl': return ('P',X(l))
        return None
    if a=='U' and b=='L':
        if xk=='incl' and yk in('incl','excl'): return None
        if xk=='excl' and yk=='incl': return None
        if xk=='excl' and yk=='excl': return ('P',X(l))
        raise P('unreachable')
    if a=='U' and b=='P':
        if (xk,yk)==('incl','incl'): return ('U',I(l))
        if (xk,yk)==('incl','excl'): return None
        if (xk,yk)==('excl','incl'): return ('U',I(l))
        if (xk,yk)==('excl','excl'): return ('P',X(l))
        raise P('unreachable')
    if a=='U' and b=='U':
        if xk=='incl' and yk=='excl': return ('U',I(l))
        if xk=='excl' and yk=='incl': return ('U',I(l))
        return ('U',x)
    raise P('unreachable')
def t_intersect(s,o):
    dassert(tref(s)==tref(o))
    a,b=s[0],o[0]; x,y=s[1],o[1]; xk,yk=x[0],y[0]; l=bref(x)
    if a=='L' and b=='L':
        if xk=='incl' and yk=='excl': return ('L',X(l))
        if xk=='excl' and yk=='incl': return ('L',X(l))
        return ('L',x)
    if a=='L' and b=='P':
        if xk=='incl' and yk=='incl': return ('P',I(l))
        if xk=='excl' and yk=='excl': return ('L',X(l))
        return None
    if a=='L' and b=='U':
        if xk=='incl' and yk=='incl': return ('P',I(l))
        return None
    if a=='P' and xk=='incl':
        return ('P',I(l)) if yk=='incl' else None
    if a=='P' and xk=='excl':
        if b=='L': return ('L',X(l))
        if b=='P' and yk=='incl': return None
        if b=='P' and yk=='excl': return ('P',X(l))
        if b=='U': return ('U',X(l))
        raise P('unreachable')
    if a=='U' and b=='L':
        return ('P',I(l)) if xk=='incl' and yk=='incl' else None
    if a=='U' and b=='P':
        if xk=='incl' and yk=='incl': return ('P',I(l))
        if xk=='excl' and yk=='excl': return ('U',X(l))
        return None
    if a=='U' and b=='U':
        if xk=='incl' and yk=='excl': return ('U',X(l))
        if xk=='excl' and yk=='incl': return ('U',X(l))
        return ('U',x)
    raise P('unreachable')
def t_minus(s,o):
    dassert(tref(s)==tref(o))
    a,b=s[0],o[0]; x,y=s[1],o[1]; xk,yk=x[0],y[0]; l=bref(x)
    if a=='L' and b=='L':
        return ('P',I(l)) if xk=='incl' and yk=='excl' else None
    if a=='L' and b=='P':
        return ('L',X(l)) if xk=='incl' and yk=='incl' else None
    if a=='L' and b=='U':
        if xk=='incl' and yk=='incl': return ('L',X(l))
        if xk=='incl' and yk=='excl': return ('L',I(l))
        if xk=='excl' and yk=='incl': return ('L',X(l))
        if xk=='excl' and yk=='excl': return ('L',X(l))
        raise P('unreachable')
    if a=='P' and xk=='incl':
        return None if yk=='incl' else ('P',I(l))
    if a=='P' and xk=='excl':
        if b=='L': return ('L',X(l))
        if b=='P' and yk=='incl': return ('P',X(l))
        if b=='P' and yk=='excl': return None
        if b=='U': return ('U',X(l))
        raise P('unreachable')
    if a=='U' and b=='L':
        if xk=='incl' and yk=='incl': return ('U',X(l))
        if xk=='incl' and yk=='excl': return ('U',I(l))
        if xk=='excl' and yk=='incl': return ('U',X(l))
        if xk=='excl' and yk=='excl': return ('U',X(l))
        raise P('unreachable')
    if a=='U' and b=='P':
        return ('U',X(l)) if xk=='incl' and yk=='incl' else None
    if a=='U' and b=='U':
        return ('P',I(l)) if xk=='incl' and yk=='excl' else None
    raise P('unreachable')
def invert(t):
    k,b=t
    if b==INF: raise P('explicit')
    v=b[1]
    return {('L','incl'):('U',X(v)),('L','excl'):('U',I(v)),('P','incl'):('P',X(v)),('P','excl'):('P',I(v)),('U','incl'):('L',X(v)),('U','excl'):('L',I(v))}[(k,b[0])]
def t_cmp(a,b):
    l,r=tref(a),tref(b)
    if l is not None and r is not None: return (l>r)-(l<r)
    if (a==('L',INF) and b==('L',INF)) or (a==('U',INF) and b==('U',INF)): return 0
    if a==('L',INF): return -1
    if a==('U',INF): return 1
    if b==('U',INF): return -1
    if b==('L',INF): return 1
    raise P('unreachable')
# --- BTreeSet as sorted list
class BT:
    def __init__(s,l=()): s.l=list(l)
    def insert(s,t):
        for k,u in enumerate(s.l):
            c=t_cmp(t,u)
            if c==0: return
            if c<0: s.l.insert(k,t); return
        s.l.append(t)
    def take(s,t):
        for k,u in enumerate(s.l):
            if t_cmp(t,u)==0: return s.l.pop(k)
        return None
    def split_off(s,t):
        r=[u for u in s.l if t_cmp(u,t)>=0]; s.l=[u for u in s.l if t_cmp(u,t)<0]
        return BT(r)
    def append(s,o):
        for u in o.l:
            s.take(u); s.insert(u)
    def first(s): return s.l[0] if s.l else None
    def last(s): return s.l[-1] if s.l else None
def bt_collect(ts):
    # sort (stable), keep last of equal
    r=BT()
    for t in ts: r.take(t); r.insert(t)
    return r
class Tree:
    def __init__(s,l=()): s.b=BT(l)
    def clone(s): return Tree(s.b.l)
    def ext_point(s,t):
        r1=s.b.take(t)
        right=s.b.split_off(t)
        r0=s.b.last(); r2=right.first()
        s.b.append(right)
        return [r0,r1,r2]
    def ext_proper(s,lo,up):
        r1=s.b.take(lo); r2=s.b.take(up)
        center=s.b.split_off(lo)
        r0=s.b.last()
        right=center.split_off(up)
        r3=right.first()
        s.b.append(right)
        return [r0,r1,r2,r3]
    def int_proper(s,lo,up):
        dassert(t_cmp(lo,up)<0)
        r2=s.b.take(lo); r3=s.b.take(up)
        center=s.b.split_off(lo); right=center.split_off(up)
        r0=s.b.last(); r1=center.first(); r4=center.last(); r5=right.first()
        dassert((r1 is not None)==(r4 is not None))
        s.b=center
        return [r0,r1,r2,r3,r4,r5]
    def union_in_place(s,i):
        if i==F_: s.b=bt_collect(tines(F_)); return
        ts=tines(i)
        if len(ts)==1: s.union_point(ts[0])
        elif len(ts)==2: s.union_proper(*ts)
    def union_point(s,p):
        ts=s.ext_point(p)
        if ts[1] is not None:
            m=t_union(ts[1],p)
            if m is None: return
            p=m
        ob=ts[0] is not None and is_l(ts[0]); ca=ts[2] is not None and is_u(ts[2])
        if ob and ca: return
        if ob and not ca:
            dassert(not is_l(p)); s.b.insert(p)
        elif ca:
            dassert(not is_u(p)); s.b.insert(p)
        else: s.b.insert(p)
    def union_proper(s,l,u):
        ts=s.ext_proper(l,u)
        ml=t_union(ts[1],l) if ts[1] is not None else l
        mu=t_union(ts[2],u) if ts[2] is not None else u
        dassert(ml is None or is_l(ml)); dassert(mu is None or is_u(mu))
        ob=ts[0] is not None and is_l(ts[0]); ca=ts[3] is not None and is_u(ts[3])
        L,U=ml is not None, mu is not None
        k=(ob,L,U,ca)
        if k==(True,True,True,True):
            if is_u(ml): s.b.insert(ml)
            if is_l(mu): s.b.insert(mu)
        elif k==(True,True,True,False):
            if is_u(ml): s.b.insert(ml)
            dassert(not is_l(mu)); s.b.insert(mu)
        elif k==(False,True,True,True):
            dassert(not is_u(ml)); s.b.insert(ml)
            if is_l(mu): s.b.insert(mu)
        elif k==(False,True,True,False):
            dassert(not is_u(ml)); s.b.insert(ml)
            dassert(not is_l(mu)); s.b.insert(mu)
        elif k==(True,True,False,True):
            if is_pe(ml): s.b.insert(ml)
        elif k==(False,True,False,True):
            dassert(not is_u(ml)); s.b.insert(ml)
        elif k==(True,False,True,True):
            if is_pe(mu): s.b.insert(mu)
        elif k==(True,False,True,False):
            dassert(not is_l(mu)); s.b.insert(mu)
        elif k==(True,False,False,True): pass
        else: raise P('unreachable')
    def minus_in_place(s,i):
        if not s.b.l or i==E_: return
        if i==F_: s.b=BT(); return
        ts=tines(i)
        if len(ts)==1: s.minus_point(ts[0])
        elif len(ts)==2: s.minus_proper(*ts)
    def minus_point(s,p):
        ts=s.ext_point(p)
        if ts[1] is not None:
            m=t_minus(ts[1],p)
            if m is None: return
            p=m
        ob=ts[0] is not None and is_l(ts[0]); ca=ts[2] is not None and is_u(ts[2])
        if ob and ca: s.b.insert(invert(p))
        elif ob:
            dassert(is_u(p)); s.b.insert(p)
        elif ca:
            dassert(is_l(p)); s.b.insert(p)
    def minus_proper(s,l,u):
        ts=s.ext_proper(l,u)
        ml=t_minus(ts[1],l) if ts[1] is not None else l
        mu=t_minus(ts[2],u) if ts[2] is not None else u
        ob=ts[0] is not None and is_l(ts[0]); ca=ts[3] is not None and is_u(ts[3])
        L,U=ml is not None, mu is not None
        if ob and L and U and ca:
            s.b.insert(ml if is_u(ml) else invert(ml)); s.b.insert(mu if is_l(mu) else invert(mu))
        elif ob and L and not ca:
            s.b.insert(ml if is_u(ml) else invert(ml))
            if U and is_pi(mu): s.b.insert(mu)
        elif not ob and U and ca:
            s.b.insert(mu if is_l(mu) else invert(mu))
            if L and is_pi(ml): s.b.insert(ml)
        elif not ob and not ca:
            if L and is_pi(ml): s.b.insert(ml)
            if U and is_pi(mu): s.b.insert(mu)
        else: raise P('unreachable')
    def intersect_in_place(s,i):
        if not s.b.l or i==F_: return
        if i==E_: s.b=BT(); return
        if i[0]=='point':
            s.b = bt_collect(tines(i)) if s.contains(i[1]) else BT()
            return
        s.intersect_proper(*tines(i))
    def intersect_proper(s,l,u):
        ts=s.int_proper(l,u)
        ml=t_intersect(ts[2],l) if ts[2] is not None else l
        mu=t_intersect(ts[3],u) if ts[3] is not None else u
        dassert(ml is None or is_l(ml)); dassert(mu is None or is_u(mu))
        sa=lambda t,f: t is not None and f(t)
        ob=sa(ts[0],is_l); ca=sa(ts[5],is_u); il=sa(ts[1],is_u); ir=sa(ts[4],is_l)
        L,U=ml is not None, mu is not None
        if L and U and il==ir: s.b.insert(ml); s.b.insert(mu)
        elif ob and L and il and not ir and not ca: s.b.insert(ml)
        elif not ob and not il and ir and U and ca: s.b.insert(mu)
        elif not ob and not il and not ir and not ca: pass
        else: raise P('unreachable')
    def contains(s,x):
        it=It(s)
        while True:
            i=it.next()
            if i is None: return False
            if r_contains(i,x): return True
    def complement(s):
        if not s.b.l: return Tree(bt_collect(tines(F_)).l)
        c=Tree()
        if len(s.b.l)==1:
            t=invert(s.b.l[0]); dassert(is_pe(t))
            c.b.insert(('L',INF)); c.b.insert(t); c.b.insert(('U',INF)); return c
        q=list(s.b.l)
        t=q.pop(0)
        if t!=('L',INF): c.b.insert(('L',INF)); c.b.insert(invert(t))
        t=q.pop()
        if t!=('U',INF): c.b.insert(('U',INF)); c.b.insert(invert(t))
        for t in q: c.b.insert(invert(t))
        return c
    def intersect(s,o):
        r=Tree(); a=It(s); b=It(o)
        while True:
            x=a.next()
            if x is None: return r
            while True:
                y=b.next()
                if y is None: return r
                i=r_intersect(x,y)
                if i==E_: break
                r.union_in_place(i)
    def union(s,o):
        r=s.clone(); b=It(o)
        while True:
            y=b.next()
            if y is None: return r
            r.union_in_place(y)
    def minus(s,o):
        r=s.clone(); b=It(o)
        while True:
            y=b.next()
            if y is None: return r
            r.minus_in_place(y)
    def enclose(s):
        if not s.b.l: return E_
        if len(s.b.l)==1:
            t=s.b.l[0]; dassert(is_pi(t))
            if tref(t) is None: raise P('expect')
            return ('point',tref(t))
        return r_new(s.b.l[0][1],s.b.l[-1][1])
    def closure(s): return r_closure(s.enclose())
    def lb(s): return s.b.l[0][1] if s.b.l else None
    def ub(s): return s.b.l[-1][1] if s.b.l else None
class It:
    def __init__(s,t): s.q=list(t.b.l); s.sl=None; s.su=None
    def front(s): return s.q.pop(0) if s.q else None
    def back(s): return s.q.pop() if s.q else None
    def next(s):
        lo=s.sl; s.sl=None
        if lo is None: lo=s.front()
        if lo is None: return None
        if is_pi(lo): return ('point',tref(lo))
        dassert(is_l(lo))
        up=s.front()
        if up is None: up=s.su; s.su=None
        if up is None: raise P('expect')
        if is_pe(up): s.sl=up
        dassert(is_u(up))
        return r_new(lo[1],up[1])
    def next_back(s):
        up=s.su; s.su=None
        if up is None: up=s.back()
        if up is None: return None
        if is_pi(up): return ('point',tref(up))
        dassert(is_u(up))
        lo=s.back()
        if lo is None: lo=s.sl; s.sl=None
        if lo is None: raise P('expect')
        if is_pe(lo): s.sl=lo
        dassert(is_l(lo))
        return r_new(lo[1],up[1])
class IvIter:
    def __init__(s,i): s.i=i
    def next(s):
        b=r_lb(s.i)
        if b is None: return None
        if b[0]!='incl': raise P('unreachable')
        m=[norm(z) for z in r_minus(s.i,('point',b[1]))]
        s.i=m[0] if m else E_
        return b[1]
    def next_back(s):
        b=r_ub(s.i)
        if b is None: return None
        if b[0]!='incl': raise P('unreachable')
        m=[norm(z) for z in r_minus(s.i,('point',b[1]))]
        s.i=m[0] if m else E_
        return b[1]
class PtIter:
    def __init__(s,t): s.it=It(t); s.c=IvIter(E_)
    def next(s):
        x=s.c.next()
        if x is not None: return x
        i=s.it.next()
        if i is None: return None
        s.c=IvIter(norm(norm(i))); return s.c.next()
    def next_back(s):
        x=s.c.next_back()
        if x is not None: return x
        i=s.it.next_back()
        if i is None: return None
        s.c=IvIter(norm(norm(i))); return s.c.next_back()
# --- printing
def pb(b): return 'oo' if b==INF else ('i' if b[0]=='incl' else 'e')+str(b[1])
def pt(t): return t[0]+pb(t[1])
def ptree(t): return '['+' '.join(pt(x) for x in t.b.l)+']'
def pr(i): return i[0]+''.join(' '+str(v) for v in i[1:])
def po(f,o): return '-' if o is None else f(o)
def tryp(f):
    try: return f()
    except P as e: return '!'+e.args[0]
def calls(mk,mask,n,f):
    it=mk(); out=[]
    try:
        for k in range(n):
            o = it.next() if (mask>>k)&1==0 else it.next_back()
            out.append(po(f,o))
    except P as e: out.append('!'+e.args[0])
    return ','.join(out)
def query(a,b,sel):
    nm = norm if sel else (lambda i:i)
    class NI:
        def __init__(s): s.it=It(a)
        def next(s):
            i=s.it.next(); return None if i is None else nm(i)
        def next_back(s):
            i=s.it.next_back(); return None if i is None else nm(i)
    r=[]
    for mask in (0,0x3ff,0b0110101101,0b1010010110): r.append(calls(NI,mask,8,pr))
    if sel:
        for mask in (0,0x3ff,0b0110101101,0b1010010110): r.append(calls(lambda:PtIter(a),mask,9,str))
    r.append(''.join(tryp(lambda: '1' if a.contains(x) else '0') for x in range(MIN,MAX+1)))
    r.append(po(pb,a.lb())+po(pb,a.ub()))
    if sel:
        def lbd():
            i=NI().next(); return None if i is None else r_lb(i)
        def ubd():
            i=NI().next_back(); return None if i is None else r_ub(i)
        def half():
            l=lbd()!=INF; q=ubd()!=INF
            return (l and not q) or (not l and q)
        def bd():
            return lbd() is not None or ubd() is not None
        r.append(tryp(lambda: po(pb,lbd()))); r.append(tryp(lambda: po(pb,ubd())))
        r.append(tryp(lambda: str(bd()))); r.append(tryp(lambda: str(lbd()!=INF))); r.append(tryp(lambda: str(ubd()!=INF))); r.append(tryp(lambda: str(half())))
        f=lambda b: None if b is None else bref(b)
        r.append(po(str,f(a.lb()))+po(str,f(a.ub())))
    r.append(str(len(a.b.l)==0)+str(a.b.l==[('L',INF),('U',INF)]))
    r.append(tryp(lambda: pr(nm(a.enclose())))); r.append(tryp(lambda: pr(nm(a.closure()))))
    r.append(tryp(lambda: str(len(a.intersect(b).b.l)!=0)))
    return ';'.join(r)
KINDS=['open','lo','ro','closed','point','upto','upfrom','to','from','full','empty']
def mkiv(k,l,r):
    k=KINDS[k]
    if k in('open','lo','ro','closed'): return {'open':r_open,'lo':r_lo,'ro':r_ro,'closed':r_closed}[k](l,r)
    if k in('point','upto','upfrom','to','from'): return (k,l)
    return (k,)
def run(prog,dbg,sel):
    global DBG; DBG=dbg
    a,b=Tree(),Tree(); out=[]
    pre=(lambda i: denorm(norm(i))) if sel else (lambda i:i)
    for (op,k,l,r) in prog:
        old=(a,b)
        try:
            i=mkiv(k,l,r)
            if op==0: a=a.clone(); a.union_in_place(pre(i))
            elif op==1: a=a.clone(); a.minus_in_place(pre(i))
            elif op==2: a=a.clone(); a.intersect_in_place(pre(i))
            elif op==3: a=a.complement()
            elif op==4: a=a.union(b)
            elif op==5: a=a.minus(b)
            elif op==6: a=a.intersect(b)
            elif op==7: a,b=b,a
            elif op==8: b=a.clone()
            elif op==9: a=Tree(bt_collect(tines(pre(i))).l)
        except P as e:
            out.append('!'+e.args[0]+(ptree(a) if op in(0,1,2) else '')); a,b=old; continue
        out.append(ptree(a))
    out.append(query(a,b,sel))
    return '|'.join(out)
if __name__=='__main__':
    import sys
    for line in sys.stdin:
        v=list(map(int,line.split()))
        dbg,sel=v[0]==1,v[1]==1
        pg=[tuple(v[j:j+4]) for j in range(2,len(v),4)]
        print(run(pg,dbg,sel))
