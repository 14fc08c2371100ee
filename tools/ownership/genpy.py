import sys; sys.path.insert(0,__import__('os').path.dirname(__import__('os').path.abspath(__file__)))
from pyext import *
if __name__=='__main__':
    A=pyset('3'); have={P['key']:P for P in A}; extra=[]
    for v,w in(('2',False),('3',True)):
        (cparse.DEFS.add if w else cparse.DEFS.discard)('HAVE_WIDE_SYSTEM_CHARACTER')
        for P in pyset(v):
            if P['key']=='initpyfsapfs': continue
            Q=have.get(P['key'])
            if Q and Q['code']==P['code'] and Q['cells']==P['cells']: continue
            P['key']+='_wide' if w else '_python2'
            have[P['key']]=P; extra.append(P)
    cparse.DEFS.discard('HAVE_WIDE_SYSTEM_CHARACTER')
    A+=extra
    A=[P for P in A if any(c['name'] not in(EXC,'result') for c in P['cells']) or any(c[0] in('deref','none') for c in P['code'])]
    for P in A:
        s,e=explore(P)
        if e: print(P['key'],{k:(len(v[0]),v[1]) for k,v in witnesses(P).items()},sorted(set(x for x,_ in e)))
    pickle.dump(A,open(__import__('os').path.dirname(__import__('os').path.abspath(__file__))+'/python.pkl','wb')); print(len(A),[P['key'] for P in extra],sum(len(explore(P)[0]) for P in A),max(len(explore(P)[0]) for P in A))
