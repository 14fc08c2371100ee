import sys; sys.path.insert(0,__import__('os').path.dirname(__import__('os').path.abspath(__file__)))
from gen import *
import pickle
A=programs(['libfsapfs'],False)
for P in A:
    _,e=explore(P)
    if e: print(P['name'],{k:(len(v[0]),v[1]) for k,v in witnesses(P).items()},sorted(set(x for x,_ in e)))
pickle.dump(A,open(__import__('os').path.dirname(__import__('os').path.abspath(__file__))+'/st.pkl','wb')); print(len(A))
