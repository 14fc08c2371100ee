How `lean/Verif/Model/Owner*.lean` were made from /repo (C74, C75, C76).

* `cparse.py`: a parser for the C that libfsapfs is written in.
* `extract.py`: the rules by which a function becomes a graph over the places that hold pointers.
  They are stated in DESIGN.md under "Graphs of ownership".
* `run.py`: numbers the instructions; `python3 run.py [--nomt] [function ...]` prints graphs, and the
  states of the checker.
* `gen.py`, `gen1.py`: the graphs of the builds with and without threads, and executions that lose
  memory.
* `cant.py`: the functions that never return 1.
* `mutate.py`: drops a free, an assignment, a `memory_set`, an initial value or the way to `on_error`
  at every place of every function in turn, and says in how many cases the check fails.
* `emit.py`, `emit2.py`: write `Model/Owner*.lean`, `Spec/OwnershipKnown.lean` and
  `Lemmas/OwnerOf*.lean`, `Lemmas/OwnerAll.lean`.

* `gentools.py`, `emittools.py`, `emit75.py`: the same for the tools (C75).
* `pyext.py`, `genpy.py`, `emit76.py`: the same for pyfsapfs (C76), with references, the exception and
  the lock of the interpreter as places.
* `lk.py`, `emit77.py`, `emit77p.py`: what calls read and change of a handle, and with which lock (C77):
  write `Model/AccessOf.lean` and `Props/C77.lean`.

    python3 gen.py; python3 gen1.py; python3 emit2.py
    python3 gentools.py; python3 emittools.py; python3 emit75.py
    python3 genpy.py; python3 emit76.py
    python3 emit77.py; python3 emit77p.py

Nothing here is trusted for the proofs: Lean checks every graph.  That a graph is that of the
function has to be seen by comparing both.
