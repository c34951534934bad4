/-!
# Model of `viscid/readers/_fortfile_wrapper.py` and `_fortfile.F90`: Fortran units for files

The runtime of Fortran is the file that every unit is connected to. Units above 10000 are not used. `FortranFile` objects (handles) are numbered; `name h`
is the file of handle `h`. Opening has two steps, the search for a unit and the connection, so that threads may come in between; the lock is held
from the first to the second. What fails in `open` of Fortran (`iostat`) depends on the name only. Files that do not exist are made by Fortran, and are not
told apart here.
-/
namespace Viscid.FortUnit

abbrev Units := Nat → Option String

inductive Exc where
  | runtime
  | assertion
deriving Repr, DecidableEq

/-- what the search finds: a unit that the file is connected to, or a free unit, if there is one -/
inductive Found where
  | connected (u : Nat)
  | free (u : Option Nat)
deriving Repr, DecidableEq

/-- _fortfile.F90:66-70 the units that are tried -/
def tried : List Nat := (List.range 10001).filter fun i => decide (10 ≤ i) && !(decide (100 ≤ i) && decide (i ≤ 102))

/-- _fortfile.F90:46-78 `freefileunit(-1)`: the first free unit -/
def freeUnit (units : Units) : Option Nat := tried.find? fun i => (units i).isNone

/-- _fortfile.F90:125-132 of `fopen`: the search -/
def search (units : Units) (file : String) : Found :=
  match (List.range 10001).find? fun i => units i = some file with
  | some u => .connected u
  | none => .free (freeUnit units)

structure St where
  units : Units
  unit : Nat → Int
  lock : Option (Nat × Found)

/-- _fortfile.F90:164-180 `fisopen` -/
def fisopen (units : Units) (u : Int) : Bool := (units u.toNat).isSome

/-- _fortfile_wrapper.py:67-75 `isopen` -/
def isopen (st : St) (h : Nat) : Except Exc Bool :=
  if st.unit h > 0 then
    if fisopen st.units (st.unit h) then .ok true else .error .runtime
  else .ok false

def setUnit (f : Nat → Int) (h : Nat) (u : Int) : Nat → Int := fun k => if k = h then u else f k
def setFile (f : Units) (u : Nat) (x : Option String) : Units := fun k => if k = u then x else f k

/-- _fortfile_wrapper.py:37-43 `open`, up to the search. It raises if the file is open, and waits if the lock is held; this leaves all as it is. -/
def start (name : Nat → String) (st : St) (h : Nat) : St :=
  match isopen st h with
  | .ok false => if st.lock.isNone then { st with lock := some (h, search st.units (name h)) } else st
  | _ => st

/-- _fortfile_wrapper.py:42-47 `open`, _fortfile.F90:126-143: the connection. Fortran's `open` of a unit that is connected closes the other file. No free
unit, where Fortran leaves the number undefined, is taken for an error. The second part is what is raised. -/
def finish (name : Nat → String) (iostat : String → Nat) (st : St) (h : Nat) : St × Option Exc :=
  match st.lock with
  | some (h', f) =>
    if h' = h then
      match f with
      | .connected u => (⟨st.units, setUnit st.unit h u, none⟩, none)
      | .free (some u) =>
        if iostat (name h) = 0 then (⟨setFile st.units u (some (name h)), setUnit st.unit h u, none⟩, none)
        else (⟨st.units, setUnit st.unit h (-(iostat (name h) : Int)), none⟩, some .runtime)
      | .free none => (⟨st.units, setUnit st.unit h (-1), none⟩, some .runtime)
    else (st, none)
  | none => (st, none)

/-- _fortfile_wrapper.py:49-52 `close`, also of `__del__`; it raises if `isopen` does, which leaves all as it is -/
def close (st : St) (h : Nat) : St :=
  match isopen st h with
  | .ok true => { st with units := setFile st.units (st.unit h).toNat none, unit := setUnit st.unit h (-1) }
  | _ => st

/-- what threads do -/
inductive Event where
  | start (h : Nat)
  | finish (h : Nat)
  | close (h : Nat)
deriving Repr, DecidableEq

def step (name : Nat → String) (iostat : String → Nat) (st : St) : Event → St
  | .start h => start name st h
  | .finish h => (finish name iostat st h).1
  | .close h => close st h

def run (name : Nat → String) (iostat : String → Nat) (st : St) (l : List Event) : St := l.foldl (step name iostat) st

/-- the file that a read with handle `h` reads from (`self.unit`, _fortfile_wrapper.py:77-79) -/
def reads (st : St) (h : Nat) : Option String := if st.unit h > 0 then st.units (st.unit h).toNat else none

/-- _fortfile_wrapper.py:37-47 `open` by one thread -/
def openFile (name : Nat → String) (iostat : String → Nat) (st : St) (h : Nat) : St × Option Exc :=
  match isopen st h with
  | .ok false => finish name iostat (start name st h) h
  | _ => (st, some .runtime)

/-- _fortfile_wrapper.py:90-93 `__enter__` -/
def enter (name : Nat → String) (iostat : String → Nat) (st : St) (h : Nat) : St × Option Exc :=
  match isopen st h with
  | .ok true => (st, none)
  | .ok false => openFile name iostat st h
  | .error e => (st, some e)

/-- _fortfile_wrapper.py:95-97 `__exit__` -/
def exit (st : St) (h : Nat) : St × Option Exc :=
  match isopen st h with
  | .ok true => (close st h, none)
  | .ok false => (st, none)
  | .error e => (st, some e)

/-- _fortfile_wrapper.py:61-65 `tell`, with `ftell` of Fortran -/
def tell (ftell : Nat → Int) (st : St) (h : Nat) : Except Exc Int :=
  match isopen st h with
  | .ok true => if ftell (st.unit h).toNat ≥ 0 then .ok (ftell (st.unit h).toNat) else .error .assertion
  | .ok false => .error .assertion
  | .error e => .error e

end Viscid.FortUnit
