/-!
# Model of the lists of parents of nodes (`viscid/tree.py`, `viscid/amr_grid.py`, `viscid/field.py`)

Lists are by reference: `ref` is the list that a node has, `lists` what is in it. Nodes are numbers. `in` and `remove` are taken to compare by identity, as nodes without `__eq__` do.
Not modelled: parents given as a tuple, which can not be appended to.
-/
namespace Viscid.Parents

structure World where
  lists : Nat → List Nat
  ref : Nat → Option Nat
  next : Nat

/-- no nodes yet -/
def World.empty : World := ⟨fun _ => [], fun _ => none, 0⟩

/-- `node.parents` -/
def parents (w : World) (n : Nat) : Option (List Nat) := (w.ref n).map w.lists

/-- tree.py:30-34 of `Node.__init__` with no parents, one parent, or a list that nobody else has -/
def make (w : World) (n : Nat) (ps : List Nat) : World :=
  ⟨fun i => if i = w.next then ps else w.lists i, fun m => if m = n then some w.next else w.ref m, w.next + 1⟩

/-- tree.py:30-34 with the list of another node, as amr_grid.py:191-193 `AMRGrid.__init__` does with the first patch -/
def share (w : World) (n m : Nat) : World := { w with ref := fun k => if k = n then w.ref m else w.ref k }

/-- what is changed in the list of a node -/
def alter (w : World) (c : Nat) (f : List Nat → List Nat) : World :=
  match w.ref c with
  | some r => { w with lists := fun i => if i = r then f (w.lists i) else w.lists i }
  | none => w

/-- tree.py:38-40 `prepare_child` -/
def prepareChild (w : World) (p c : Nat) : World := alter w c fun l => if p ∈ l then l else l ++ [p]

/-- tree.py:42-46 `tear_down_child` -/
def tearDownChild (w : World) (p c : Nat) : World := alter w c fun l => l.erase p

/-- field.py:580-582 `_parent_field` of `Field.__init__` -/
def parentField (w : World) (n pf : Nat) : World := alter w n fun l => pf :: l

/-- A node is made; an AMR grid is made of patches, the first of which is `m`; a child is added to `p` (grid.py:324-328, dataset.py:216-217, 481-482) or taken away (grid.py:330-332,
115-118, dataset.py:237-241, 497-501); a field is made with `_parent_field` (field.py:1597-1609, 1643-1655) -/
inductive Op where
  | make (n : Nat) (ps : List Nat)
  | amr (n m : Nat)
  | add (p c : Nat)
  | remove (p c : Nat)
  | field (n : Nat) (ps : List Nat) (pf : Nat)

def step (w : World) : Op → World
  | .make n ps => make w n ps
  | .amr n m => share w n m
  | .add p c => prepareChild w p c
  | .remove p c => tearDownChild w p c
  | .field n ps pf => parentField (make w n ps) n pf

def run (w : World) (l : List Op) : World := l.foldl step w

end Viscid.Parents
