import Verif.Model.Basic
/-!
# Model of `viscid/vutil.py`: finding things by globbed paths (lines 170-236)

The hierarchy is one of dicts, which may have attributes beside their items. `fnmatch.fnmatchcase` is a parameter. Not modelled:
hierarchies that take a path of several parts as a key (h5py), or that have items without a name.
-/
namespace Viscid.Resolve

abbrev Key := List Char

inductive Node
  | leaf (v : Nat)
  | group (items attrs : List (Key × Node))

inductive Err
  | key
  | type
deriving DecidableEq, Repr

/-- what `.items()` gives, if there is such -/
def Node.items : Node → List (Key × Node)
  | .leaf _ => []
  | .group i _ => i

/-- what `.attrs.items()` gives, if there is such -/
def Node.attrs : Node → List (Key × Node)
  | .leaf _ => []
  | .group _ a => a

/-- `dset[key]` -/
def lookup (k : Key) : List (Key × Node) → Option Node
  | [] => none
  | (k', n) :: l => if k' = k then some n else lookup k l

/-- vutil.py:197-214, for one of the things found so far and one part of the path -/
def step (glob : Key → Key → Bool) (first : Bool) (n : Node) (p : Key) : List (Key × Node) :=
  match lookup p n.items with
  | some c => [(p, c)]
  | none =>
    let ms := (n.items ++ n.attrs).filter fun kv => glob p kv.1
    if first then ms.take 1 else ms

/-- vutil.py:192-217: one part of the path after the other; `searches` are all the same, so there is one here. -/
def levels (glob : Key → Key → Bool) (first : Bool) : List Key → List (Node × List Key) → List (Node × List Key)
  | [], l => l
  | p :: ps, l => levels glob first ps (l.flatMap fun np => (step glob first np.1 p).map fun kc => (kc.2, np.2 ++ [kc.1]))

/-- `str.strip('/')` -/
def strip (s : List Char) : List Char := ((s.dropWhile (· = '/')).reverse.dropWhile (· = '/')).reverse

/-- `str.split('/')` -/
def split : List Char → List Key
  | [] => [[]]
  | c :: s =>
    if c = '/' then [] :: split s
    else match split s with
      | [] => [[c]]
      | p :: ps => (c :: p) :: ps

/-- `'/'.join` -/
def join : List Key → List Char
  | [] => []
  | [p] => p
  | p :: ps => p ++ '/' :: join ps

/-- vutil.py:170-228 `resolve_path`: what is found, with the paths. With `first`, that is one at most. `dset[loc]` on what is no dict
    is a TypeError, which is not caught there. -/
def resolve (glob : Key → Key → Bool) (first : Bool) (root : Node) (loc : List Char) : Except Err (List (Node × List Char)) :=
  match root with
  | .leaf _ => .error .type
  | .group items _ =>
    match lookup loc items with
    | some v => .ok [(v, loc)]
    | none =>
      let r := levels glob first (split (strip loc)) [(root, [])]
      if r.isEmpty then .error .key
      else .ok ((if first then r.take 1 else r).map fun np => (np.1, join np.2))

end Viscid.Resolve
