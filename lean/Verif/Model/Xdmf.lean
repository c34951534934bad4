import Mathlib.Data.Rat.Defs
import Mathlib.Algebra.Order.Ring.Unbundled.Rat
/-!
# Model of `viscid/readers/xdmf.py`: the grids of an XDMF file

A file is a list of `Grid` elements. `G` is the type of coordinate objects; `_parse_geometry` is a value of the element: coordinates, or the
exception it raises (given a Topology). Fields are their names. Not modelled: `Information` elements, the data of fields (their time is that of
their grid), names made up for grids without `Name`, patches with different numbers of dimensions, files that have a time of their own.
-/
namespace Viscid.Xdmf

inductive Exc
  | type
  | attribute
  | notImplemented
  | value
  | runtime
deriving DecidableEq, Repr

/-- `GridType` and `CollectionType` -/
inductive Kind
  | uniform
  | temporal
  | spatial
  /-- a Collection with any other CollectionType -/
  | collection
  /-- Tree, Subset and anything else -/
  | ignored
deriving DecidableEq, Repr

/-- a `Time` element; `single none` has no number as Value -/
inductive TimeEl
  | single (v : Option ℚ)
  | list (ts : List ℚ)
  | hyperslab (start step : ℚ) (n : Nat)
  | range
  | other
deriving DecidableEq, Repr

/-- a `Grid` element: the first Topology, Geometry and Time, names of the Attributes, and the Grids in it -/
inductive Elem (G : Type)
  | mk (kind : Kind) (name : String) (topo : Bool) (geo : Option (Except Exc G)) (time : Option TimeEl) (attrs : List String)
      (kids : List (Elem G))

/-- what `_parse_grid` makes -/
inductive Node (G : Type)
  /-- a Grid -/
  | grid (name : String) (time : Option ℚ) (crds : Option G) (fields : List String)
  /-- a DatasetTemporal; the key of each child is its time -/
  | series (name : String) (time : Option ℚ) (kids : List (Node G))
  /-- a Dataset -/
  | group (name : String) (time : Option ℚ) (kids : List (Node G))
  /-- an AMRGrid made from a Dataset: its time, the time of that Dataset, and the patches -/
  | amr (time dtime : Option ℚ) (patches : List (Node G))

/-- the time of the node itself, without its parents (tree.py:227-229, 240) -/
def Node.time {G : Type} : Node G → Option ℚ
  | .grid _ t _ _ => t
  | .series _ t _ => t
  | .group _ t _ => t
  | .amr t _ _ => t

/-- tree.py:231-240 with a float. An AMRGrid and its first patch have the same `_info` (amr_grid.py:189-192) -/
def Node.setTime {G : Type} (v : ℚ) : Node G → Node G
  | .grid n _ c f => .grid n (some v) c f
  | .series n _ k => .series n (some v) k
  | .group n _ k => .group n (some v) k
  | .amr _ d [] => .amr (some v) d []
  | .amr _ d (p :: ps) => .amr (some v) d ((match p with
      | .grid n _ c f => .grid n (some v) c f
      | q => q) :: ps)

/-- `isinstance(grd, Grid)`; an AMRGrid is one -/
def Node.isGrid {G : Type} : Node G → Bool
  | .grid .. => true
  | .amr .. => true
  | _ => false

/-- `isinstance(grd, AMRGrid)` -/
def Node.isAmr {G : Type} : Node G → Bool
  | .amr .. => true
  | _ => false

/-- a Dataset while its children are being read: `_make_dataset` -/
structure Parent (G : Type) where
  temporal : Bool
  time : Option ℚ
  topo : Bool
  geo : Bool
  crds : Option G
  kids : List (Node G)

/-- a new Dataset: topology_info, geometry_info and crds are None, dataset.py:201-203 -/
def Parent.new {G : Type} (temporal : Bool) : Parent G := ⟨temporal, none, false, false, none, []⟩

/-- one insertion of `list.sort(key=itemgetter(0))` after an append: after all children that are not later -/
def insertLate {G : Type} (n : Node G) : List (Node G) → List (Node G)
  | [] => [n]
  | m :: ms => if n.time.getD 0 < m.time.getD 0 then n :: m :: ms else m :: insertLate n ms

/-- dataset.py:216-220 `Dataset.add`; dataset.py:475-486 `DatasetTemporal.add`: a child without time gets 0.0 -/
def Parent.add {G : Type} (p : Parent G) (n : Node G) : Parent G :=
  if p.temporal then
    let n := match n.time with
      | none => n.setTime 0
      | some _ => n
    { p with kids := insertLate n p.kids }
  else { p with kids := p.kids ++ [n] }

/-- xdmf.py:458-485 `_parse_time`, the time if it is a single one. A single time that isn't there is float(None), a TypeError; an invalid Type is a
None that cannot be unpacked -/
def parseTime : TimeEl → Except Exc (Option ℚ)
  | .single (some v) => .ok (some v)
  | .single none => .error .type
  | .list _ => .ok none
  | .hyperslab .. => .ok none
  | .range => .error .notImplemented
  | .other => .error .type

/-- xdmf.py:177-179: the Time of a temporal collection, for its children; `times` is used only for a `t` that nothing uses (187) -/
def timesOf : Option TimeEl → Except Exc (Option ℚ)
  | none => .ok none
  | some t => parseTime t

/-- xdmf.py:153-163: the time of an element -/
def elemTime {G : Type} (parent : Option (Parent G)) (time : Option ℚ) (el : Option TimeEl) : Except Exc (Option ℚ) :=
  let own : Except Exc (Option ℚ) := match time with
    | some t => .ok (some t)
    | none =>
      match el with
      | none => .ok none
      | some t => parseTime t
  match own with
  | .error e => .error e
  | .ok (some t) => .ok (some t)
  | .ok none =>
    match parent with
    | some p => if p.kids = [] then .ok none else .ok p.time
    | none => .ok none

/-- xdmf.py:135-142: topoattrs, as "there are any"; `parent_node` is false while it has no children -/
def elemTopo {G : Type} (parent : Option (Parent G)) (topo : Bool) : Bool :=
  topo || (match parent with
    | some p => !p.kids.isEmpty && p.topo
    | none => false)

/-- xdmf.py:144-151: geoattrs, as "there are any", and crds -/
def elemGeo {G : Type} (parent : Option (Parent G)) (topo : Bool) (geo : Option (Except Exc G)) : Except Exc (Bool × Option G) :=
  match geo with
  | some g =>
    if topo then
      match g with
      | .ok c => .ok (true, some c)
      | .error e => .error e
    else .error .type
  | none =>
    match parent with
    | some p => if !p.kids.isEmpty && p.geo then .ok (true, p.crds) else .ok (false, none)
    | none => .ok (false, none)

/-- amr_grid.py:19-46 `dataset_to_amr_grid` and 151-195 `AMRGrid`: an AMRGrid has no `crds` itself, so it cannot be a patch -/
def toAmr {G : Type} (name : String) (time : Option ℚ) (kids : List (Node G)) : Except Exc (Node G) :=
  if kids.length ≤ 1 then .ok (.group name time kids)
  else if kids.all Node.isGrid then
    if kids.any Node.isAmr then .error .attribute
    else
      match kids with
      | [] => .ok (.group name time kids)
      | k :: _ => .ok (.amr (match k.time with | some t => some t | none => time) time kids)
  else .ok (.group name time kids)

/-- `parent_node.add(grd)` if there is a parent -/
def give {G : Type} (parent : Option (Parent G)) (n : Node G) : Option (Parent G) := parent.map fun p => p.add n

/-- xdmf.py:136-260 `_parse_grid`, giving the parent as it is afterwards, and what is returned; and its loop, lines 186-189. Topology, geometry and
time of a Dataset are set (238-245) only after its children have been read; a Dataset has no `set_crds` -/
def parseGrid {G : Type} (parent : Option (Parent G)) (time : Option ℚ) : Elem G → Except Exc (Option (Parent G) × Option (Node G))
  | .mk kind name topo geo tel attrs kids =>
    let topo := elemTopo parent topo
    match elemGeo parent topo geo with
    | .error e => .error e
    | .ok (geo, crds) =>
      match elemTime parent time tel with
      | .error e => .error e
      | .ok time =>
        match kind with
        | .uniform =>
          if topo && geo then
            if attrs = [] then .ok (parent, some (.grid name none none []))
            else
              let n := Node.grid name time crds attrs
              .ok (give parent n, some n)
          else .ok (parent, none)
        | .temporal =>
          match timesOf tel with
          | .error e => .error e
          | .ok _ =>
            match parseKids (some (Parent.new true)) time kids with
            | .error e => .error e
            | .ok none => .error .runtime
            | .ok (some d) =>
              if d.kids = [] then .ok (parent, some (.series name none []))
              else if crds.isSome then .error .attribute
              else
                let n := Node.series name time d.kids
                .ok (give parent n, some n)
        | .spatial =>
          match parseKids (some (Parent.new false)) time kids with
          | .error e => .error e
          | .ok none => .error .runtime
          | .ok (some d) =>
            if d.kids = [] then .ok (parent, some (.group name none []))
            else if crds.isSome then .error .attribute
            else
              match toAmr name time d.kids with
              | .error e => .error e
              | .ok n => .ok (give parent n, some n)
        | .collection =>
          match parseKids none time kids with
          | .error e => .error e
          | .ok _ => .error .attribute
        | .ignored => .ok (parent, none)
where
  parseKids (parent : Option (Parent G)) (time : Option ℚ) : List (Elem G) → Except Exc (Option (Parent G))
    | [] => .ok parent
    | el :: els =>
      match parseGrid parent time el with
      | .error e => .error e
      | .ok (p, _) => parseKids p time els

/-- `if grd` -/
def Node.truthy {G : Type} : Node G → Bool
  | .grid _ _ _ f => !f.isEmpty
  | .series _ _ k => !k.isEmpty
  | .group _ _ k => !k.isEmpty
  | .amr .. => true

/-- xdmf.py:120-124: the Grids of the Domain, one by one; the file is their parent -/
def parseDomain {G : Type} (file : Parent G) : List (Elem G) → Except Exc (Parent G × List (Option (Node G)))
  | [] => .ok (file, [])
  | el :: els =>
    match parseGrid (some file) none el with
    | .error e => .error e
    | .ok (none, _) => .error .runtime
    | .ok (some file, r) =>
      match parseDomain file els with
      | .error e => .error e
      | .ok (file, rs) => .ok (file, r :: rs)

/-- xdmf.py:97-99: each grid is added once more; what the file has already stays where it is, and None has no `parents` -/
def addAll {G : Type} (kids : List (Node G)) : List (Option (Node G)) → Except Exc (List (Node G))
  | [] => .ok kids
  | none :: _ => .error .attribute
  | some n :: rs => addAll (if n.truthy then kids else kids ++ [n]) rs

/-- xdmf.py:96-102 `_parse`: the children of the file -/
def parseFile {G : Type} (els : List (Elem G)) : Except Exc (List (Node G)) :=
  match parseDomain (Parent.new false) els with
  | .error e => .error e
  | .ok (file, rs) => addAll file.kids rs

end Viscid.Xdmf
