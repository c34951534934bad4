/-!
# Model of `viscid/readers/vfile.py` and `vfile_bucket.py`: options files are loaded with, and the grids and datasets they make

`G` and `D` are the classes of grids and datasets, `V` the values of options.
-/
namespace Viscid.FileOpts

inductive Err where
  | type | value | attribute
  deriving DecidableEq, Repr

/-- The attributes of the class of a reader (vfile.py:80-83); `_grid_type` may be None (ggcm_logfile.py:41) -/
structure Cls (G D V : Type) where
  gridType : Option G
  datasetType : D
  temporalType : D
  gridOpts : List (String × V)

/-- A file: its attributes `_grid_type`, `_grid_opts` and `grid_opts` -/
structure File (G D V : Type) where
  cls : Cls G D V
  gridType : Option G
  _gridOpts : List (String × V)
  gridOpts : Option (List (String × V))

/-- vfile.py:100-114 `VFile.__init__`: line 108 sets `self.grid_opts` -/
def File.new (cls : Cls G D V) (gridType : Option G) (gridOpts : Option (List (String × V))) : File G D V where
  cls := cls
  gridType := match gridType with
    | some g => some g
    | none => cls.gridType
  _gridOpts := cls.gridOpts
  gridOpts := gridOpts

/-- `dict.update` with one item -/
def put (d : List (String × V)) (k : String) (v : V) : List (String × V) :=
  if d.any (·.1 == k) then d.map fun e => if e.1 == k then (k, v) else e else d ++ [(k, v)]

/-- `dict.update` -/
def update (d e : List (String × V)) : List (String × V) := e.foldl (fun d kv => put d kv.1 kv.2) d

/-- A new grid: its class, and the options of its constructor -/
structure Grid (G V : Type) where
  cls : G
  opts : List (String × V)
  deriving DecidableEq

/-- vfile.py:184-206 `_make_grid`: `gridType` and `kwargs` are arguments of the reader -/
def File.makeGrid (f : File G D V) (gridType : Option G) (kwargs : List (String × V)) : Except Err (Grid G V) :=
  let other := update f._gridOpts kwargs
  let t := match gridType with
    | some g => some g
    | none => f.gridType
  match t with
  | none => .error .type
  | some g => .ok ⟨g, other⟩

/-- What `dset_type` may be: a text, or a class of datasets -/
inductive DsetType (D : Type) where
  | text (s : String)
  | cls (d : D)

/-- vfile.py:160-182 `_make_dataset`: classes have no `lower` -/
def File.makeDataset (f : File G D V) : DsetType D → Except Err D
  | .cls _ => .error .attribute
  | .text s =>
    let s := s.toLower
    if s = "dataset" then .ok f.cls.datasetType
    else if s = "temporal" then .ok f.cls.temporalType
    else .error .value

/-- vfile_bucket.py:116-144: files by name; a file already there is given back as it is, a new one is made with the options of the call -/
def load (b : List (String × File G D V)) (handle : String) (cls : Cls G D V) (gridType : Option G)
    (gridOpts : Option (List (String × V))) : List (String × File G D V) × File G D V :=
  match b.find? (·.1 == handle) with
  | some (_, f) => (b, f)
  | none =>
    let f := File.new cls gridType gridOpts
    (b ++ [(handle, f)], f)

end Viscid.FileOpts
