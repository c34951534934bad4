/-!
# Model of `Information` elements in `viscid/readers/xdmf.py`, and of the info of AMR grids in `viscid/amr_grid.py`

XML elements are trees. What `_parse_dataitem` gives for a DataItem (an array, or an exception) is an argument. Dictionaries are objects: an info is kept by reference.
Not modelled: searching parents for info (see Tree) and the other parts of grids (see Xdmf).
-/
namespace Viscid.XdmfInfo

/-- an element of ElementTree: its tag, attributes, the text before its first child, children -/
inductive Elem where
  | mk (tag : String) (attrs : List (String × String)) (text : Option String) (kids : List Elem)

def Elem.tag : Elem → String | .mk t _ _ _ => t
def Elem.attrs : Elem → List (String × String) | .mk _ a _ _ => a
def Elem.text : Elem → Option String | .mk _ _ t _ => t
def Elem.kids : Elem → List Elem | .mk _ _ _ k => k

/-- `el.get(name)` -/
def Elem.get (e : Elem) (name : String) : Option String := (e.attrs.find? fun a => a.1 = name).map (·.2)

/-- `bool(el)` of ElementTree: an element without children is false -/
def Elem.truthy (e : Elem) : Bool := !e.kids.isEmpty

mutual
/-- the element and all that is in it, in the order of the file -/
def Elem.all : Elem → List Elem
  | .mk t a x k => .mk t a x k :: Elem.allOf k
def Elem.allOf : List Elem → List Elem
  | [] => []
  | e :: es => e.all ++ Elem.allOf es
end

/-- `el.find(".//tag")` -/
def Elem.find (e : Elem) (tag : String) : Option Elem := (Elem.allOf e.kids).find? fun k => k.tag = tag

/-- `el.findall("./tag")` -/
def Elem.findall (e : Elem) (tag : String) : List Elem := e.kids.filter fun k => k.tag = tag

/-- values of infos: text (None if there is none) or data -/
inductive Val (D : Type) where
  | text (s : Option String)
  | data (d : D)
deriving DecidableEq, Repr

/-- xdmf.py:488-499 `_parse_information`, with the defaults of `_fill_attrs` (126-134, 56-59), which are None -/
def parseInformation (item : Elem → Except E D) (e : Elem) : Except E (Option String × Val D) :=
  match e.get "Value" with
  | some v => .ok (e.get "Name", .text (some v))
  | none =>
    match e.find "DataItem" with
    | some di =>
      if di.truthy then
        match item di with
        | .ok d => .ok (e.get "Name", .data d)
        | .error x => .error x
      else .ok (e.get "Name", .text e.text)
    | none => .ok (e.get "Name", .text e.text)

abbrev Dict (D : Type) := Option String → Option (Val D)

/-- tree.py:144-145 `set_info` of a dictionary -/
def put (d : Dict D) (k : Option String) (v : Val D) : Dict D := fun j => if j = k then some v else d j

/-- xdmf.py:501-504 `_inject_info`, for the elements that `findall` gives -/
def inject (item : Elem → Except E D) (d : Dict D) : List Elem → Except E (Dict D)
  | [] => .ok d
  | e :: es =>
    match parseInformation item e with
    | .error x => .error x
    | .ok (k, v) => inject item (put d k v) es

/-- xdmf.py:176, 182, 200, 417: the info that a new grid, dataset or field has from its element -/
def infoOf (item : Elem → Except E D) (e : Elem) : Except E (Dict D) := inject item (fun _ => none) (e.findall "Information")

/-- dictionaries by number, and the one that each node has -/
structure World (D : Type) where
  dicts : Nat → Dict D
  info : Nat → Nat

/-- tree.py:114-121 `get_info`; KeyError is `none` -/
def getInfo (w : World D) (node : Nat) (k : Option String) : Option (Val D) := w.dicts (w.info node) k

/-- tree.py:144-145 `set_info` -/
def setInfo (w : World D) (node : Nat) (k : Option String) (v : Val D) : World D :=
  { w with dicts := fun i => if i = w.info node then put (w.dicts i) k v else w.dicts i }

/-- amr_grid.py:190-193 the info of a new AMR grid `amr` of `patches`, whose first is `first` -/
def amrGrid (w : World D) (amr first : Nat) : World D := { w with info := fun n => if n = amr then w.info first else w.info n }

end Viscid.XdmfInfo
