import Verif.Model.Basic
/-!
# Model of `viscid/sliceutil.py` fill_nd_sel_list (lines 141-265)

An entry of the selection list is modelled after its text has been looked at: an optional axis name
(`'name=...'`, lines 157-159), and whether it is an Ellipsis, a newaxis or any other selection
(lines 166-182).  The parallel lists full_ax_names, full_sel_list and full_newdim_flags are one list
of rows (they are always extended together).
-/
namespace Viscid.FillSel

inductive Err where
  | indexError | valueError | assertionError
  deriving DecidableEq, Repr

inductive Kind (S : Type) where
  | ellipsis | newax | sel (s : S)
  deriving DecidableEq, Repr

structure Entry (N S : Type) where
  name : Option N
  kind : Kind S
  deriving DecidableEq, Repr

/-- One axis of the result: full_ax_names, full_sel_list, full_newdim_flags. -/
structure Row (N S : Type) where
  name : N
  kind : Kind S
  isNew : Bool
  deriving DecidableEq, Repr

variable {N S : Type} [DecidableEq N] [DecidableEq S]

structure St (N S : Type) where
  rows : List (Row N S)
  remaining : List N
  nUnnamed : Nat

/-- sliceutil.py:221-228: replace the first row of that name, which must hold `slice(None)`. -/
def overwrite (full : S) (nm : N) (k : Kind S) : List (Row N S) → Except Err (List (Row N S))
  | [] => .error .indexError
  | r :: rs =>
    if r.name = nm then
      if r.kind = .sel full then .ok (⟨nm, k, false⟩ :: rs) else .error .indexError
    else match overwrite full nm k rs with
      | .ok rs' => .ok (r :: rs')
      | .error e => .error e

/-- sliceutil.py:206-239, one pass of the loop; `isNew` is `i in newax_idxs`. `newName k` is
'new-x{k}'. -/
def step (full : S) (newName : Nat → N) (ax : List N) (isNew : Bool) (e : Entry N S) (st : St N S) :
    Except Err (St N S) :=
  match e.name with
  | none =>
    if isNew then
      .ok { st with rows := st.rows ++ [⟨newName st.nUnnamed, e.kind, true⟩], nUnnamed := st.nUnnamed + 1 }
    else match st.remaining with
      | [] => .error .indexError                       -- pop from empty list
      | n :: r => .ok { st with rows := st.rows ++ [⟨n, e.kind, false⟩], remaining := r }
  | some nm =>
    if isNew then
      if nm ∈ st.rows.map Row.name ∨ nm ∈ ax then .error .indexError
      else .ok { st with rows := st.rows ++ [⟨nm, e.kind, true⟩] }
    else if nm ∈ st.rows.map Row.name then
      match overwrite full nm e.kind st.rows with
      | .ok rows => .ok { st with rows := rows }
      | .error e => .error e
    else if nm ∈ st.remaining then
      let k := st.remaining.idxOf nm
      .ok { st with rows := st.rows ++ (st.remaining.take k).map (fun n => ⟨n, .sel full, false⟩) ++
                      [⟨nm, e.kind, false⟩]
                    remaining := st.remaining.drop (k + 1) }
    else .error .valueError                            -- list.index

def loop (full : S) (newName : Nat → N) (ax : List N) (isNew : Nat → Bool) :
    Nat → List (Entry N S) → St N S → Except Err (St N S)
  | _, [], st => .ok st
  | i, e :: es, st =>
    match step full newName ax (isNew i) e st with
    | .error e => .error e
    | .ok st' => loop full newName ax isNew (i + 1) es st'

/-- Indices of the newaxis entries (lines 175-183). -/
def newIdxs (es : List (Entry N S)) : List Int :=
  (es.zipIdx.filter fun p => p.1.kind = .newax).map fun p => (p.2 : Int)

/-- sliceutil.py:141-265. -/
def fill (full : S) (newName : Nat → N) (ax : List N) (es : List (Entry N S)) :
    Except Err (List (Row N S)) :=
  -- 144-150
  if es = [⟨none, .ellipsis⟩] then .ok (ax.map fun n => ⟨n, .sel full, false⟩)
  else
    let ells := es.countP fun e => e.kind = .ellipsis
    if ells > 1 then .error .indexError                -- 172-173
    else
      let nNew := es.countP fun e => e.kind = .newax
      let nNamed := es.countP fun e => e.name.isSome
      let nNamedNew := es.countP fun e => e.name.isSome ∧ e.kind = .newax
      if ells = 1 ∧ nNamed > nNamedNew then .error .indexError   -- 192-195
      else
        -- 196-200
        let idx := es.findIdx fun e => e.kind = .ellipsis
        let nFill : Int := (ax.length : Int) + nNew - ((es.length : Int) - 1)
        let es' := if ells = 1 then es.take idx ++ List.replicate nFill.toNat ⟨none, .sel full⟩ ++ es.drop (idx + 1)
          else es
        let nidx : List Int :=
          if ells = 1 then (newIdxs es).map fun i : Int => if i < (idx : Int) then i else i + nFill - 1
          else newIdxs es
        match loop full newName ax (fun i => decide ((i : Int) ∈ nidx)) 0 es' ⟨[], ax, 0⟩ with
        | .error e => .error e
        | .ok st =>
          -- 241-244
          let rows := st.rows ++ st.remaining.map fun n => ⟨n, .sel full, false⟩
          -- 262-263
          if rows.length = ax.length + nNew then .ok rows else .error .assertionError

end Viscid.FillSel
