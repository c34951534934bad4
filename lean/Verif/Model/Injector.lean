/-!
# Model of the way the package puts its modules' names into its own namespace, and of the proxies of modules that are missing

Models viscid/__init__.py:100-129 (`_on_injected_import_error`, `import_injector`), 210-257 (`check`),
viscid/verror.py:10-34 (`UnimportedModule`) and viscid/cython/__init__.py:46-58 (`_dummy`).

Python's import system is a parameter: for every name of the list, what the import of it does at its turn.
-/
namespace Viscid.Injector

/-- an ImportError, or any other exception (AttributeError for a name of `__all__` that a module does not have, SyntaxError, ...) -/
inductive Err where
  | importError
  | other
  deriving DecidableEq, Repr

/-- a module: itself as an object, its `__all__` if it has one, and its attributes -/
structure PyMod (V : Type) where
  val : V
  all : Option (List String)
  attr : String → Option V

/-- what `import_module("." + s, package)` does: the submodules it makes attributes of the package on its way, even if it fails
in the end, and its outcome -/
structure Imp (V : Type) where
  binds : List (String × V)
  out : Except Err (PyMod V)

abbrev Ns (V : Type) := String → Option V

/-- `namespace[s] = v` -/
def setName {V : Type} (ns : Ns V) (b : String × V) : Ns V := fun n => if n = b.1 then some b.2 else ns n

/-- `attr_list`, `additional`, `namespace`, and the names in the messages of the log -/
structure St (V : Type) where
  list : List String
  additional : List String
  ns : Ns V
  log : List String

/-- viscid/__init__.py:120-122: `for sub in all_subattrs: namespace[sub] = getattr(m, sub)` -/
def exportAll {V : Type} (m : PyMod V) : List String → Ns V → Option Err × Ns V
  | [], ns => (none, ns)
  | sub :: rest, ns =>
    match m.attr sub with
    | none => (some .other, ns)
    | some v => exportAll m rest (setName ns (sub, v))

/-- viscid/__init__.py:111-128: the loop over a copy of the list; every name comes with what its import does. -/
def loop {V : Type} (quiet fatal : Bool) : List (String × Imp V) → St V → Option Err × St V
  | [], st => (none, st)
  | (s, r) :: rest, st =>
    let ns1 := r.binds.foldl setName st.ns
    match r.out with
    | .ok m =>
      let ns2 := setName ns1 (s, m.val)
      match m.all with
      | none => loop quiet fatal rest { st with ns := ns2 }
      | some subs =>
        match exportAll m subs ns2 with
        | (none, ns3) => loop quiet fatal rest { st with ns := ns3, additional := st.additional ++ subs }
        | (some e, ns3) => (some e, { st with ns := ns3, additional := st.additional ++ subs })
    | .error .importError =>
      match ns1 s with
      | none =>
        let st' := { st with ns := ns1, list := st.list.erase s, log := if quiet then st.log else st.log ++ [s] }
        if fatal then (some .importError, st') else loop quiet fatal rest st'
      | some _ => loop quiet fatal rest { st with ns := ns1 }
    | .error .other => (some .other, { st with ns := ns1 })

/-- viscid/__init__.py:107-129: `import_injector(attr_list, namespace, quiet=, fatal=)`; the list and the namespace are changed in place. -/
def inject {V : Type} (quiet fatal : Bool) (l : List (String × Imp V)) (ns : Ns V) : Option Err × St V :=
  match loop quiet fatal l ⟨l.map Prod.fst, [], ns, []⟩ with
  | (none, st) => (none, { st with list := st.list ++ st.additional })
  | (some e, st) => (some e, st)

/-- viscid/__init__.py:210-257: `check()`; whether each of the two parts (the tracing of lines, the reading of a file) raised,
and whether a traced line has a nan. Printing is not modelled. -/
def check (raised1 hasNan raised2 : Bool) : Nat :=
  let ret := if raised1 || hasNan then 0 ||| (1 <<< 0) else 0
  if raised2 then ret ||| (1 <<< 1) else ret

/-! ## Proxies -/

/-- what an operation on a proxy gives -/
inductive Res (V E : Type) where
  | val (v : V)
  | raised (e : E)
  | typeError
  deriving DecidableEq, Repr

/-- viscid/verror.py:10-24: the exception, the message, and the attributes given to the constructor -/
structure Proxy (V E : Type) where
  exception : E
  msg : String
  attrs : List (String × V)

/-- viscid/verror.py:26-30: reading an attribute: those that were set are found, every other one makes the proxy raise its exception,
after a message in the log if it has one. (`exception`, `msg`, `_fall_over` and the attributes every object has are left out.) -/
def Proxy.get {V E : Type} (p : Proxy V E) (name : String) : Res V E × List String :=
  match p.attrs.lookup name with
  | some v => (.val v, [])
  | none => (.raised p.exception, if p.msg = "" then [] else [p.msg])

/-- viscid/verror.py:31-32: setting an attribute raises -/
def Proxy.set {V E : Type} (p : Proxy V E) (_name : String) (_v : V) : Res V E × Proxy V E := (.raised p.exception, p)

/-- viscid/verror.py:33-34: `def __call__(self)` takes no arguments -/
def Proxy.call {V E : Type} (p : Proxy V E) (args : List V) : Res V E :=
  match args with
  | [] => .raised p.exception
  | _ :: _ => .typeError

/-- viscid/cython/__init__.py:46-58: `_dummy`, whose exception is `CythonNotBuilt(msg)` and which cannot be called at all -/
structure Dummy (V : Type) where
  msg : String
  attrs : List (String × V)

def Dummy.get {V : Type} (p : Dummy V) (name : String) : Res V String :=
  match p.attrs.lookup name with
  | some v => .val v
  | none => .raised p.msg

/-- viscid/cython/__init__.py:57-58 -/
def Dummy.set {V : Type} (p : Dummy V) (_name : String) (_v : V) : Res V String × Dummy V := (.raised p.msg, p)

end Viscid.Injector
