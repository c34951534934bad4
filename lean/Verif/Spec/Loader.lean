import Verif.Model.Loader
/-!
# What it means that files are loaded
-/
namespace Viscid.Spec.Loader
open Viscid.Loader

/-- under a name there is a file, in the bucket -/
def Holds (w : World) (n : String) (o : Obj) : Prop := ∃ i : Nat, w.bucket.items.get? (.name n) = some (some i) ∧ w.objs[i]? = some o

/-- readers that group nothing -/
def Single (t : Ftype) : Prop := ∀ names, t.groups names = names.map fun n => [n]

/-- nothing fails to be read -/
def Fine (env : Env) : Prop := ∀ g, env.read g = .ok

/-- states that users can get to, with readers that group nothing, as long as nothing fails to be read -/
inductive Reach {T : Type} [DecidableEq T] (typeOf : String → Option T) (ft : T → Ftype) : World → Prop
  | start : Reach typeOf ft empty
  | load {w : World} (env : Env) (names : List String) (fine : Fine env) : Reach typeOf ft w →
      Reach typeOf ft (loadFiles env typeOf ft w names).1
  | unload {w : World} (n : String) : Reach typeOf ft w → Reach typeOf ft (unloadFile w n).1
  | all {w : World} : Reach typeOf ft w → Reach typeOf ft (unloadAllFiles w).1

/-- what users do with files that load others: load one, with the children that it has, or unload it -/
inductive Ev
  | load (name : String) (kids : List String)
  | unload (name : String)

/-- which ones are loaded, and their children -/
def live : List Ev → List (String × List String)
  | [] => []
  | .load n ks :: past => (n, ks) :: live past
  | .unload n :: past => (live past).filter fun p => p.1 ≠ n

/-- the past is possible (the last event first): files are loaded that are not loaded yet, their children are other files, and only files
    that are loaded are unloaded -/
def Possible (leaf : String → Prop) : List Ev → Prop
  | [] => True
  | .load n ks :: past => Possible leaf past ∧ ¬ leaf n ∧ (∀ k ∈ ks, leaf k) ∧ n ∉ (live past).map Prod.fst
  | .unload n :: past => Possible leaf past ∧ n ∈ (live past).map Prod.fst

/-- what there is when a file is loaded: all files can be read, and those children are the ones given -/
def envOf (ks : List String) : Env := ⟨fun _ => true, fun _ => .ok, fun _ => ks, fun g => g.length ≠ 1⟩

/-- the past, in the program, and whether there was any exception; containers are loaded as groups of two files, to have a name of their own -/
def exec : List Ev → World × Bool
  | [] => (empty, false)
  | .load n ks :: past =>
    let (w, e) := exec past
    match loadGroup (envOf ks) w n [n, n] with
    | (w, .ok _) => (w, e)
    | (w, .error _) => (w, true)
  | .unload n :: past =>
    let (w, e) := exec past
    match unloadFile w n with
    | (w, none) => (w, e)
    | (w, some _) => (w, true)

end Viscid.Spec.Loader
