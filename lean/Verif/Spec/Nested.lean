import Verif.Model.Nested
/-!
# What it means to go down a tree of datasets
-/
namespace Viscid.Spec.Nested

variable {F α : Type}
open Viscid.Nested
open Viscid.Dataset (Item Err)

/-- a deferred child stands for what its callback returns, anything else for itself -/
inductive Stands : Node F → Node F → Prop
  | target {n : Node F} : Stands (.deferred n) n
  | self {n : Node F} : (∀ t, n ≠ .deferred t) → Stands n n

/-- `Leads n time g`: the way down from `n` ends at the grid `g`. It goes to the active child of datasets, and to the child at `time` of temporal datasets if there
is a `time`. -/
inductive Leads : Node F → Option Item → Node F → Prop
  | here {gid : Nat} {fs : List (List Key × F)} {time : Option Item} : Leads (.grid gid fs) time (.grid gid fs)
  | dset {cs : List (List Key × Node F)} {i : Nat} {ks : List Key} {c c' g : Node F} {time : Option Item} : cs[i]? = some (ks, c) → Stands c c' → Leads c' time g → Leads (.dset cs (some i)) time g
  | active {cs : List (Viscid.Dataset.Time × Node F)} {c c' g : Node F} : Stands c c' → Leads c' none g → Leads (.temporal cs (some c)) none g
  | atTime {cs : List (Viscid.Dataset.Time × Node F)} {a : Option (Node F)} {i : Item} {c c' g : Node F} : childAt cs i = .ok c → Stands c c' → Leads c' (some i) g → Leads (.temporal cs a) (some i) g

/-- none of the active children on the way down is a deferred child -/
inductive Ready : Node F → Option Item → Prop
  | here {gid : Nat} {fs : List (List Key × F)} {time : Option Item} : Ready (.grid gid fs) time
  | dset {cs : List (List Key × Node F)} {i : Nat} {ks : List Key} {c : Node F} {time : Option Item} : cs[i]? = some (ks, c) → (∀ t, c ≠ .deferred t) → Ready c time → Ready (.dset cs (some i)) time
  | active {cs : List (Viscid.Dataset.Time × Node F)} {c : Node F} : (∀ t, c ≠ .deferred t) → Ready c none → Ready (.temporal cs (some c)) none
  | atTime {cs : List (Viscid.Dataset.Time × Node F)} {a : Option (Node F)} {i : Item} {c c' : Node F} : childAt cs i = .ok c → Stands c c' → Ready c' (some i) → Ready (.temporal cs a) (some i)

/-- no static dataset on the way down has a child with the handle `k` -/
inductive Free (k : Key) : Node F → Prop
  | here {gid : Nat} {fs : List (List Key × F)} : Free k (.grid gid fs)
  | dset {cs : List (List Key × Node F)} {i : Nat} {ks : List Key} {c : Node F} : (∀ c ∈ cs, k ∉ c.1) → cs[i]? = some (ks, c) → Free k c → Free k (.dset cs (some i))
  | active {cs : List (Viscid.Dataset.Time × Node F)} {c : Node F} : Free k c → Free k (.temporal cs (some c))

/-- the first entry with the handle `k` (handles of a Bucket are those of one entry) -/
def Entry (l : List (List Key × α)) (k : Key) (x : α) : Prop :=
  ∃ before ks after, l = before ++ (ks, x) :: after ∧ k ∈ ks ∧ ∀ b ∈ before, k ∉ b.1

/-- no temporal dataset is met on the way down active children -/
inductive Still : Node F → Prop
  | grid {gid : Nat} {fs : List (List Key × F)} : Still (.grid gid fs)
  | deferred {n : Node F} : Still (.deferred n)
  | empty {cs : List (List Key × Node F)} : Still (.dset cs none)
  | outside {cs : List (List Key × Node F)} {i : Nat} : cs[i]? = none → Still (.dset cs (some i))
  | dset {cs : List (List Key × Node F)} {i : Nat} {ks : List Key} {c : Node F} : cs[i]? = some (ks, c) → Still c → Still (.dset cs (some i))

/-- at most one temporal dataset is met on the way down: there is none below the children of temporal datasets -/
inductive Once : Node F → Prop
  | grid {gid : Nat} {fs : List (List Key × F)} : Once (.grid gid fs)
  | deferred {n : Node F} : Once (.deferred n)
  | empty {cs : List (List Key × Node F)} : Once (.dset cs none)
  | outside {cs : List (List Key × Node F)} {i : Nat} : cs[i]? = none → Once (.dset cs (some i))
  | dset {cs : List (List Key × Node F)} {i : Nat} {ks : List Key} {c : Node F} : cs[i]? = some (ks, c) → Once c → Once (.dset cs (some i))
  | temporal {cs : List (Viscid.Dataset.Time × Node F)} {a : Option (Node F)} : (∀ t c c', (t, c) ∈ cs → Stands c c' → Still c') → Once (.temporal cs a)

mutual
/-- no deferred child in the whole tree -/
def NoDeferred : Node F → Prop
  | .grid _ _ => True
  | .deferred _ => False
  | .dset cs _ => NoDeferredIn cs
  | .temporal cs _ => NoDeferredAt cs
def NoDeferredIn : List (List Key × Node F) → Prop
  | [] => True
  | c :: cs => NoDeferred c.2 ∧ NoDeferredIn cs
def NoDeferredAt : List (Viscid.Dataset.Time × Node F) → Prop
  | [] => True
  | c :: cs => NoDeferred c.2 ∧ NoDeferredAt cs
end

/-- a single time: a number or a text, but no slice -/
def Single : Item → Prop
  | .slice _ => False
  | _ => True

end Viscid.Spec.Nested
