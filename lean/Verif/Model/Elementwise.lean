import Mathlib.Algebra.Order.Field.Rat
import Mathlib.Data.Rat.Floor
/-!
# Model of the elementwise operations of `viscid/calculator/calc.py` and `viscid/calculator/necalc.py`

Numbers are rational numbers together with the kind of their type; `none` is a number that is not finite. Rounding and the wrapping of integers out of range
are not modelled, nor is broadcasting (fields are on one grid; see `Verif.Model.Arith` for broadcasting): the data of a field is a list. Division of integers
is not modelled for numexpr.
-/
namespace Viscid.Elementwise

/-- `dtype.kind`: 'i' or 'f' -/
inductive Kind
  | int
  | flt
deriving DecidableEq, Repr

/-- the kind of the result of an operation of two kinds -/
def join : Kind → Kind → Kind
  | .int, .int => .int
  | _, _ => .flt

structure Fld where
  name : String
  kind : Kind
  vals : List (Option ℚ)
deriving DecidableEq, Repr

/-- an argument or a result: a number or a field -/
inductive Arg
  | num (k : Kind) (x : Option ℚ)
  | fld (f : Fld)
deriving DecidableEq, Repr

inductive Err
  | attributeError
  | valueError
  | keyError
deriving DecidableEq, Repr

/-- what numpy and numexpr work on -/
inductive Data
  | num (k : Kind) (x : Option ℚ)
  | arr (k : Kind) (l : List (Option ℚ))
deriving DecidableEq, Repr

/-- an argument as numpy and numexpr see it: the data of a field -/
def Arg.data : Arg → Data
  | .num k x => .num k x
  | .fld f => .arr f.kind f.vals

/-- an operation of numbers where one that is not finite gives one that is not finite -/
def lift2 (o : ℚ → ℚ → Option ℚ) (x y : Option ℚ) : Option ℚ := x.bind fun x => y.bind fun y => o x y

/-- an elementwise operation of two arrays or numbers (numpy and numexpr) -/
def zip (kd : Kind → Kind → Kind) (o : ℚ → ℚ → Option ℚ) : Data → Data → Except Err Data
  | .num k x, .num k' y => .ok (.num (kd k k') (lift2 o x y))
  | .num k x, .arr k' l => .ok (.arr (kd k k') (l.map (lift2 o x)))
  | .arr k l, .num k' y => .ok (.arr (kd k k') (l.map fun x => lift2 o x y))
  | .arr k l, .arr k' l' => if l.length = l'.length then .ok (.arr (kd k k') (List.zipWith (lift2 o) l l')) else .error .valueError

/-- an elementwise operation of one array or number -/
def each (o : ℚ → ℚ) : Data → Data
  | .num k x => .num k (x.map o)
  | .arr k l => .arr k (l.map fun x => x.map o)

def plus : Data → Data → Except Err Data := zip join fun x y => some (x + y)
def minus : Data → Data → Except Err Data := zip join fun x y => some (x - y)
def times : Data → Data → Except Err Data := zip join fun x y => some (x * y)
/-- `/`: floats, not finite for a divisor of zero -/
def over : Data → Data → Except Err Data := zip (fun _ _ => .flt) fun x y => if y = 0 then none else some (x / y)

/-! ## the numpy backend -/

/-- operators of fields and ufuncs on them go through `Field.wrap` (field.py:1814-1893, 1906-1960): a field if any argument is one, but a number if it has one
value only (field.py:1826-1830); the names of results are set after -/
def ofNumpy : Data → Arg
  | .num k x => .num k x
  | .arr k [x] => .num k x
  | .arr k l => .fld ⟨"", k, l⟩

/-- calc.py:164 `lambda a: -a` -/
def negNp (a : Arg) : Except Err Arg := .ok <| ofNumpy (each (fun x => -x) a.data)
/-- calc.py:166 `lambda a, b: a + b` -/
def addNp (a b : Arg) : Except Err Arg := do .ok (ofNumpy (← plus a.data b.data))
/-- calc.py:167 `lambda a, b: a - b` -/
def diffNp (a b : Arg) : Except Err Arg := do .ok (ofNumpy (← minus a.data b.data))
/-- calc.py:168 `lambda a, b: a * b` -/
def mulNp (a b : Arg) : Except Err Arg := do .ok (ofNumpy (← times a.data b.data))
/-- calc.py:169 `lambda a, x, b, y: a * x + b * y` -/
def axpbyNp (a x b y : Arg) : Except Err Arg := do
  let p ← times a.data x.data
  let q ← times b.data y.data
  .ok (ofNumpy (← plus p q))
/-- calc.py:170 `lambda a, b: (a - b) / a` -/
def relativeDiffNp (a b : Arg) : Except Err Arg := do .ok (ofNumpy (← over (← minus a.data b.data) a.data))
/-- calc.py:171 `lambda a, b: np.abs(a - b)` -/
def absDiffNp (a b : Arg) : Except Err Arg := do .ok (ofNumpy (each (fun x => |x|) (← minus a.data b.data)))
/-- calc.py:172 `np.abs` -/
def absValNp (a : Arg) : Except Err Arg := .ok <| ofNumpy (each (fun x => |x|) a.data)

/-- `np.asarray(x, dtype)` of a number: towards zero for integers -/
def asType : Kind → ℚ → ℚ
  | .flt, x => x
  | .int, x => if 0 ≤ x then (⌊x⌋ : ℚ) else (⌈x⌉ : ℚ)

/-- calc.py:165 `np.asarray(a, dtype=b.dtype) * b`, `a` a number -/
def scaleNp (a : ℚ) : Arg → Except Err Arg
  | .num _ _ => .error .attributeError
  | .fld f => do .ok (ofNumpy (← times (.num f.kind (some (asType f.kind a))) (.arr f.kind f.vals)))

/-! ## the numexpr backend -/

/-- expressions of numexpr -/
inductive Expr
  | var (s : String)
  | neg (e : Expr)
  | add (e f : Expr)
  | sub (e f : Expr)
  | mul (e f : Expr)
  | div (e f : Expr)
  | abs (e : Expr)

/-- `ne.evaluate(expr, local_dict)`: the names of an expression are looked up -/
def evaluate (env : List (String × Data)) : Expr → Except Err Data
  | .var s => match env.lookup s with
    | some d => .ok d
    | none => .error .keyError
  | .neg e => do .ok (each (fun x => -x) (← evaluate env e))
  | .abs e => do .ok (each (fun x => |x|) (← evaluate env e))
  | .add e f => do plus (← evaluate env e) (← evaluate env f)
  | .sub e f => do minus (← evaluate env e) (← evaluate env f)
  | .mul e f => do times (← evaluate env e) (← evaluate env f)
  | .div e f => do over (← evaluate env e) (← evaluate env f)

/-- the kind of an argument that has a `dtype`: python numbers have none -/
def Arg.dtype? : Arg → Option Kind
  | .num _ _ => none
  | .fld f => some f.kind

/-- necalc.py:15-25 `_normalize_scalar_dtype`: a number is cast to floats if any array has floats; integers are cast to the widest integers, which without
the wrapping of integers changes nothing -/
def normalizeScalar (s : Arg) (arrs : List Arg) : Arg :=
  match s with
  | .num k x => if (arrs.filterMap Arg.dtype?).any (· = .flt) then .num .flt x else .num k x
  | .fld f => .fld f

/-- `args[0].wrap(result)`: numbers have no such method (necalc.py:58-59); one value becomes a number (field.py:1826-1830) -/
def wrap (a : Arg) (r : Data) : Except Err Arg :=
  match a, r with
  | .num _ _, _ => .error .attributeError
  | .fld _, .num k x => .ok (.num k x)
  | .fld _, .arr k [x] => .ok (.num k x)
  | .fld f, .arr k l => .ok (.fld ⟨f.name, k, l⟩)

/-- necalc.py:28-59 `VneCalc`: an expression and for each of its names the number of an argument -/
structure VneCalc where
  expr : Expr
  localDict : List (String × Nat)

/-- necalc.py:43-59 `VneCalc.__call__` -/
def VneCalc.call (c : VneCalc) (args : List Arg) : Except Err Arg := do
  let env ← c.localDict.mapM fun p => match args[p.2]? with
    | some a => Except.ok (p.1, (normalizeScalar a args).data)
    | none => Except.error Err.keyError
  let r ← evaluate env c.expr
  match args[0]? with
  | some a => wrap a r
  | none => .error .keyError

/-- necalc.py:62 -/
def negNe : VneCalc := ⟨.neg (.var "a"), [("a", 0)]⟩
/-- necalc.py:63 -/
def addNe : VneCalc := ⟨.add (.var "a") (.var "b"), [("a", 0), ("b", 1)]⟩
/-- necalc.py:64 -/
def diffNe : VneCalc := ⟨.sub (.var "a") (.var "b"), [("a", 0), ("b", 1)]⟩
/-- necalc.py:65 -/
def mulNe : VneCalc := ⟨.mul (.var "a") (.var "b"), [("a", 0), ("b", 1)]⟩
/-- necalc.py:66 -/
def relativeDiffNe : VneCalc := ⟨.div (.sub (.var "a") (.var "b")) (.var "a"), [("a", 0), ("b", 1)]⟩
/-- necalc.py:67 -/
def absDiffNe : VneCalc := ⟨.abs (.sub (.var "a") (.var "b")), [("a", 0), ("b", 1)]⟩
/-- necalc.py:68 -/
def absValNe : VneCalc := ⟨.abs (.var "a"), [("a", 0)]⟩

/-- necalc.py:70-73 `scale`, the factor a number -/
def scaleNe (a : ℚ) : Arg → Except Err Arg
  | .num _ _ => .error .attributeError
  | .fld f => do wrap (.fld f) (← evaluate [("a", .num f.kind (some (asType f.kind a))), ("b", .arr f.kind f.vals)] (.mul (.var "a") (.var "b")))

/-- necalc.py:75-78 `axpby` -/
def axpbyNe (a x b y : Arg) : Except Err Arg := do
  let a := normalizeScalar a [x, y]
  let b := normalizeScalar b [x, y]
  wrap x (← evaluate [("a", a.data), ("x", x.data), ("b", b.data), ("y", y.data)] (.add (.mul (.var "a") (.var "x")) (.mul (.var "b") (.var "y"))))

/-- `np.max` of a list: nan if any is, an error for none at all -/
def npReduce (f : ℚ → ℚ → ℚ) : List (Option ℚ) → Except Err (Option ℚ)
  | [] => .error .valueError
  | x :: l => .ok (l.foldl (fun a b => lift2 (fun u v => some (f u v)) a b) x)

/-- necalc.py:80-82 and calc.py:173 `abs_max` of a field -/
def absMax (f : Fld) : Except Err (Option ℚ) := npReduce max (f.vals.map fun x => x.map fun x => |x|)

/-- necalc.py:84-86 and calc.py:174 `abs_min` of a field -/
def absMin (f : Fld) : Except Err (Option ℚ) := npReduce min (f.vals.map fun x => x.map fun x => |x|)

/-! ## names and operations -/

/-- `a.name` -/
def Arg.name? : Arg → Option String
  | .num _ _ => none
  | .fld f => some f.name

/-- `ret.name = s` -/
def setName (s : String) : Arg → Except Err Arg
  | .num _ _ => .error .attributeError
  | .fld f => .ok (.fld { f with name := s })

/-- calc.py:97-101 `UnaryOperation.__call__` -/
def unary (short : String) (imp : Arg → Except Err Arg) (a : Arg) : Except Err Arg := do
  let ret ← imp a
  match a.name? with
  | none => .error .attributeError
  | some n => setName (short ++ " " ++ n) ret

/-- calc.py:103-116 `BinaryOperation.__call__` -/
def binary (short : String) (imp : Arg → Arg → Except Err Arg) (a b : Arg) : Except Err Arg := do
  let ret ← imp a b
  match a.name?, b.name? with
  | some m, some n => setName (m ++ " " ++ short ++ " " ++ n) ret
  | _, some n => setName (short ++ " " ++ n) ret
  | some m, none => setName (short ++ " " ++ m) ret
  | none, none => setName short ret

inductive Backend
  | numexpr
  | numpy
deriving DecidableEq, Repr

/-- calc.py:118, 143, 164 -/
def neg : Backend → Arg → Except Err Arg
  | .numexpr => unary "-" fun a => negNe.call [a]
  | .numpy => unary "-" negNp
/-- calc.py:119, 144, 165 -/
def scale : Backend → Kind → ℚ → Arg → Except Err Arg
  | .numexpr, k, a, b => binary "*=" (fun _ b => scaleNe a b) (.num k (some a)) b
  | .numpy, k, a, b => binary "*=" (fun _ b => scaleNp a b) (.num k (some a)) b
/-- calc.py:120, 145, 166 -/
def add : Backend → Arg → Arg → Except Err Arg
  | .numexpr => binary "+" fun a b => addNe.call [a, b]
  | .numpy => binary "+" addNp
/-- calc.py:121, 146, 167 -/
def diff : Backend → Arg → Arg → Except Err Arg
  | .numexpr => binary "-" fun a b => diffNe.call [a, b]
  | .numpy => binary "-" diffNp
/-- calc.py:122, 147, 168 -/
def mul : Backend → Arg → Arg → Except Err Arg
  | .numexpr => binary "*" fun a b => mulNe.call [a, b]
  | .numpy => binary "*" mulNp
/-- calc.py:123, 148, 169 -/
def axpby : Backend → Arg → Arg → Arg → Arg → Except Err Arg
  | .numexpr => axpbyNe
  | .numpy => axpbyNp
/-- calc.py:124-125, 149, 170 -/
def relativeDiff : Backend → Arg → Arg → Except Err Arg
  | .numexpr => binary "%-" fun a b => relativeDiffNe.call [a, b]
  | .numpy => binary "%-" relativeDiffNp
/-- calc.py:126, 150, 171 -/
def absDiff : Backend → Arg → Arg → Except Err Arg
  | .numexpr => binary "|-|" fun a b => absDiffNe.call [a, b]
  | .numpy => binary "|-|" absDiffNp
/-- calc.py:127, 151, 172 -/
def absVal : Backend → Arg → Except Err Arg
  | .numexpr => unary "absval" fun a => absValNe.call [a]
  | .numpy => unary "absval" absValNp

end Viscid.Elementwise
