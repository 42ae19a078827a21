/-!
# Programs over references to elements

What a user expects of `v[i]`: that it behaves like a reference to a variable of the entry type. The
memory maps (object, index) to the value of the element, `none` if the object has no such element;
`none` as a result is undefined behaviour. Next to the elements there are plain variables.
-/

namespace Vc.Spec

/-- The element `index` of object `obj`. -/
structure Elem where
  obj : Nat
  index : Int
deriving DecidableEq

/-- An operand: a constant, a variable or an element. -/
inductive Operand (V : Type) where
  | const (v : V)
  | var (k : Nat)
  | elem (r : Elem)

/-- The statements. `f` is what an operator computes, `none` if it is undefined for its operands. -/
inductive Stmt (V : Type) where
  /-- `x = v[i];` -/
  | read (x : Nat) (r : Elem)
  /-- `v[i] = e;` -/
  | assign (r : Elem) (e : Operand V)
  /-- `v[i] op= e;` -/
  | opAssign (f : V → V → Option V) (r : Elem) (e : Operand V)
  /-- `++v[i];` or `--v[i];` -/
  | pre (f : V → Option V) (r : Elem)
  /-- `x = v[i]++;` or `x = v[i]--;` -/
  | post (f : V → Option V) (x : Nat) (r : Elem)
  /-- `swap(v[i], w[j]);` -/
  | swap (a b : Elem)
  /-- `swap(x, v[i]);` -/
  | swapVar (x : Nat) (r : Elem)
  /-- `swap(v[i], x);` -/
  | swapElem (r : Elem) (x : Nat)

/-- Elements and variables. -/
structure Store (V : Type) where
  elem : Nat → Int → Option V
  var : Nat → V

namespace Store

variable {V : Type} (s : Store V)

/-- The value of an element. -/
def get (r : Elem) : Option V := s.elem r.obj r.index

/-- Element `r` gets the value `v`, everything else is kept. -/
def put (r : Elem) (v : V) : Store V :=
  { s with elem := fun o i => if o = r.obj ∧ i = r.index then some v else s.elem o i }

/-- Variable `x` gets the value `v`. -/
def putVar (x : Nat) (v : V) : Store V := { s with var := fun y => if y = x then v else s.var y }

/-- The value of an operand. -/
def operand : Operand V → Option V
  | .const v => some v
  | .var k => some (s.var k)
  | .elem r => s.get r

/-- The meaning of a statement. -/
def step : Stmt V → Option (Store V)
  | .read x r => (s.get r).map fun v => s.putVar x v
  | .assign r e =>
    match s.get r, s.operand e with
    | some _, some v => some (s.put r v)
    | _, _ => none
  | .opAssign f r e =>
    match s.get r, s.operand e with
    | some u, some v => (f u v).map fun t => s.put r t
    | _, _ => none
  | .pre f r =>
    match s.get r with
    | some u => (f u).map fun t => s.put r t
    | none => none
  | .post f x r =>
    match s.get r with
    | some u => (f u).map fun t => (s.put r t).putVar x u
    | none => none
  | .swap a b =>
    match s.get a, s.get b with
    | some u, some v => some ((s.put a v).put b u)
    | _, _ => none
  | .swapVar x r | .swapElem r x =>
    match s.get r with
    | some u => some ((s.put r (s.var x)).putVar x u)
    | none => none

/-- A program: statements one after the other. -/
def run : List (Stmt V) → Store V → Option (Store V)
  | [], s => some s
  | c :: l, s => (s.step c).bind (run l)

end Store

end Vc.Spec
