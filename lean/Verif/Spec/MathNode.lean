import Verif.Model.MathNode

/-!
# What is said about math expressions (C21)

The list of functions and the names they have in the libraries are written down here a second time, from the
documentation of the class and of the libraries.
-/

namespace LCL.MathSpec
open LCL

/-- `n` occurs in the tree, at any depth. -/
inductive Within : Ast → Ast → Prop
  | self (t : Ast) : Within t t
  | child {n c : Ast} {k : Kind} {cs : List Ast} : c ∈ cs → Within n c → Within n (.node k cs)

/-- The mathematical functions and constants. -/
def listed : List String :=
  ["sin", "cos", "tan", "asin", "acos", "atan", "atan2", "sinh", "cosh", "tanh", "asinh", "acosh",
   "exp", "log", "log10", "log2", "sqrt", "pow", "power", "abs", "fabs", "ceil", "floor", "trunc", "max", "min",
   "degrees", "radians", "deg2rad", "rad2deg", "e", "pi"]

def Listed (id : Name) : Prop := ∃ f ∈ listed, f.toList = id

/-- One node of an arithmetic expression: literals, operators and their contexts; names of inputs and of listed functions; calls of
listed functions by their name. -/
def NodeOk (inputs : List Name) (n : Ast) : Prop :=
  match n.kind with
  | .other _ => False
  | .name id => id ∈ inputs ∨ Listed id
  | .call => ∃ id ctx rest, n.children = .node (.name id) ctx :: rest ∧ Listed id
  | _ => True

/-- The whole expression is arithmetic. -/
def Confined (inputs : List Name) (t : Ast) : Prop := ∀ n, Within n t → NodeOk inputs n

/-- The name of the module of the backend. -/
def moduleOf : Backend → Name
  | .math => "math".toList
  | .numpy => "np".toList
  | .jax => "jnp".toList

/-- `abs`, `max` and `min` are builtins of Python, not functions of `math`. -/
def isBuiltin (b : Backend) (f : String) : Bool := decide (b = .math) && (["abs", "max", "min"].contains f)

/-- The name of the function in the module. -/
def memberOf (b : Backend) (f : String) : Name :=
  match b with
  | .math => if f = "deg2rad" then "radians".toList else if f = "rad2deg" then "degrees".toList else if f = "power" then "pow".toList else f.toList
  | _ => if f = "pow" then "power".toList else f.toList

variable {V : Type}

/-- The library of the backend offers the object `v` for the function. -/
def Offers (W : World V) (b : Backend) (f : String) (v : V) : Prop :=
  if isBuiltin b f then W.global f.toList = some v
  else ∃ m, W.global (moduleOf b) = some m ∧ W.attr m (memberOf b f) = .ok v

/-- The function is named in the expression. -/
def Uses (t : Ast) (id : Name) : Prop := ∃ ctx, Within (.node (.name id) ctx) t

/-- Python identifiers have no dots. -/
def Identifiers (t : Ast) : Prop := ∀ id, Uses t id → '.' ∉ id

/-- A formula, as one writes it. -/
inductive Formula
  | number (text : Name)
  | input (id : Name)
  | constant (f : String)
  | binary (o : MathOp) (x y : Formula)
  | unary (o : MathOp) (x : Formula)
  | fn1 (f : String) (x : Formula)
  | fn2 (f : String) (x y : Formula)

def nameNode (id : Name) : Ast := .node (.name id) [.node .load []]

/-- What Python's parser makes of a formula. -/
def Formula.parse : Formula → Ast
  | .number c => .node (.constant c) []
  | .input id => nameNode id
  | .constant f => nameNode f.toList
  | .binary o x y => .node .binOp [x.parse, .node (.op o) [], y.parse]
  | .unary o x => .node .unaryOp [.node (.op o) [], x.parse]
  | .fn1 f x => .node .call [nameNode f.toList, x.parse]
  | .fn2 f x y => .node .call [nameNode f.toList, x.parse, y.parse]

/-- The value of a formula: `input` gives the values of the inputs, `std` the functions and constants. -/
inductive Formula.Means (W : World V) (input : Name → Option V) (std : Name → Option V) : Formula → V → Prop
  | number {c v} : W.const c = .ok v → Means W input std (.number c) v
  | input {id v} : input id = some v → Means W input std (.input id) v
  | constant {f v} : input f.toList = none → std f.toList = some v → Means W input std (.constant f) v
  | binary {o x y a b v} : Means W input std x a → Means W input std y b → W.bin o a b = .ok v → Means W input std (.binary o x y) v
  | unary {o x a v} : Means W input std x a → W.un o a = .ok v → Means W input std (.unary o x) v
  | fn1 {f x a g v} : input f.toList = none → std f.toList = some g → Means W input std x a → W.call g [a] = .ok v → Means W input std (.fn1 f x) v
  | fn2 {f x y a b g v} : input f.toList = none → std f.toList = some g → Means W input std x a → Means W input std y b → W.call g [a, b] = .ok v →
      Means W input std (.fn2 f x y) v

end LCL.MathSpec
