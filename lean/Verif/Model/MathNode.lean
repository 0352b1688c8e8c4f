import Verif.Base.Py

/-!
# Model of `BasicMathNode` (`src/lightcurvelynx/math_nodes/basic_math_node.py`, lines 19-228)

Python syntax trees are kept as they are: a kind and a list of children. All classes of nodes that the code does not
mention are of the kind `other`, with the name of the class. Python objects are of any type; what evaluation does
with them is given by a `World`.
-/

namespace LCL

/-- The operators of the list of supported nodes. -/
inductive MathOp
  | add | sub | mult | div | floorDiv | mod | pow | uadd | usub | invert
deriving DecidableEq

/-- The class of a node of a syntax tree, with its identifier or constant. -/
inductive Kind
  | module | expression | expr
  | constant (text : Name)
  | load | store
  | op (o : MathOp)
  | binOp | unaryOp
  | call
  | name (id : Name)
  | other (cls : Name)
deriving DecidableEq

/-- A syntax tree. The children are in the order of `ast.iter_child_nodes`: the function of a `Call` is its first child,
then its arguments and keywords; a `BinOp` has left, operator, right; an `UnaryOp` has operator, operand. -/
inductive Ast
  | node (kind : Kind) (children : List Ast)

namespace Ast

def kind : Ast → Kind
  | node k _ => k

def children : Ast → List Ast
  | node _ cs => cs

mutual
/-- The number of nodes. -/
def size : Ast → Nat
  | node _ cs => 1 + sizeList cs
def sizeList : List Ast → Nat
  | [] => 0
  | a :: l => size a + sizeList l
end

theorem sizeList_append (l m : List Ast) : sizeList (l ++ m) = sizeList l + sizeList m := by
  induction l with
  | nil => simp [sizeList]
  | cons a l ih => simp only [List.cons_append, sizeList, ih]; omega

/-- `ast.walk`: breadth first, with the queue of nodes to visit. -/
def walk : List Ast → List Ast
  | [] => []
  | node k cs :: q => node k cs :: walk (q ++ cs)
termination_by q => sizeList q
decreasing_by
  rw [sizeList_append]
  simp only [sizeList, size]
  omega

end Ast

/-- The backends (basic_math_node.py:117). -/
inductive Backend
  | math | numpy | jax
deriving DecidableEq

/-- basic_math_node.py:81-114 `_math_map`: the names in math, numpy and jax. -/
def mathMap : List (String × String × String × String) :=
  [("abs", "abs", "np.abs", "jnp.abs"),
   ("acos", "math.acos", "np.acos", "jnp.acos"),
   ("acosh", "math.acosh", "np.acosh", "jnp.acosh"),
   ("asin", "math.asin", "np.asin", "jnp.asin"),
   ("asinh", "math.asinh", "np.asinh", "jnp.asinh"),
   ("atan", "math.atan", "np.atan", "jnp.atan"),
   ("atan2", "math.atan2", "np.atan2", "jnp.atan2"),
   ("cos", "math.cos", "np.cos", "jnp.cos"),
   ("cosh", "math.cosh", "np.cosh", "jnp.cosh"),
   ("ceil", "math.ceil", "np.ceil", "jnp.ceil"),
   ("degrees", "math.degrees", "np.degrees", "jnp.degrees"),
   ("deg2rad", "math.radians", "np.deg2rad", "jnp.deg2rad"),
   ("e", "math.e", "np.e", "jnp.e"),
   ("exp", "math.exp", "np.exp", "jnp.exp"),
   ("fabs", "math.fabs", "np.fabs", "jnp.fabs"),
   ("floor", "math.floor", "np.floor", "jnp.floor"),
   ("log", "math.log", "np.log", "jnp.log"),
   ("log10", "math.log10", "np.log10", "jnp.log10"),
   ("log2", "math.log2", "np.log2", "jnp.log2"),
   ("max", "max", "np.max", "jnp.max"),
   ("min", "min", "np.min", "jnp.min"),
   ("pi", "math.pi", "np.pi", "jnp.pi"),
   ("pow", "math.pow", "np.power", "jnp.power"),
   ("power", "math.pow", "np.power", "jnp.power"),
   ("radians", "math.radians", "np.radians", "jnp.radians"),
   ("rad2deg", "math.degrees", "np.rad2deg", "jnp.rad2deg"),
   ("sin", "math.sin", "np.sin", "jnp.sin"),
   ("sinh", "math.sinh", "np.sinh", "jnp.sinh"),
   ("sqrt", "math.sqrt", "np.sqrt", "jnp.sqrt"),
   ("tan", "math.tan", "np.tan", "jnp.tan"),
   ("tanh", "math.tanh", "np.tanh", "jnp.tanh"),
   ("trunc", "math.trunc", "np.trunc", "jnp.trunc")]

/-- The entry of the map for a name. -/
def mathEntry (id : Name) : Option (String × String × String × String) := mathMap.find? fun e => decide (e.1.toList = id)

/-- basic_math_node.py:212-217: the column of the backend. -/
def mathColumn (b : Backend) (e : String × String × String × String) : Name :=
  match b with
  | .math => e.2.1.toList
  | .numpy => e.2.2.1.toList
  | .jax => e.2.2.2.toList

/-- basic_math_node.py:57-76 `_supported_ast_nodes`. -/
def supportedKind : Kind → Bool
  | .module | .expression | .expr | .constant _ | .load | .store | .op _ | .binOp | .unaryOp => true
  | .call | .name _ | .other _ => false

/-- basic_math_node.py:204-205: `node.func.id` is an error for any function that is not a plain name. -/
def checkCall : List Ast → Except Err Unit
  | .node (.name id) _ :: _ => if (mathEntry id).isSome then .ok () else .error .valueError
  | _ => .error .attributeError

/-- basic_math_node.py:199-225: the test of one node. -/
def checkNode (inputs : List Name) (n : Ast) : Except Err Unit :=
  if supportedKind n.kind then .ok ()
  else match n.kind with
    | .call => checkCall n.children
    | .name id => if id ∈ inputs then .ok () else if (mathEntry id).isSome then .ok () else .error .valueError
    | _ => .error .valueError

/-- basic_math_node.py:198-225: the loop over the nodes. -/
def checkAll (inputs : List Name) : List Ast → Except Err Unit
  | [] => .ok ()
  | n :: l => match checkNode inputs n with
    | .error e => .error e
    | .ok _ => checkAll inputs l

/-- basic_math_node.py:206-217: the new identifier of a name. -/
def newId (b : Backend) (inputs : List Name) (id : Name) : Name :=
  if id ∈ inputs then id
  else match mathEntry id with
    | some e => mathColumn b e
    | none => id

def newKind (b : Backend) (inputs : List Name) : Kind → Kind
  | .name id => .name (newId b inputs id)
  | k => k

mutual
/-- basic_math_node.py:206-217: the tree with its names overwritten. The code overwrites while it walks; a call is tested before
its function, which is below it, is overwritten, so the tests all see the names as they were. -/
def rewrite (b : Backend) (inputs : List Name) : Ast → Ast
  | .node k cs => .node (newKind b inputs k) (rewriteList b inputs cs)
def rewriteList (b : Backend) (inputs : List Name) : List Ast → List Ast
  | [] => []
  | a :: l => rewrite b inputs a :: rewriteList b inputs l
end

/-- basic_math_node.py:179-228 `_prepare`, from the syntax tree `ast.parse` makes of the expression, `None` when it makes none. The
result is the tree that `ast.unparse` writes out. -/
def mathPrepare (b : Backend) (inputs : List Name) (tree : Option Ast) : Except Err Ast :=
  match tree with
  | none => .error .syntaxError
  | some t => match checkAll inputs (Ast.walk [t]) with
    | .error e => .error e
    | .ok _ => .ok (rewrite b inputs t)

/-- basic_math_node.py:117: the backend from its name. -/
def parseBackend (s : Name) : Except Err Backend :=
  if s = "jax".toList then .ok .jax
  else if s = "math".toList then .ok .math
  else if s = "numpy".toList then .ok .numpy
  else .error .valueError

/-- basic_math_node.py:116-123: the constructor. -/
def mathInit (backend : Name) (inputs : List Name) (tree : Option Ast) : Except Err (Backend × Ast) :=
  match parseBackend backend with
  | .error e => .error e
  | .ok b => match mathPrepare b inputs tree with
    | .error e => .error e
    | .ok t => .ok (b, t)

/-- Python objects `V` and what evaluation does with them: literals, arithmetic, calls, attributes, the names of the module
and the builtins (`globals()`), the conversions of `prepare_params`, and, for all other kinds of expressions, anything
at all. -/
structure World (V : Type) where
  const : Name → Except Err V
  bin : MathOp → V → V → Except Err V
  un : MathOp → V → Except Err V
  call : V → List V → Except Err V
  attr : V → Name → Except Err V
  global : Name → Option V
  convert : Backend → V → V
  other : Name → List Ast → Dict Name V → Except Err V

variable {V : Type}

/-- The identifier up to its first dot and the attributes after it: `ast.unparse` writes the overwritten identifier `np.sin` as it
is, and Python reads it back as an attribute. -/
def firstDot : Name → Name × Option Name
  | [] => ([], none)
  | c :: l => if c = '.' then ([], some l) else (c :: (firstDot l).1, (firstDot l).2)

/-- The value of a plain name: local variables, then globals and builtins. -/
def lookupName (W : World V) (env : Dict Name V) (id : Name) : Except Err V :=
  match env.get? id with
  | some v => .ok v
  | none => match W.global id with
    | some v => .ok v
    | none => .error .nameError

/-- The value of a name as written. -/
def evalName (W : World V) (env : Dict Name V) (id : Name) : Except Err V :=
  match (firstDot id).2 with
  | none => lookupName W env id
  | some a => match lookupName W env (firstDot id).1 with
    | .error e => .error e
    | .ok v => W.attr v a

/-- Evaluation of a binary operation from its evaluated operands. -/
def applyBin (W : World V) (o : MathOp) : Except Err V → Except Err V → Except Err V
  | .ok x, .ok y => W.bin o x y
  | .error e, _ => .error e
  | _, .error e => .error e

def applyUn (W : World V) (o : MathOp) : Except Err V → Except Err V
  | .ok x => W.un o x
  | .error e => .error e

def applyCall (W : World V) : Except Err V → Except Err (List V) → Except Err V
  | .ok f, .ok args => W.call f args
  | .error e, _ => .error e
  | _, .error e => .error e

/-- One more argument. -/
def consArg : Except Err V → Except Err (List V) → Except Err (List V)
  | .ok v, .ok l => .ok (v :: l)
  | .error e, _ => .error e
  | _, .error e => .error e

/-- The arguments of a call. -/
def argList : List (Except Err V) → Except Err (List V)
  | [] => .ok []
  | r :: rs => consArg r (argList rs)

/-- The operator of a `BinOp`, its second child. -/
def middleOp : List Ast → Option MathOp
  | [_, .node (.op o) _, _] => some o
  | _ => none

/-- The operator of an `UnaryOp`, its first child. -/
def firstOp : List Ast → Option MathOp
  | [.node (.op o) _, _] => some o
  | _ => none

/-- Evaluation of a node from its kind, its children and the results of evaluating its children. (The operators are not evaluated:
their results are not used. The parser makes no node of these kinds with other children than the ones given here.) -/
def combine (W : World V) (env : Dict Name V) (k : Kind) (cs : List Ast) (rs : List (Except Err V)) : Except Err V :=
  match k with
  | .constant c => W.const c
  | .name id => evalName W env id
  | .binOp => match middleOp cs, rs with
    | some o, [l, _, r] => applyBin W o l r
    | _, _ => .error .syntaxError
  | .unaryOp => match firstOp cs, rs with
    | some o, [_, x] => applyUn W o x
    | _, _ => .error .syntaxError
  | .call => match rs with
    | f :: args => applyCall W f (argList args)
    | [] => .error .syntaxError
  | .other cls => W.other cls cs env
  | _ => .error .syntaxError

mutual
/-- `eval` of an expression in which the names with a dot are attributes of the name before the dot. -/
def evalExpr (W : World V) (env : Dict Name V) : Ast → Except Err V
  | .node k cs => combine W env k cs (evalAll W env cs)
def evalAll (W : World V) (env : Dict Name V) : List Ast → List (Except Err V)
  | [] => []
  | a :: l => evalExpr W env a :: evalAll W env l
end

/-- `eval` of the text of a module: it has to be one expression. -/
def evalModule (W : World V) (env : Dict Name V) : Ast → Except Err V
  | .node .module [.node .expr [e]] => evalExpr W env e
  | _ => .error .syntaxError

/-- basic_math_node.py:155-177 `prepare_params`. -/
def mathParams (W : World V) (b : Backend) (args : Dict Name V) : Dict Name V := args.map fun p => (p.1, W.convert b p.2)

/-- basic_math_node.py:127-142 `eval_func` and `eval` of the node made by the constructor (the error keeps its type). -/
def mathEval (W : World V) (node : Backend × Ast) (args : Dict Name V) : Except Err V :=
  evalModule W (mathParams W node.1 args) node.2

end LCL
