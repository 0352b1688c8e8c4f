import Verif.Model.DepGraph

/-!
# Model of `DependencyGraph` as an object a program fills itself (graph_state.py:628-722)
-/

namespace LCL
variable {α : Type}

/-- A call on the graph. -/
inductive DepOp (α : Type)
  | param (name : Name) (node : Option Name)
  | const (value : Val α)
  | edge (src dst : Name)

namespace DepGraph

/-- graph_state.py:666-689 `add_parameter`, without and with a node name. -/
def addParam (g : DepGraph) (name : Name) : Option Name → DepGraph
  | none => g.addFull name
  | some node => g.addParameter name node

/-- One call; the exception it raises. -/
def call (txt : Val α → Name) (g : DepGraph) : DepOp α → DepGraph × Option Err
  | .param p n => (g.addParam p n, none)
  | .const v => ((g.addConstant txt v).1, none)
  | .edge a b => match g.addEdge a b with
    | .ok g' => (g', none)
    | .error e => (g, some e)

/-- A program that makes these calls one after the other and goes on after an exception. -/
def calls (txt : Val α → Name) (ops : List (DepOp α)) : DepGraph := ops.foldl (fun g op => (g.call txt op).1) empty

/-- graph_state.py:660-661 `__len__`. -/
def len (g : DepGraph) : Nat := g.params.length

/-- graph_state.py:663-664 `__contains__`. -/
def contains (g : DepGraph) (full : Name) : Bool := decide (full ∈ g.params)

end DepGraph
end LCL
