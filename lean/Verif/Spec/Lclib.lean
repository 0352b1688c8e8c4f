import Verif.Model.Lclib

/-!
# Specification of LCLIB files

Only the types of tables and of metadata and the classification of white space are taken from the model.
-/

namespace LCL.LcSpec
open LCL

/-- White space only. -/
def Blank (l : List Char) : Prop := ∀ c ∈ l, isSpace c = true

/-- No white space at either end. -/
def Trimmed (l : List Char) : Prop := (∀ c, l.head? = some c → isSpace c = false) ∧ (∀ c, l.getLast? = some c → isSpace c = false)

/-- A trailing comment, or nothing. -/
def Tail (l : List Char) : Prop := l = [] ∨ l.head? = some '#'

/-- The line says `key: value`, with any white space around key and value and perhaps a trailing comment. -/
def Says (line key value : List Char) : Prop :=
  ∃ pre mid post tail, line = pre ++ key ++ ':' :: (mid ++ value ++ post) ++ tail ∧ Blank pre ∧ Blank mid ∧ Blank post ∧ Tail tail ∧
    (∀ c, key.head? = some c → isSpace c = false) ∧ ':' ∉ key ∧ '#' ∉ key ∧ '#' ∉ value ∧ Trimmed value

/-- The line says nothing: there is no colon outside the trailing comment. -/
def Silent (line : List Char) : Prop := ∃ body tail, line = body ++ tail ∧ Tail tail ∧ '#' ∉ body ∧ ':' ∉ body

/-- The statements (keys and values) in the lines of a file. Lines that say nothing and comments are skipped; of a
documentation block only its end is a statement. -/
inductive Reads : List (List Char) → List (Name × Name) → Prop
  | nil : Reads [] []
  | silent {line lines stmts} : Silent line → Reads lines stmts → Reads (line :: lines) stmts
  | comment {line lines stmts v} : Says line "COMMENT".toList v → Reads lines stmts → Reads (line :: lines) stmts
  | stmt {line lines stmts k v} : Says line k v → k ≠ "COMMENT".toList → k ≠ "DOCUMENTATION".toList →
      Reads lines stmts → Reads (line :: lines) ((k, v) :: stmts)
  | doc {first block last lines stmts v v'} : Says first "DOCUMENTATION".toList v →
      (∀ l ∈ block, Silent l ∨ ∃ k u, Says l k u ∧ k ≠ "DOCUMENTATION_END".toList) → Says last "DOCUMENTATION_END".toList v' →
      Reads lines stmts → Reads (first :: block ++ last :: lines) (("DOCUMENTATION_END".toList, v') :: stmts)

/-- The text consists of these words, separated by white space. -/
inductive Words : List Char → List (List Char) → Prop
  | nil : Words [] []
  | one {w : List Char} : w ≠ [] → (∀ c ∈ w, isSpace c = false) → Words w [w]
  | cons {w sp rest : List Char} {ws : List (List Char)} : w ≠ [] → (∀ c ∈ w, isSpace c = false) → sp ≠ [] → Blank sp →
      Words rest ws → Words (w ++ sp ++ rest) (w :: ws)

/-- The text consists of these pieces, separated by commas. -/
def Commas (value : List Char) (ps : List (List Char)) : Prop := value = [','].intercalate ps ∧ ps ≠ [] ∧ ∀ p ∈ ps, ',' ∉ p

/-- The keys with a meaning of their own. -/
def reserved : List Name := ["COMMENT".toList, "FILTERS".toList, "END_EVENT".toList, "START_EVENT".toList, "S".toList, "T".toList,
  "MODEL_PARNAMES".toList, "MODEL_PARAMETERS".toList, "PARVAL".toList, "id".toList]

/-- What the header of a file can say. -/
inductive HItem
  | filters (f : List Char)
  | parnames (names : List Name)
  | info (key value : Name)

/-- How it says it. -/
def HItem.saidBy : HItem → Name × Name → Prop
  | .filters f, (k, v) => k = "FILTERS".toList ∧ v = f
  | .parnames ns, (k, v) => (k = "MODEL_PARNAMES".toList ∨ k = "MODEL_PARAMETERS".toList) ∧ Commas v ns
  | .info key value, (k, v) => k = key ∧ v = value ∧ key ∉ reserved

/-- What can be said about an event: a row of numbers, the values of the model parameters, or another piece of
information. -/
inductive Item (F : Type)
  | row (typ : Name) (vals : List F)
  | params (vals : List Name)
  | info (key value : Name)

/-- How it is said, if there are `n` columns and `m` model parameters and `parse` reads numbers. -/
def Item.saidBy {F : Type} (parse : Name → Option F) (n m : Nat) : Item F → Name × Name → Prop
  | .row typ vals, (k, v) => k = typ ∧ (typ = "S".toList ∨ typ = "T".toList) ∧ vals.length = n ∧ ∃ ws, Words v ws ∧ ws.map parse = vals.map some
  | .params vals, (k, v) => k = "PARVAL".toList ∧ vals.length = m ∧ ((Commas v vals ∧ 2 ≤ vals.length) ∨ (',' ∉ v ∧ Words v vals))
  | .info key value, (k, v) => k = key ∧ v = value ∧ key ∉ reserved

/-- An event: information given before it starts, its name, and what is said before it ends. -/
structure Event (F : Type) where
  before : List (Name × Name)
  id : Name
  items : List (Item F)

/-- A file. -/
structure File (F : Type) where
  header : List HItem
  events : List (Event F)
  after : List (Name × Name)

/-- `rel` holds for the entries of the two lists one by one. -/
def Each {α β : Type} (rel : α → β → Prop) (l : List α) (m : List β) : Prop :=
  l.length = m.length ∧ ∀ (i : Nat) a b, l[i]? = some a → m[i]? = some b → rel a b

/-- The filters in force after the header: those given last. -/
def filtersOf (h : List HItem) : Option (List Char) := (h.filterMap fun | .filters f => some f | _ => none).getLast?

/-- The names of the model parameters in force after the header: those given last. -/
def parnamesOf (h : List HItem) : List Name := ((h.filterMap fun | .parnames f => some f | _ => none).getLast?).getD []

/-- Plain information: keys without a meaning of their own. -/
def Plain (l : List (Name × Name)) : Prop := ∀ q ∈ l, q.1 ∉ reserved

/-- How the events are said one after another. -/
inductive SaysEvents {F : Type} (parse : Name → Option F) (n m : Nat) : List (Event F) → List (Name × Name) → Prop
  | nil : SaysEvents parse n m [] []
  | cons {e : Event F} {es items stmts} : Plain e.before → Each (Item.saidBy parse n m) e.items items → SaysEvents parse n m es stmts →
      SaysEvents parse n m (e :: es)
        (e.before ++ ("START_EVENT".toList, e.id) :: (items ++ ("END_EVENT".toList, e.id) :: stmts))

/-- The statements are those of the file. The header names the filters, all different, and the model parameters, all
different; the events follow. -/
def SaysFile {F : Type} (parse : Name → Option F) (f : File F) (filters : List Char) (stmts : List (Name × Name)) : Prop :=
  ∃ hs es, stmts = hs ++ es ++ f.after ∧ Each HItem.saidBy f.header hs ∧ filtersOf f.header = some filters ∧ filters.Nodup ∧
    (parnamesOf f.header).Nodup ∧ SaysEvents parse (filters.length + 1) (parnamesOf f.header).length f.events es ∧ Plain f.after

/-- The columns of numbers: the time, and one for each filter. -/
def columnNames (filters : List Char) : List Name := "time".toList :: filters.map fun c => [c]

/-- The rows of an event. -/
def rowsOf {F : Type} (e : Event F) : List (Name × List F) := e.items.filterMap fun | .row t v => some (t, v) | _ => none

/-- What one item adds to the metadata, if the model parameters have these names. -/
def Item.gives {F : Type} (names : List Name) : Item F → List (Name × LcMeta)
  | .row _ _ => []
  | .params vals => [("PARVAL".toList, .params (names.zip vals))]
  | .info k v => [(k, .str v)]

/-- The metadata given by an event, in order. -/
def Event.gives {F : Type} (names : List Name) (e : Event F) : List (Name × LcMeta) :=
  e.before.map (fun q => (q.1, LcMeta.str q.2)) ++ ("id".toList, .str e.id) :: e.items.flatMap (Item.gives names)

/-- The metadata given by the header. -/
def headerGives (h : List HItem) : List (Name × LcMeta) := h.filterMap fun | .info k v => some (k, .str v) | _ => none

/-- The value given last. -/
def lastValue (k : Name) (l : List (Name × LcMeta)) : Option LcMeta := ((l.filter fun q => decide (q.1 = k)).getLast?).map (·.2)

/-- The table holds exactly the rows of the event: their types, and each column of numbers under its name. -/
def Holds {F : Type} (filters : List Char) (e : Event F) (t : LcTable F) : Prop :=
  t.types = some ((rowsOf e).map (·.1)) ∧ (∀ name, name ∈ t.cols.keys ↔ name ∈ columnNames filters) ∧
  ∀ (j : Nat) name, (columnNames filters)[j]? = some name →
    ∃ col, t.cols.get? name = some col ∧ col.length = (rowsOf e).length ∧
      ∀ (i : Nat) r, (rowsOf e)[i]? = some r → col[i]? = r.2[j]?

end LCL.LcSpec
