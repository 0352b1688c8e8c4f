import Verif.Spec.MathNode
import Mathlib.Data.Rat.Defs
import Mathlib.Algebra.Order.Ring.Rat
import Mathlib.Tactic.Common

/-!
# Property C21: math expressions
-/

namespace LCL.MathProps
open LCL LCL.MathSpec

variable {V : Type}

mutual
theorem ast_ind {P : Ast → Prop} (h : ∀ k cs, (∀ c ∈ cs, P c) → P (.node k cs)) : ∀ t, P t
  | .node k cs => h k cs (ast_ind_list h cs)
theorem ast_ind_list {P : Ast → Prop} (h : ∀ k cs, (∀ c ∈ cs, P c) → P (.node k cs)) : ∀ (l : List Ast), ∀ c ∈ l, P c
  | [], _, hc => by cases hc
  | a :: l, c, hc => by
    rcases List.mem_cons.1 hc with e | e
    · rw [e]; exact ast_ind h a
    · exact ast_ind_list h l c e
end

theorem mem_walk_aux (m : Nat) : ∀ q : List Ast, Ast.sizeList q ≤ m → ∀ n, n ∈ Ast.walk q ↔ ∃ t ∈ q, Within n t := by
  induction m with
  | zero =>
    intro q hq n
    cases q with
    | nil => simp [Ast.walk]
    | cons a q => cases a; simp only [Ast.sizeList, Ast.size] at hq; omega
  | succ m ih =>
    intro q hq n
    cases q with
    | nil => simp [Ast.walk]
    | cons a q =>
      cases a with
      | node k cs =>
        rw [Ast.walk, List.mem_cons, ih (q ++ cs) (by rw [Ast.sizeList_append]; simp only [Ast.sizeList, Ast.size] at hq; omega) n]
        constructor
        · rintro (e | ⟨t, ht, hw⟩)
          · exact ⟨_, List.mem_cons_self, e ▸ Within.self _⟩
          · rcases List.mem_append.1 ht with h | h
            · exact ⟨t, List.mem_cons_of_mem _ h, hw⟩
            · exact ⟨_, List.mem_cons_self, Within.child h hw⟩
        · rintro ⟨t, ht, hw⟩
          rcases List.mem_cons.1 ht with e | e
          · subst e
            cases hw with
            | self => exact Or.inl rfl
            | child hc hw => exact Or.inr ⟨_, List.mem_append_right _ hc, hw⟩
          · exact Or.inr ⟨t, List.mem_append_left _ e, hw⟩

theorem mem_walk (t n : Ast) : n ∈ Ast.walk [t] ↔ Within n t := by
  rw [mem_walk_aux _ [t] (le_refl _)]
  simp

theorem checkAll_ok (inputs : List Name) (l : List Ast) : checkAll inputs l = .ok () ↔ ∀ n ∈ l, checkNode inputs n = .ok () := by
  induction l with
  | nil => simp [checkAll]
  | cons n l ih =>
    unfold checkAll
    cases h : checkNode inputs n with
    | error e => simp [h]
    | ok u => simp [ih, h]

theorem entry_listed (id : Name) : (mathEntry id).isSome = true ↔ Listed id := by
  unfold mathEntry Listed
  rw [List.find?_isSome]
  constructor
  · rintro ⟨e, he, h⟩
    refine ⟨e.1, ?_, by simpa using h⟩
    have : ∀ e ∈ mathMap, e.1 ∈ listed := by decide
    exact this e he
  · rintro ⟨f, hf, h⟩
    have : ∀ f ∈ listed, ∃ e ∈ mathMap, e.1 = f := by decide
    obtain ⟨e, he, h1⟩ := this f hf
    exact ⟨e, he, by rw [h1]; simpa using h⟩

theorem checkNode_ok (inputs : List Name) (n : Ast) : checkNode inputs n = .ok () ↔ NodeOk inputs n := by
  cases n with
  | node k cs =>
    unfold checkNode NodeOk
    cases k with
    | call =>
      show (if false = true then Except.ok () else checkCall cs) = .ok () ↔ ∃ id ctx rest, cs = .node (.name id) ctx :: rest ∧ Listed id
      rw [if_neg Bool.false_ne_true]
      unfold checkCall
      split
      · rename_i id ctx rest
        by_cases h : (mathEntry id).isSome = true
        · rw [if_pos h]
          exact ⟨fun _ => ⟨id, ctx, rest, rfl, (entry_listed id).1 h⟩, fun _ => rfl⟩
        · rw [if_neg h]
          constructor
          · intro e; cases e
          · rintro ⟨id', ctx', rest', e, hl⟩
            injection e with e1 e2
            injection e1 with e1
            injection e1 with e1
            subst e1
            exact absurd ((entry_listed id).2 hl) h
      · rename_i h
        constructor
        · intro e; cases e
        · rintro ⟨id', ctx', rest', e, hl⟩
          exact absurd e (h id' ctx' rest')
    | name id =>
      show (if false = true then (Except.ok () : Except Err Unit) else if id ∈ inputs then .ok () else if (mathEntry id).isSome = true then .ok () else .error .valueError)
        = .ok () ↔ id ∈ inputs ∨ Listed id
      rw [if_neg Bool.false_ne_true]
      by_cases h : id ∈ inputs
      · rw [if_pos h]; exact ⟨fun _ => Or.inl h, fun _ => rfl⟩
      · rw [if_neg h]
        by_cases h2 : (mathEntry id).isSome = true
        · rw [if_pos h2]; exact ⟨fun _ => Or.inr ((entry_listed id).1 h2), fun _ => rfl⟩
        · rw [if_neg h2]
          constructor
          · intro e; cases e
          · rintro (e | e)
            · exact absurd e h
            · exact absurd ((entry_listed id).2 e) h2
    | other c => simp [Ast.kind, supportedKind]
    | _ => simp [Ast.kind, supportedKind]

/-- **C21**: a math node is accepted exactly when every node of the syntax tree, at any depth, is arithmetic: a literal, a listed
operator, the name of an input or of a listed function, or a call of a listed function. -/
theorem C21_accepted_iff (b : Backend) (inputs : List Name) (t : Ast) :
    (∃ t', mathPrepare b inputs (some t) = .ok t') ↔ Confined inputs t := by
  have key : checkAll inputs (Ast.walk [t]) = .ok () ↔ Confined inputs t := by
    rw [checkAll_ok]
    constructor
    · intro h n hn; exact (checkNode_ok _ _).1 (h n ((mem_walk t n).2 hn))
    · intro h n hn; exact (checkNode_ok _ _).2 (h n ((mem_walk t n).1 hn))
  unfold mathPrepare
  dsimp only
  rw [← key]
  cases h : checkAll inputs (Ast.walk [t]) with
  | error e => simp
  | ok u => simp

theorem checkNode_err {inputs : List Name} {n : Ast} {e : Err} (h : checkNode inputs n = .error e) : e = .valueError ∨ e = .attributeError := by
  unfold checkNode at h
  split at h
  · cases h
  split at h
  · unfold checkCall at h
    split at h
    · split at h
      · cases h
      · injection h with h; exact Or.inl h.symm
    · injection h with h; exact Or.inr h.symm
  · split at h
    · cases h
    split at h
    · cases h
    · injection h with h; exact Or.inl h.symm
  · injection h with h; exact Or.inl h.symm

/-- **C21**: everything else is rejected by the constructor: an unknown backend and text that is not Python as well, and no
expression is ever made from it. -/
theorem C21_rejected (backend : Name) (inputs : List Name) (tree : Option Ast)
    (hbad : (backend ≠ "numpy".toList ∧ backend ≠ "jax".toList ∧ backend ≠ "math".toList) ∨ (∀ t, tree = some t → ¬ Confined inputs t)) :
    ∃ e, mathInit backend inputs tree = .error e ∧ (e = .valueError ∨ e = .attributeError ∨ e = .syntaxError) := by
  unfold mathInit
  cases hb : parseBackend backend with
  | error e =>
    refine ⟨e, rfl, Or.inl ?_⟩
    unfold parseBackend at hb
    split at hb
    · cases hb
    split at hb
    · cases hb
    split at hb
    · cases hb
    injection hb with hb
    exact hb.symm
  | ok b =>
    dsimp only
    rcases hbad with ⟨h1, h2, h3⟩ | hbad
    · unfold parseBackend at hb
      rw [if_neg h2, if_neg h3, if_neg h1] at hb
      cases hb
    cases tree with
    | none => exact ⟨_, rfl, Or.inr (Or.inr rfl)⟩
    | some t =>
      cases hp : mathPrepare b inputs (some t) with
      | ok t' => exact absurd ((C21_accepted_iff b inputs t).1 ⟨t', hp⟩) (hbad t rfl)
      | error e =>
        refine ⟨e, rfl, ?_⟩
        unfold mathPrepare at hp
        dsimp only at hp
        cases hc : checkAll inputs (Ast.walk [t]) with
        | ok u => rw [hc] at hp; cases hp
        | error e' =>
          rw [hc] at hp
          injection hp with hp
          subst hp
          have : ∀ l, checkAll inputs l = .error e' → e' = .valueError ∨ e' = .attributeError := by
            intro l
            induction l with
            | nil => intro h; cases h
            | cons n l ih =>
              intro h
              unfold checkAll at h
              cases hn : checkNode inputs n with
              | error e2 => rw [hn] at h; injection h with h; subst h; exact checkNode_err hn
              | ok u => rw [hn] at h; exact ih h
          rcases this _ hc with h | h
          · exact Or.inl h
          · exact Or.inr (Or.inl h)

theorem init_ok {backend : Name} {inputs : List Name} {t : Ast} {node : Backend × Ast} (h : mathInit backend inputs (some t) = .ok node) :
    Confined inputs t ∧ node.2 = rewrite node.1 inputs t := by
  unfold mathInit at h
  cases hb : parseBackend backend with
  | error e => rw [hb] at h; cases h
  | ok b =>
    rw [hb] at h
    dsimp only at h
    cases hp : mathPrepare b inputs (some t) with
    | error e => rw [hp] at h; cases h
    | ok t' =>
      rw [hp] at h
      injection h with h
      subst h
      refine ⟨(C21_accepted_iff b inputs t).1 ⟨t', hp⟩, ?_⟩
      unfold mathPrepare at hp
      dsimp only at hp
      split at hp
      · cases hp
      · injection hp with hp; exact hp.symm

/-! ## The rewritten expression -/

theorem rewriteList_map (b : Backend) (inputs : List Name) (l : List Ast) : rewriteList b inputs l = l.map (rewrite b inputs) := by
  induction l with
  | nil => rfl
  | cons a l ih => simp [rewriteList, ih]

theorem evalAll_map (W : World V) (env : Dict Name V) (l : List Ast) : evalAll W env l = l.map (evalExpr W env) := by
  induction l with
  | nil => rfl
  | cons a l ih => simp [evalAll, ih]

theorem newKind_op (b : Backend) (inputs : List Name) (k : Kind) (o : MathOp) : newKind b inputs k = .op o ↔ k = .op o := by
  cases k <;> simp [newKind]

theorem middleOp_rewrite (b : Backend) (inputs : List Name) (l : List Ast) : middleOp (l.map (rewrite b inputs)) = middleOp l := by
  match l with
  | [] => rfl
  | [_] => rfl
  | [_, .node k cs] => simp [middleOp]
  | [_, .node k cs, _] => cases k <;> simp [rewrite, newKind, middleOp]
  | _ :: .node k cs :: _ :: _ :: _ => simp [middleOp]

theorem firstOp_rewrite (b : Backend) (inputs : List Name) (l : List Ast) : firstOp (l.map (rewrite b inputs)) = firstOp l := by
  match l with
  | [] => rfl
  | [.node k cs] => simp [firstOp]
  | [.node k cs, _] => cases k <;> simp [rewrite, newKind, firstOp]
  | .node k cs :: _ :: _ :: _ => simp [firstOp]

/-- The table of the code, against the names of the libraries. -/
theorem table (b : Backend) : ∀ f ∈ listed, ∃ e, mathEntry f.toList = some e ∧
    (if isBuiltin b f then mathColumn b e = f.toList ∧ (firstDot f.toList).2 = none
     else firstDot (mathColumn b e) = (moduleOf b, some (memberOf b f))) := by
  have h : ∀ b : Backend, (listed.all fun f => match mathEntry f.toList with
      | none => false
      | some e => if isBuiltin b f then decide (mathColumn b e = f.toList ∧ (firstDot f.toList).2 = none)
        else decide (firstDot (mathColumn b e) = (moduleOf b, some (memberOf b f)))) = true := by
    intro b; cases b <;> decide +kernel
  intro f hf
  have := List.all_eq_true.1 (h b) f hf
  cases he : mathEntry f.toList with
  | none => rw [he] at this; cases this
  | some e =>
    rw [he] at this
    refine ⟨e, rfl, ?_⟩
    dsimp only at this
    split at this
    · rename_i hc; rw [if_pos hc]; exact of_decide_eq_true this
    · rename_i hc; rw [if_neg hc]; exact of_decide_eq_true this

theorem firstDot_plain {id : Name} (h : '.' ∉ id) : (firstDot id).2 = none := by
  induction id with
  | nil => rfl
  | cons c l ih =>
    unfold firstDot
    rw [if_neg (by intro e; exact h (by simp [e]))]
    exact ih (fun hl => h (List.mem_cons_of_mem _ hl))

theorem evalName_plain (W : World V) (env : Dict Name V) {id : Name} (h : '.' ∉ id) : evalName W env id = lookupName W env id := by
  unfold evalName
  rw [firstDot_plain h]

/-- The overwritten name of a listed function stands for the object the library offers. -/
theorem evalName_new {W : World V} {env : Dict Name V} {b : Backend} {inputs : List Name} {f : String} {v : V} (hf : f ∈ listed)
    (henv : ∀ id, (env.get? id).isSome = true ↔ id ∈ inputs) (hmod : moduleOf b ∉ inputs) (hni : f.toList ∉ inputs) (ho : Offers W b f v) :
    evalName W env (newId b inputs f.toList) = .ok v := by
  obtain ⟨e, he, ht⟩ := table b f hf
  have hnone : ∀ id, id ∉ inputs → env.get? id = none := by
    intro id h
    rw [← henv] at h
    simpa using h
  unfold newId
  rw [if_neg hni, he]
  dsimp only
  unfold Offers at ho
  by_cases hb : isBuiltin b f = true
  · rw [if_pos hb] at ht ho
    rw [ht.1]
    unfold evalName
    rw [ht.2]
    dsimp only
    unfold lookupName
    rw [hnone _ hni, ho]
  · rw [if_neg hb] at ht ho
    obtain ⟨m, hm, ha⟩ := ho
    unfold evalName
    rw [ht]
    dsimp only
    unfold lookupName
    rw [hnone _ hmod, hm]
    exact ha

theorem within_trans {a b c : Ast} (h1 : Within a b) (h2 : Within b c) : Within a c := by
  induction h2 with
  | self => exact h1
  | child hc _ ih => exact Within.child hc ih

/-- Evaluation of an accepted tree in two settings which agree on names, literals, operators and calls. -/
theorem eval_agree {W1 W2 : World V} {env1 env2 : Dict Name V} {b : Backend} {inputs : List Name}
    (hconst : W1.const = W2.const) (hbin : W1.bin = W2.bin) (hun : W1.un = W2.un) (t : Ast) :
    Confined inputs t →
    (∀ id, Uses t id → evalName W1 env1 (newId b inputs id) = evalName W2 env2 id) →
    (∀ id, Uses t id → Listed id → ∀ f args, evalName W2 env2 id = .ok f → W1.call f args = W2.call f args) →
    evalExpr W1 env1 (rewrite b inputs t) = evalExpr W2 env2 t := by
  revert t
  apply ast_ind
  intro k cs ih hc hn hcall
  have hch : ∀ c ∈ cs, evalExpr W1 env1 (rewrite b inputs c) = evalExpr W2 env2 c := by
    intro c hm
    refine ih c hm (fun n hw => hc n (Within.child hm hw)) ?_ ?_
    · rintro id ⟨ctx, hw⟩; exact hn id ⟨ctx, Within.child hm hw⟩
    · rintro id ⟨ctx, hw⟩; exact hcall id ⟨ctx, Within.child hm hw⟩
  have hrs : evalAll W1 env1 (rewriteList b inputs cs) = evalAll W2 env2 cs := by
    rw [rewriteList_map, evalAll_map, evalAll_map, List.map_map]
    apply List.map_congr_left
    intro c hm
    exact hch c hm
  rw [rewrite, evalExpr, evalExpr, hrs]
  cases k with
  | constant c => simp only [newKind, combine, hconst]
  | name id =>
    simp only [newKind, combine]
    exact hn id ⟨cs, Within.self _⟩
  | binOp =>
    simp only [newKind, combine]
    rw [rewriteList_map, middleOp_rewrite]
    split
    · unfold applyBin; rw [hbin]
    · rfl
  | unaryOp =>
    simp only [newKind, combine]
    rw [rewriteList_map, firstOp_rewrite]
    split
    · unfold applyUn; rw [hun]
    · rfl
  | call =>
    simp only [newKind, combine]
    obtain ⟨id, ctx, rest, he, hl⟩ := hc _ (Within.self _)
    dsimp only [Ast.children] at he
    subst he
    rw [evalAll]
    dsimp only
    have e : evalExpr W2 env2 (.node (.name id) ctx) = evalName W2 env2 id := by rw [evalExpr]; rfl
    rw [e]
    cases hv : evalName W2 env2 id with
    | error er => cases argList (evalAll W2 env2 rest) <;> rfl
    | ok f =>
      cases argList (evalAll W2 env2 rest) with
      | error er => rfl
      | ok args =>
        exact hcall id ⟨ctx, Within.child List.mem_cons_self (Within.self _)⟩ hl f args hv
  | other cls => exact absurd (hc _ (Within.self _)) (by simp [NodeOk, Ast.kind])
  | _ => rfl

theorem module_agree {W1 W2 : World V} {env1 env2 : Dict Name V} {b : Backend} {inputs : List Name} {t : Ast}
    (h : ∀ e, (∀ n, Within n e → Within n t) → evalExpr W1 env1 (rewrite b inputs e) = evalExpr W2 env2 e) :
    evalModule W1 env1 (rewrite b inputs t) = evalModule W2 env2 t := by
  match t with
  | .node k [] => cases k <;> rfl
  | .node k (.node k2 []  :: []) => cases k <;> cases k2 <;> rfl
  | .node k (.node k2 [e] :: []) =>
    cases k with
    | module =>
      cases k2 with
      | expr => exact h e (fun n hw => Within.child List.mem_cons_self (Within.child List.mem_cons_self hw))
      | _ => rfl
    | _ => rfl
  | .node k (.node k2 (e1 :: e2 :: es) :: []) => cases k <;> cases k2 <;> rfl
  | .node k (a :: c :: cs) => cases k <;> simp [rewrite, rewriteList, newKind, evalModule]

theorem params_get (W : World V) (b : Backend) (args : Dict Name V) (id : Name) :
    (mathParams W b args).get? id = (args.get? id).map (W.convert b) := by
  induction args with
  | nil => rfl
  | cons p l ih =>
    obtain ⟨k, v⟩ := p
    unfold mathParams at ih ⊢
    rw [List.map_cons, Dict.get?_cons, Dict.get?_cons]
    by_cases h : k = id
    · simp [h]
    · simp [h, ih]

theorem same_general (W1 W2 : World V) (std : Name → Option V) {backend : Name} {inputs : List Name} {t : Ast} {node : Backend × Ast}
    (h : mathInit backend inputs (some t) = .ok node) (hid : Identifiers t)
    (args : Dict Name V) (hargs : ∀ id, (args.get? id).isSome = true ↔ id ∈ inputs)
    (hmod : moduleOf node.1 ∉ inputs)
    (hconst : W1.const = W2.const) (hbin : W1.bin = W2.bin) (hun : W1.un = W2.un)
    (hlib : ∀ f ∈ listed, f.toList ∉ inputs → Uses t f.toList → ∃ v, std f.toList = some v ∧ Offers W1 node.1 f v ∧ W1.call v = W2.call v)
    (hin : (∃ f ∈ listed, f.toList ∈ inputs) → W1.call = W2.call) :
    mathEval W1 node args = evalModule { W2 with global := std } (mathParams W1 node.1 args) t := by
  obtain ⟨hc, hr⟩ := init_ok h
  have henv : ∀ id, ((mathParams W1 node.1 args).get? id).isSome = true ↔ id ∈ inputs := by
    intro id; rw [params_get, Option.isSome_map, hargs]
  have hlook : ∀ f ∈ listed, f.toList ∉ inputs → Uses t f.toList →
      ∃ v, lookupName { W2 with global := std } (mathParams W1 node.1 args) f.toList = .ok v ∧ Offers W1 node.1 f v ∧ W1.call v = W2.call v := by
    intro f hf hni hu
    obtain ⟨v, hv, ho, hcl⟩ := hlib f hf hni hu
    refine ⟨v, ?_, ho, hcl⟩
    unfold lookupName
    have : (mathParams W1 node.1 args).get? f.toList = none := by
      have := mt (henv f.toList).1 hni
      simpa using this
    rw [this]
    dsimp only
    rw [hv]
  unfold mathEval
  rw [hr]
  apply module_agree
  intro e he
  refine eval_agree (W1 := W1) (W2 := { W2 with global := std }) hconst hbin hun e (fun n hw => hc n (he n hw)) ?_ ?_
  · rintro id ⟨ctx, hw⟩
    have hu : Uses t id := ⟨ctx, he _ hw⟩
    rw [evalName_plain _ _ (hid id hu)]
    by_cases hin : id ∈ inputs
    · unfold newId
      rw [if_pos hin, evalName_plain _ _ (hid id hu)]
      unfold lookupName
      cases hg : (mathParams W1 node.1 args).get? id with
      | some v => rfl
      | none => have := (henv id).2 hin; rw [hg] at this; cases this
    · have hl : Listed id := by
        have := hc _ (he _ hw)
        unfold NodeOk at this
        dsimp only [Ast.kind] at this
        rcases this with h1 | h1
        · exact absurd h1 hin
        · exact h1
      obtain ⟨f, hf, e1⟩ := hl
      subst e1
      obtain ⟨v, hv, ho, _⟩ := hlook f hf hin hu
      rw [evalName_new hf henv hmod hin ho, hv]
  · rintro id ⟨ctx, hw⟩ ⟨f, hf, e1⟩ g as hg
    subst e1
    have hu : Uses t f.toList := ⟨ctx, he _ hw⟩
    by_cases hni : f.toList ∈ inputs
    · exact congrFun (congrFun (hin ⟨f, hf, hni⟩) g) as
    · obtain ⟨v, hv, ho, hcl⟩ := hlook f hf hni hu
      rw [evalName_plain _ _ (hid _ hu), hv] at hg
      injection hg with hg
      subst hg
      exact congrFun hcl as

/-- **C21** (part): the node evaluates to what the given expression means: the given tree evaluated with the inputs as
local names and each listed name standing for the function `std` of that name.

Required of the library: it offers, under its own name, the object `std f` for each listed function used that is not
itself an input. This is where the property fails for `max` and `min` with numpy and jax, see
`C21_numpy_max_counterexample`. Missing as well: no input may have the name of the module of the backend, see
`C21_shadowed_module_counterexample`. -/
theorem C21_same_function_partial (W : World V) (std : Name → Option V) {backend : Name} {inputs : List Name} {t : Ast} {node : Backend × Ast}
    (h : mathInit backend inputs (some t) = .ok node) (hid : Identifiers t)
    (args : Dict Name V) (hargs : ∀ id, (args.get? id).isSome = true ↔ id ∈ inputs)
    (hmod : moduleOf node.1 ∉ inputs)
    (hlib : ∀ f ∈ listed, f.toList ∉ inputs → Uses t f.toList → ∃ v, std f.toList = some v ∧ Offers W node.1 f v) :
    mathEval W node args = evalModule { W with global := std } (mathParams W node.1 args) t :=
  same_general W W std h hid args hargs hmod rfl rfl rfl
    (fun f hf hni hu => by obtain ⟨v, h1, h2⟩ := hlib f hf hni hu; exact ⟨v, h1, h2, rfl⟩) (fun _ => rfl)

theorem no_dot {id : Name} (h : '.' ∉ id) : (firstDot id).2 = none := by
  induction id with
  | nil => rfl
  | cons c l ih =>
    have hc : ¬ c = '.' := fun e => h (e ▸ List.mem_cons_self)
    unfold firstDot
    rw [if_neg hc]
    exact ih fun hm => h (List.mem_cons_of_mem _ hm)

theorem means_eval (W : World V) (std : Name → Option V) (env : Dict Name V) {e : Formula} {v : V}
    (h : Formula.Means W (fun id => env.get? id) std e v) (hid : Identifiers e.parse) :
    evalExpr { W with global := std } env e.parse = .ok v := by
  have sub : ∀ {k cs c}, c ∈ cs → Identifiers (.node k cs) → Identifiers c := by
    intro k cs c hc hi id hu
    obtain ⟨ctx, hw⟩ := hu
    exact hi id ⟨ctx, .child hc hw⟩
  have known : ∀ {id : Name} {g : V}, Identifiers (nameNode id) → env.get? id = none → std id = some g →
      evalExpr { W with global := std } env (nameNode id) = .ok g := by
    intro id g hi h1 h2
    have hd := no_dot (hi id ⟨_, .self _⟩)
    show evalName _ env id = _
    unfold evalName lookupName
    simp only [hd, h1, h2]
  induction h with
  | number hc => exact hc
  | @input id v hv =>
    have hd := no_dot (hid id ⟨_, .self _⟩)
    show evalName _ env id = _
    unfold evalName lookupName
    simp only [hd, hv]
  | constant h1 h2 => exact known hid h1 h2
  | @binary o x y a b v hx hy hb ihx ihy =>
    have ex := ihx (sub (by simp) hid)
    have ey := ihy (sub (by simp) hid)
    simp only [Formula.parse, evalExpr, evalAll, combine, middleOp, ex, ey, applyBin]
    exact hb
  | @unary o x a v hx hb ihx =>
    have ex := ihx (sub (by simp) hid)
    simp only [Formula.parse, evalExpr, evalAll, combine, firstOp, ex, applyUn]
    exact hb
  | @fn1 f x a g v h1 h2 hx hb ihx =>
    have ex := ihx (sub (by simp) hid)
    have ef := known (sub (by simp) hid) h1 h2
    simp only [Formula.parse, evalExpr, evalAll, combine, ex, ef, argList, consArg, applyCall]
    exact hb
  | @fn2 f x y a b g v h1 h2 hx hy hb ihx ihy =>
    have ex := ihx (sub (by simp) hid)
    have ey := ihy (sub (by simp) hid)
    have ef := known (sub (by simp) hid) h1 h2
    simp only [Formula.parse, evalExpr, evalAll, combine, ex, ey, ef, argList, consArg, applyCall]
    exact hb

/-- **C21** (part): a math node made from the text of a formula computes the value of the formula: operands in the order
written, inputs by their names, functions applied to their arguments in order. Required of the library, and missing,
as in `C21_same_function_partial`. -/
theorem C21_formula_partial (W : World V) (std : Name → Option V) {backend : Name} {inputs : List Name} {e : Formula} {node : Backend × Ast}
    (h : mathInit backend inputs (some (.node .module [.node .expr [e.parse]])) = .ok node)
    (hid : Identifiers (.node .module [.node .expr [e.parse]]))
    (args : Dict Name V) (hargs : ∀ id, (args.get? id).isSome = true ↔ id ∈ inputs)
    (hmod : moduleOf node.1 ∉ inputs)
    (hlib : ∀ f ∈ listed, f.toList ∉ inputs → Uses (.node .module [.node .expr [e.parse]]) f.toList →
      ∃ v, std f.toList = some v ∧ Offers W node.1 f v)
    {v : V} (hv : e.Means W (fun id => (args.get? id).map (W.convert node.1)) std v) :
    mathEval W node args = .ok v := by
  rw [C21_same_function_partial W std h hid args hargs hmod hlib]
  refine means_eval W std (mathParams W node.1 args) ?_ ?_
  · have : (fun id => (mathParams W node.1 args).get? id) = fun id => (args.get? id).map (W.convert node.1) := by
      funext id
      have : ∀ d : Dict Name V, Dict.get? (mathParams W node.1 d) id = (d.get? id).map (W.convert node.1) := by
        intro d
        unfold mathParams
        induction d with
        | nil => rfl
        | cons p l ih =>
          rw [List.map_cons, Dict.get?_cons, Dict.get?_cons]
          by_cases hp : p.1 = id
          · simp [hp]
          · rw [if_neg hp, if_neg hp]
            exact ih
      exact this args
    rw [this]; exact hv
  · intro id hu
    obtain ⟨ctx, hw⟩ := hu
    exact hid id ⟨ctx, .child List.mem_cons_self (.child List.mem_cons_self hw)⟩

/-- **C21** (part): the value of an accepted expression depends on nothing but literals, the arithmetic operators, the inputs and
calls of the listed functions. In two worlds that agree on these the values are the same, however much the worlds differ
in attributes, in all other objects that can be called, in other global names and builtins (`__import__`, `open`, ...) and
in the meaning of any other syntax.

Required: no input has the name of a listed function or of the module; see `C21_called_input_counterexample`. -/
theorem C21_confined_partial (W1 W2 : World V) {backend : Name} {inputs : List Name} {t : Ast} {node : Backend × Ast}
    (h : mathInit backend inputs (some t) = .ok node) (hid : Identifiers t)
    (args : Dict Name V) (hargs : ∀ id, (args.get? id).isSome = true ↔ id ∈ inputs)
    (hmod : moduleOf node.1 ∉ inputs) (hfun : ∀ f ∈ listed, f.toList ∉ inputs)
    (hconst : W1.const = W2.const) (hbin : W1.bin = W2.bin) (hun : W1.un = W2.un) (hconv : W1.convert = W2.convert)
    (hlib : ∀ f ∈ listed, ∃ v, Offers W1 node.1 f v ∧ Offers W2 node.1 f v ∧ W1.call v = W2.call v) :
    mathEval W1 node args = mathEval W2 node args := by
  let std : Name → Option V := fun id => (listed.find? fun f => decide (f.toList = id)).bind fun f =>
    if hf : f ∈ listed then some (Classical.choose (hlib f hf)) else none
  have hstd : ∀ f ∈ listed, ∃ v, std f.toList = some v ∧ Offers W1 node.1 f v ∧ Offers W2 node.1 f v ∧ W1.call v = W2.call v := by
    intro f hf
    have : listed.find? (fun g => decide (g.toList = f.toList)) = some f := by
      have : ∀ f ∈ listed, listed.find? (fun g => decide (g.toList = f.toList)) = some f := by decide +kernel
      exact this f hf
    refine ⟨Classical.choose (hlib f hf), ?_, Classical.choose_spec (hlib f hf)⟩
    show ((listed.find? fun g => decide (g.toList = f.toList)).bind _) = _
    rw [this]
    exact dif_pos hf
  have hp : mathParams W1 node.1 args = mathParams W2 node.1 args := by unfold mathParams; rw [hconv]
  have hno : ¬ ∃ f ∈ listed, f.toList ∈ inputs := by rintro ⟨f, hf, hi⟩; exact hfun f hf hi
  rw [same_general W1 W2 std h hid args hargs hmod hconst hbin hun
      (fun f hf _ _ => by obtain ⟨v, h1, h2, h3, h4⟩ := hstd f hf; exact ⟨v, h1, h2, h4⟩) (fun hx => absurd hx hno),
    same_general W2 W2 std h hid args hargs hmod rfl rfl rfl
      (fun f hf _ _ => by obtain ⟨v, h1, h2, h3, h4⟩ := hstd f hf; exact ⟨v, h1, h3, rfl⟩) (fun _ => rfl), hp]

/-! ## Where the property fails -/

/-- A few Python objects: numbers, named functions and modules. -/
inductive Obj
  | num (q : ℚ)
  | fn (name : Name)
  | mod (name : Name)
deriving DecidableEq

/-- `np.max(x, axis)` of one number: only the axes 0 and -1 are allowed, and the result is the number; the builtin `max`
is the larger of two numbers. -/
def objCall : Obj → List Obj → Except Err Obj
  | .fn f, [.num x, .num y] =>
    if f = "np.max".toList then (if y = 0 ∨ y = -1 then .ok (.num x) else .error .valueError)
    else if f = "max".toList then .ok (.num (if x < y then y else x))
    else .error .typeError
  | .fn f, [.num x] => if f = "np.fabs".toList ∨ f = "fabs".toList then .ok (.num (if x < 0 then -x else x)) else .error .typeError
  | _, _ => .error .typeError

def objAttr : Obj → Name → Except Err Obj
  | .mod m, a => .ok (.fn (m ++ '.' :: a))
  | _, _ => .error .attributeError

def objGlobal (id : Name) : Option Obj :=
  if id = "np".toList ∨ id = "math".toList ∨ id = "jnp".toList then some (.mod id)
  else if id = "max".toList ∨ id = "min".toList ∨ id = "abs".toList then some (.fn id)
  else none

def objConst (c : Name) : Except Err Obj := if c = "0".toList then .ok (.num 0) else if c = "1".toList then .ok (.num 1) else .error .valueError

def objBin : MathOp → Obj → Obj → Except Err Obj
  | .add, .num x, .num y => .ok (.num (x + y))
  | _, _, _ => .error .typeError

def objWorld : World Obj :=
  { const := objConst, bin := objBin, un := fun _ _ => .error .typeError, call := objCall, attr := objAttr, global := objGlobal,
    convert := fun _ v => v, other := fun _ _ _ => .error .runtimeError }

def nm (s : String) : Ast := .node (.name s.toList) [.node .load []]
def lit (s : String) : Ast := .node (.constant s.toList) []
def callOf (s : String) (args : List Ast) : Ast := .node .call (nm s :: args)
def mod1 (e : Ast) : Ast := .node .module [.node .expr [e]]

/-- Listed names stand for the function of that name. -/
def stdFn (id : Name) : Option Obj := some (.fn id)

theorem max_prepare (b : Backend) : mathPrepare b ["x".toList] (some (mod1 (callOf "max" [nm "x", lit "0"]))) =
    .ok (rewrite b ["x".toList] (mod1 (callOf "max" [nm "x", lit "0"]))) := by
  have : checkAll ["x".toList] (Ast.walk [mod1 (callOf "max" [nm "x", lit "0"])]) = .ok () := by
    simp only [mod1, callOf, nm, lit, Ast.walk, List.nil_append, List.cons_append]
    decide +kernel
  unfold mathPrepare
  dsimp only
  rw [this]

/-- **C21**: with numpy, `max(x, 0)` is not the larger of `x` and 0: at -1 it is -1, because the second argument of
`np.max` is an axis. -/
theorem C21_numpy_max_counterexample :
    ∃ node, mathInit "numpy".toList ["x".toList] (some (mod1 (callOf "max" [nm "x", lit "0"]))) = .ok node ∧
      mathEval objWorld node [("x".toList, .num (-1))] = .ok (.num (-1)) ∧
      evalModule { objWorld with global := stdFn } [("x".toList, .num (-1))] (mod1 (callOf "max" [nm "x", lit "0"])) = .ok (.num 0) := by
  refine ⟨(.numpy, rewrite .numpy ["x".toList] (mod1 (callOf "max" [nm "x", lit "0"]))), ?_, ?_, ?_⟩
  · unfold mathInit
    have : parseBackend "numpy".toList = .ok .numpy := by decide
    rw [this]
    dsimp only
    rw [max_prepare]
  · decide +kernel
  · decide +kernel

theorem shadow_prepare : mathPrepare .numpy ["np".toList] (some (mod1 (callOf "fabs" [nm "np"]))) =
    .ok (rewrite .numpy ["np".toList] (mod1 (callOf "fabs" [nm "np"]))) := by
  have : checkAll ["np".toList] (Ast.walk [mod1 (callOf "fabs" [nm "np"])]) = .ok () := by
    simp only [mod1, callOf, nm, Ast.walk, List.nil_append, List.cons_append]
    decide +kernel
  unfold mathPrepare
  dsimp only
  rw [this]

/-- **C21**: an input named `np` hides the module: the accepted `fabs(np)` is an attribute access to the value of the input
and fails, though its meaning is the absolute value. -/
theorem C21_shadowed_module_counterexample :
    ∃ node, mathInit "numpy".toList ["np".toList] (some (mod1 (callOf "fabs" [nm "np"]))) = .ok node ∧
      mathEval objWorld node [("np".toList, .num (-1))] = .error .attributeError ∧
      evalModule { objWorld with global := stdFn } [("np".toList, .num (-1))] (mod1 (callOf "fabs" [nm "np"])) = .ok (.num 1) := by
  refine ⟨(.numpy, rewrite .numpy ["np".toList] (mod1 (callOf "fabs" [nm "np"]))), ?_, ?_, ?_⟩
  · unfold mathInit
    have : parseBackend "numpy".toList = .ok .numpy := by decide
    rw [this]
    dsimp only
    rw [shadow_prepare]
  · decide +kernel
  · decide +kernel

theorem called_prepare : mathPrepare .math ["sin".toList, "x".toList] (some (mod1 (callOf "sin" [nm "x"]))) =
    .ok (rewrite .math ["sin".toList, "x".toList] (mod1 (callOf "sin" [nm "x"]))) := by
  have : checkAll ["sin".toList, "x".toList] (Ast.walk [mod1 (callOf "sin" [nm "x"])]) = .ok () := by
    simp only [mod1, callOf, nm, Ast.walk, List.nil_append, List.cons_append]
    decide +kernel
  unfold mathPrepare
  dsimp only
  rw [this]

/-- **C21**: an input named like a function is called: with the inputs `sin` and `x`, the accepted `sin(x)` calls whatever
object the input holds. -/
theorem C21_called_input_counterexample :
    ∃ node, mathInit "math".toList ["sin".toList, "x".toList] (some (mod1 (callOf "sin" [nm "x"]))) = .ok node ∧
      ∀ (W : World V) (f x : V), mathEval W node [("sin".toList, f), ("x".toList, x)] = W.call (W.convert .math f) [W.convert .math x] := by
  refine ⟨(.math, rewrite .math ["sin".toList, "x".toList] (mod1 (callOf "sin" [nm "x"]))), ?_, ?_⟩
  · unfold mathInit
    have : parseBackend "math".toList = .ok .math := by decide
    rw [this]
    dsimp only
    rw [called_prepare]
  · intro W f x
    rfl

/-- The hypotheses of `C21_same_function_partial` are met by `fabs(x)` with numpy. -/
example : ∃ node, mathInit "numpy".toList ["x".toList] (some (mod1 (callOf "fabs" [nm "x"]))) = .ok node ∧ moduleOf node.1 ∉ ["x".toList] ∧
    (∀ id, (Dict.get? [("x".toList, Obj.num 2)] id).isSome = true ↔ id ∈ ["x".toList]) ∧
    (∀ f ∈ listed, ∃ v, Offers objWorld node.1 f v) := by
  have hp : mathPrepare .numpy ["x".toList] (some (mod1 (callOf "fabs" [nm "x"]))) = .ok (rewrite .numpy ["x".toList] (mod1 (callOf "fabs" [nm "x"]))) := by
    have : checkAll ["x".toList] (Ast.walk [mod1 (callOf "fabs" [nm "x"])]) = .ok () := by
      simp only [mod1, callOf, nm, Ast.walk, List.nil_append, List.cons_append]
      decide +kernel
    unfold mathPrepare
    dsimp only
    rw [this]
  refine ⟨(.numpy, rewrite .numpy ["x".toList] (mod1 (callOf "fabs" [nm "x"]))), ?_, by decide, ?_, ?_⟩
  · unfold mathInit
    have : parseBackend "numpy".toList = .ok .numpy := by decide
    rw [this]
    dsimp only
    rw [hp]
  · intro id
    rw [Dict.get?_cons]
    by_cases h : "x".toList = id
    · rw [if_pos h, ← h]; simp
    · rw [if_neg h]
      constructor
      · intro hx; cases hx
      · intro hx
        rcases List.mem_cons.1 hx with e | e
        · exact absurd e.symm h
        · cases e
  · intro f hf
    refine ⟨.fn ("np".toList ++ '.' :: memberOf .numpy f), ?_⟩
    unfold Offers
    rw [if_neg (by simp [isBuiltin])]
    exact ⟨.mod "np".toList, rfl, rfl⟩

/-- `x + fabs(x)` at -1 is 0: the formula of `C21_formula_partial` has a value. -/
example : (Formula.binary .add (.input "x".toList) (.fn1 "fabs" (.input "x".toList))).Means objWorld
    (fun id => Dict.get? [("x".toList, Obj.num (-1))] id) stdFn (.num 0) :=
  .binary (a := .num (-1)) (b := .num 1) (.input rfl) (.fn1 (g := .fn "fabs".toList) (a := .num (-1)) (by decide +kernel) rfl (.input rfl) (by decide +kernel)) (by decide +kernel)

/-- Nothing with an attribute is accepted, at any depth. -/
example (b : Backend) (t : Ast) : ∃ e, mathPrepare b ["x".toList] (some (mod1 (callOf "sin" [.node .binOp [lit "1", .node (.op .add) [], .node (.other "Attribute".toList) [t]]]))) = .error e := by
  cases h : mathPrepare b ["x".toList] (some (mod1 (callOf "sin" [.node .binOp [lit "1", .node (.op .add) [], .node (.other "Attribute".toList) [t]]]))) with
  | error e => exact ⟨e, rfl⟩
  | ok t' =>
    exfalso
    have := (C21_accepted_iff b _ _).1 ⟨t', h⟩ (.node (.other "Attribute".toList) [t])
      (Within.child List.mem_cons_self (Within.child List.mem_cons_self (Within.child (List.mem_cons_of_mem _ List.mem_cons_self)
        (Within.child (List.mem_cons_of_mem _ (List.mem_cons_of_mem _ List.mem_cons_self)) (Within.self _)))))
    exact this

end LCL.MathProps
