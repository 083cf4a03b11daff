/-!
# Abstract syntax

The syntax trees of the language. Both the model of the parser and the specification of the grammar refer to them.
-/

namespace Verif.Spec

/-- Nodes of the syntax tree, `citrine.h` (`struct ctr_tnode`, `CTR_AST_NODE_*`). A reference carries a modifier
(0 plain, 1 property of the object itself, 2 new variable). `msg` is a receiver with the messages sent one after the
other, each to the answer of the one before; the messages are the last three kinds of nodes. The code stores the
selector of a keyword message as one string, each part followed by the parameter sign; here it is kept as the list
of its parts. A block has parameters and statements. The node for the end of the program is left out. -/
inductive Node where
  | ref (modifier : Nat) (name : List UInt8)
  | num (v : List UInt8)
  | str (v : List UInt8)
  | block (params : List (List UInt8)) (body : List Node)
  | nested (e : Node)
  | assign (r e : Node)
  | msg (recv : Node) (msgs : List Node)
  | ret (e : Node)
  | una (name : List UInt8)
  | bin (name : List UInt8) (arg : Node)
  | kw (parts : List (List UInt8)) (args : List Node)

namespace Node

mutual
/-- Equality of trees is decidable. -/
def decEq : (a b : Node) → Decidable (a = b)
  | .ref m n, b => match b with
    | .ref m' n' => if h : m = m' ∧ n = n' then isTrue (by rw [h.1, h.2]) else isFalse (by intro e; cases e; exact h ⟨rfl, rfl⟩)
    | .num _ | .str _ | .block .. | .nested _ | .assign .. | .msg .. | .ret _ | .una _ | .bin .. | .kw .. => isFalse (by intro e; cases e)
  | .num v, b => match b with
    | .num v' => if h : v = v' then isTrue (by rw [h]) else isFalse (by intro e; cases e; exact h rfl)
    | .ref .. | .str _ | .block .. | .nested _ | .assign .. | .msg .. | .ret _ | .una _ | .bin .. | .kw .. => isFalse (by intro e; cases e)
  | .str v, b => match b with
    | .str v' => if h : v = v' then isTrue (by rw [h]) else isFalse (by intro e; cases e; exact h rfl)
    | .ref .. | .num _ | .block .. | .nested _ | .assign .. | .msg .. | .ret _ | .una _ | .bin .. | .kw .. => isFalse (by intro e; cases e)
  | .una v, b => match b with
    | .una v' => if h : v = v' then isTrue (by rw [h]) else isFalse (by intro e; cases e; exact h rfl)
    | .ref .. | .num _ | .str _ | .block .. | .nested _ | .assign .. | .msg .. | .ret _ | .bin .. | .kw .. => isFalse (by intro e; cases e)
  | .nested v, b => match b with
    | .nested v' => match decEq v v' with
      | isTrue h => isTrue (by rw [h])
      | isFalse h => isFalse (by intro e; cases e; exact h rfl)
    | .ref .. | .num _ | .str _ | .block .. | .una _ | .assign .. | .msg .. | .ret _ | .bin .. | .kw .. => isFalse (by intro e; cases e)
  | .ret v, b => match b with
    | .ret v' => match decEq v v' with
      | isTrue h => isTrue (by rw [h])
      | isFalse h => isFalse (by intro e; cases e; exact h rfl)
    | .ref .. | .num _ | .str _ | .block .. | .una _ | .assign .. | .msg .. | .nested _ | .bin .. | .kw .. => isFalse (by intro e; cases e)
  | .assign v w, b => match b with
    | .assign v' w' => match decEq v v', decEq w w' with
      | isTrue h, isTrue h' => isTrue (by rw [h, h'])
      | isFalse h, _ => isFalse (by intro e; cases e; exact h rfl)
      | _, isFalse h => isFalse (by intro e; cases e; exact h rfl)
    | .ref .. | .num _ | .str _ | .block .. | .una _ | .ret _ | .msg .. | .nested _ | .bin .. | .kw .. => isFalse (by intro e; cases e)
  | .msg v w, b => match b with
    | .msg v' w' => match decEq v v', decEqs w w' with
      | isTrue h, isTrue h' => isTrue (by rw [h, h'])
      | isFalse h, _ => isFalse (by intro e; cases e; exact h rfl)
      | _, isFalse h => isFalse (by intro e; cases e; exact h rfl)
    | .ref .. | .num _ | .str _ | .block .. | .una _ | .ret _ | .assign .. | .nested _ | .bin .. | .kw .. => isFalse (by intro e; cases e)
  | .bin n w, b => match b with
    | .bin n' w' => match (inferInstance : Decidable (n = n')), decEq w w' with
      | isTrue h, isTrue h' => isTrue (by rw [h, h'])
      | isFalse h, _ => isFalse (by intro e; cases e; exact h rfl)
      | _, isFalse h => isFalse (by intro e; cases e; exact h rfl)
    | .ref .. | .num _ | .str _ | .block .. | .una _ | .ret _ | .assign .. | .nested _ | .msg .. | .kw .. => isFalse (by intro e; cases e)
  | .block n w, b => match b with
    | .block n' w' => match (inferInstance : Decidable (n = n')), decEqs w w' with
      | isTrue h, isTrue h' => isTrue (by rw [h, h'])
      | isFalse h, _ => isFalse (by intro e; cases e; exact h rfl)
      | _, isFalse h => isFalse (by intro e; cases e; exact h rfl)
    | .ref .. | .num _ | .str _ | .bin .. | .una _ | .ret _ | .assign .. | .nested _ | .msg .. | .kw .. => isFalse (by intro e; cases e)
  | .kw n w, b => match b with
    | .kw n' w' => match (inferInstance : Decidable (n = n')), decEqs w w' with
      | isTrue h, isTrue h' => isTrue (by rw [h, h'])
      | isFalse h, _ => isFalse (by intro e; cases e; exact h rfl)
      | _, isFalse h => isFalse (by intro e; cases e; exact h rfl)
    | .ref .. | .num _ | .str _ | .bin .. | .una _ | .ret _ | .assign .. | .nested _ | .msg .. | .block .. => isFalse (by intro e; cases e)
/-- Equality of lists of trees is decidable. -/
def decEqs : (a b : List Node) → Decidable (a = b)
  | [], b => match b with
    | [] => isTrue rfl
    | _ :: _ => isFalse (by intro e; cases e)
  | x :: xs, b => match b with
    | [] => isFalse (by intro e; cases e)
    | y :: ys => match decEq x y, decEqs xs ys with
      | isTrue h, isTrue h' => isTrue (by rw [h, h'])
      | isFalse h, _ => isFalse (by intro e; cases e; exact h rfl)
      | _, isFalse h => isFalse (by intro e; cases e; exact h rfl)
end

instance : DecidableEq Node := decEq

end Node

end Verif.Spec
