import Verif.Basic
import Verif.Spec.Ast
import Verif.Model.Sip

/-!
# Showing the tree of a program (`util.c`, option `-x`)
-/

namespace Verif.Model.Export
open Verif Verif.Spec Verif.Model

/-- A node of the tree as the parser builds it, `citrine.h` (`struct ctr_tnode`): type, modifier, value (`none` for `NULL`)
and the list of its nodes (empty for `NULL`). -/
inductive Raw where
  | node (type modifier : Nat) (value : Option Text) (nodes : List Raw)

mutual
/-- The nodes the parser builds for a tree; `sign` is the parameter sign (`ctr_clex_param_prefix_char`). Messages
`parser.c:101-170`, nested `parser.c:230-247`, blocks `parser.c:254-346`, references `parser.c:353-387`, texts and numbers
`parser.c:394-428`, assignments `parser.c:462-477`, expressions `parser.c:484-541`, answers `parser.c:548-559`; the types are
those of `citrine.h:86-111`. -/
def build (sign : UInt8) : Node → Raw
  | .ref m n => .node 57 m (some n) []
  | .num v => .node 58 0 (some v) []
  | .str v => .node 56 0 (some v) []
  | .block ps b => .node 59 0 none [.node 76 0 none (ps.map fun p => .node 78 0 (some p) []), .node 77 0 none (buildAll sign b)]
  | .nested e => .node 80 0 none [build sign e]
  | .assign r e => .node 51 0 none [build sign r, build sign e]
  | .msg r ms => .node 52 0 none (build sign r :: buildAll sign ms)
  | .ret e => .node 60 0 none [build sign e]
  | .una n => .node 53 0 (some n) []
  | .bin n a => .node 54 0 (some n) [build sign a]
  | .kw ps as => .node 55 0 (some (ps.flatMap fun p => p ++ [sign])) (buildAll sign as)
/-- The nodes of several trees. -/
def buildAll (sign : UInt8) : List Node → List Raw
  | [] => []
  | n :: l => build sign n :: buildAll sign l
end

/-- The nodes of a program: its statements and the mark of the end, `parser.c:566-572` and `parser.c:607-626`. -/
def program (sign : UInt8) (p : List Node) : List Raw := buildAll sign p ++ [.node 79 0 none []]

/-- `%d` and `%lu` of numbers that are not negative. -/
def dec (n : Nat) : Text := Sip.decimal (n + 1) n

/-- The value of a node, `util.c:35-42`. -/
def putValue : Option Text → Text
  | none => [48, 59]
  | some w => dec w.length ++ 59 :: w

mutual
/-- One round of the loop of `ctr_internal_export_tree`, `util.c:33-53`. -/
def put : Raw → Text
  | .node t m v ks =>
    dec t ++ 59 :: (dec m ++ 59 :: (putValue v ++ 59 :: (putNodes ks ++ [59])))
/-- The nodes of a node, `util.c:46-50`. -/
def putNodes : List Raw → Text
  | [] => []
  | k :: ks => 91 :: (put k ++ putAll ks ++ [93])
/-- The loop of `ctr_internal_export_tree`, `util.c:33-56`. -/
def putAll : List Raw → Text
  | [] => []
  | k :: ks => put k ++ putAll ks
end

/-- `ctr_internal_export_tree`, `util.c:28-57`, as `citrine.c:166-169` calls it. The first node is used without a check; a
program always has one. -/
def exportTree (nodes : List Raw) : Out Text :=
  match nodes with
  | [] => .ub
  | k :: ks => .ok (putAll (k :: ks))

end Verif.Model.Export
