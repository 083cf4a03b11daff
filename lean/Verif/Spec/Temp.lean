import Verif.Model.Temp
import Verif.Spec.GC

/-! Specification for intermediate values: which runs leave no value to the protection of a C variable. Everything is
said about the run in which nothing is ever freed. -/

namespace Verif.Spec.Temp

open Verif.Model.Temp
open Verif.Spec.GC (Reach)

/-- One object refers to another: as element, as property, as method or by a name. -/
def Refers (s : St) (x y : Nat) : Prop :=
  ∃ o, s.heap.mem x = some o ∧
    ((o.isArray = true ∧ y ∈ o.elems) ∨ (∃ p ∈ o.props, p.2 = y ∨ p.1 = y) ∨ ∃ p ∈ o.methods, p.2 = y ∨ p.1 = y)

/-- The program can get hold of `x`, from its open scopes or from one of the values `G`. -/
def Reaches (s : St) (G : List Nat) (x : Nat) : Prop := Reach (Refers s) (s.ctxs ++ G) x

/-- The C variables a step reads. -/
def readsOf : Basic → List Nat
  | .new _ => []
  | .elem i _ => [i]
  | .get _ i _ => [i]
  | .put _ i _ v => [i, v]
  | .del _ i _ => [i]
  | .push i v => [i, v]
  | .pop i => [i]
  | .shift i => [i]
  | .pin i => [i]

/-- The C variables that are read by steps. -/
def reads : List Step → List Nat
  | [] => []
  | .basic b :: l => readsOf b ++ reads l
  | .clean :: l => reads l
  | .run b ps my _ :: l => b :: (ps.map (·.2) ++ my.toList) ++ reads l

/-- The variables known to be pinned after a step. -/
def pinned (safe : List Nat) : Basic → List Nat
  | .pin i => i :: safe
  | _ => safe

mutual
/-- No value is lost while this is evaluated: see `CalmChain` and `CalmSteps`. -/
def CalmExp (s : St) : Exp → Prop
  | .lit => True
  | .ref _ => True
  | .own _ => True
  | .loc _ e => CalmExp s e
  | .var _ e => CalmExp s e
  | .ownSet _ e => CalmExp s e
  | .msg recv ms => CalmExp s recv ∧ ∀ t r, eval false s recv = .ok (t, r) → CalmChain t t.inMsg (isLiteral recv) r ms

/-- A receiver found by its name can still be reached when its arguments have been evaluated, if the operation reads it. -/
def CalmChain (s : St) (level : Nat) (lit : Bool) (r : Nat) : List Msg → Prop
  | [] => True
  | .mk args steps res :: ms =>
    ∀ s1 old, hold { s with inMsg := level } r = .ok (s1, old) →
    ∀ s2, (if lit then pin s1 r else .ok s1) = .ok s2 →
    CalmArgs s2 args ∧
    ∀ s3 vs, evalArgs false s2 args = .ok (s3, vs) →
    (lit = true ∨ args = [] ∨ 0 ∉ reads steps ++ [res] ∨ Reaches s3 [] r) ∧
    CalmSteps s3 ((if lit then [0] else []) ++ List.range' 1 vs.length) (r :: vs) res steps ∧
    ∀ s4 regs, native false s3 (r :: vs) steps = .ok (s4, regs) →
    ∀ v, var? regs res = .ok v →
    ∀ s5, letGo s4 r old = .ok s5 →
    ∀ s6, unpin s5 (vs.length + if lit then 1 else 0) = .ok s6 → CalmChain s6 (level + 1) true v ms

/-- Arguments. -/
def CalmArgs (s : St) : List Exp → Prop
  | [] => True
  | e :: es => CalmExp { s with inMsg := s.inMsg + 1 } e ∧
    ∀ t v, eval false { s with inMsg := s.inMsg + 1 } e = .ok (t, v) →
    ∀ u, pin { t with inMsg := s.inMsg } v = .ok u → CalmArgs u es

/-- Steps of a built-in operation: the variables it reads after a collection or after a call are pinned (`safe`) or can
be reached by the program; and so is what a call answers that has no answer of its own. -/
def CalmSteps (s : St) (safe : List Nat) (regs : List Nat) (res : Nat) : List Step → Prop
  | [] => True
  | .basic b :: l => ∀ t regs', basic s regs b = .ok (t, regs') → CalmSteps t (pinned safe b) regs' res l
  | .clean :: l => (∀ i ∈ reads l ++ [res], i ∈ safe ∨ ∀ v, regs[i]? = some v → Reaches s [] v) ∧ CalmSteps s safe regs res l
  | .run b ps my body :: l =>
    ∀ blk, var? regs b = .ok blk → ∀ me, var?? regs my = .ok me →
    ∀ s1, bindParams regs (openScope s) ps = .ok s1 →
    ∀ s2, bindSelf s1 blk me = .ok s2 →
    CalmStmts s2 body ∧
    ∀ s3 answer, stmts false s2 body = .ok (s3, answer) →
    (answer = none → my.getD b ∈ safe ∨ Reaches s3 [] (me.getD blk)) ∧
    ∀ s4 v, leave s3 blk me answer = .ok (s4, v) →
    (∀ i ∈ reads l ++ [res], i ∈ safe ∨ ∀ w, regs[i]? = some w → Reaches s4 [v] w) ∧
    CalmSteps s4 safe (regs ++ [v]) res l

/-- Statements. -/
def CalmStmts (s : St) : List Stmt → Prop
  | [] => True
  | .mk e ret _ :: rest => CalmExp s e ∧ ∀ t v, eval false s e = .ok (t, v) → ret = false → CalmStmts t rest
end

/-! ### A rule a programmer can check by reading -/

/-- Names written by a step. -/
def writesOf : Basic → List Nat
  | .put _ _ (n + 1) _ => [n]
  | .del _ _ (n + 1) => [n]
  | _ => []

mutual
/-- Names of variables and own properties that are written; new local variables of a called block (`inner`) do not count. -/
def writesExp (inner : Bool) : Exp → List Nat
  | .lit => []
  | .ref _ => []
  | .own _ => []
  | .loc n e => (if inner then [] else [n]) ++ writesExp inner e
  | .var n e => n :: writesExp inner e
  | .ownSet n e => n :: writesExp inner e
  | .msg recv ms => writesExp inner recv ++ writesMsgs inner ms

def writesMsgs (inner : Bool) : List Msg → List Nat
  | [] => []
  | .mk args steps _ :: ms => (writesArgs inner args ++ writesSteps steps) ++ writesMsgs inner ms

def writesArgs (inner : Bool) : List Exp → List Nat
  | [] => []
  | e :: es => writesExp inner e ++ writesArgs inner es

def writesSteps : List Step → List Nat
  | [] => []
  | .basic b :: l => writesOf b ++ writesSteps l
  | .clean :: l => writesSteps l
  | .run _ _ _ body :: l => writesStmts body ++ writesSteps l

def writesStmts : List Stmt → List Nat
  | [] => []
  | .mk e _ _ :: l => writesExp true e ++ writesStmts l
end

/-- The names by which a receiver is held: its own, `me` for own properties, and `Nil` if there is nothing of that name. -/
def holders : Exp → List Nat
  | .ref n => [n, nNil]
  | .own n => [nMe, n, nNil]
  | _ => []

/-- The number of C variables after a step. -/
def grows : Basic → Nat
  | .new _ => 1
  | .elem _ _ => 1
  | .get _ _ _ => 1
  | _ => 0

/-- Is there a return statement. -/
def returns : List Stmt → Bool
  | [] => false
  | .mk _ ret _ :: l => ret || returns l

mutual
/-- **The rule**: while a message to a variable is answered, that variable is not written. And built-in operations read no
C variable after a call that they did not pin, unless it is an argument or the receiver. -/
def tidyExp : Exp → Bool
  | .lit => true
  | .ref _ => true
  | .own _ => true
  | .loc _ e => tidyExp e
  | .var _ e => tidyExp e
  | .ownSet _ e => tidyExp e
  | .msg recv ms => tidyExp recv && tidyMsgs (isLiteral recv) (holders recv) ms

def tidyMsgs (lit : Bool) (names : List Nat) : List Msg → Bool
  | [] => true
  | .mk args steps res :: ms =>
    let kept := !lit && names.all fun n => !(writesArgs false args).contains n
    let named := kept && names.all fun n => !(writesSteps steps).contains n
    tidyArgs args &&
    (lit || args.isEmpty || !(reads steps ++ [res]).contains 0 || kept) &&
    tidySteps ((if lit then [0] else []) ++ List.range' 1 args.length) named (args.length + 1) res steps &&
    tidyMsgs true [] ms

def tidyArgs : List Exp → Bool
  | [] => true
  | e :: es => tidyExp e && tidyArgs es

def tidySteps (safe : List Nat) (named : Bool) (n res : Nat) : List Step → Bool
  | [] => true
  | .basic b :: l => tidySteps (pinned safe b) named (n + grows b) res l
  | .clean :: l => (reads l ++ [res]).all (fun i => safe.contains i || n ≤ i || (named && i == 0)) && tidySteps safe named n res l
  | .run b _ my body :: l =>
    tidyStmts body && (returns body || safe.contains (my.getD b) || (named && my.getD b == 0)) &&
    (reads l ++ [res]).all (fun i => safe.contains i || n ≤ i || (named && i == 0)) && tidySteps safe named (n + 1) res l

def tidyStmts : List Stmt → Bool
  | [] => true
  | .mk e _ _ :: l => tidyExp e && tidyStmts l
end

/-! ### What is released again -/

/-- The values that an object holds by properties with an empty name. -/
def nameless (s : St) (c : Nat) : List Nat :=
  match s.heap.mem c with
  | none => []
  | some o => (o.props.filter fun p => s.kind p.1 == .name 0).map (·.2)

/-- Built-in operations that pin nothing, and call blocks only outside of other messages (`deep`). -/
def neatSteps (deep : Bool) : List Step → Bool
  | [] => true
  | .basic (.pin _) :: _ => false
  | .basic _ :: l => neatSteps deep l
  | .clean :: l => neatSteps deep l
  | .run _ _ _ _ :: l => !deep && neatSteps deep l

mutual
/-- Only such operations, here and in arguments; what called blocks do does not matter. -/
def neatExp (deep : Bool) : Exp → Bool
  | .lit => true
  | .ref _ => true
  | .own _ => true
  | .loc _ e => neatExp deep e
  | .var _ e => neatExp deep e
  | .ownSet _ e => neatExp deep e
  | .msg recv ms => neatExp deep recv && neatMsgs deep ms

def neatMsgs (deep : Bool) : List Msg → Bool
  | [] => true
  | .mk args steps _ :: ms => neatArgs args && neatSteps deep steps && neatMsgs true ms

def neatArgs : List Exp → Bool
  | [] => true
  | e :: es => neatExp true e && neatArgs es
end

end Verif.Spec.Temp
