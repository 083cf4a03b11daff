import Verif.Model.Interp
import Verif.Model.Parser
import Verif.Model.Nest
import Verif.Model.Num
import Verif.Spec.ReadBack

/-!
# Reading the text of a value back (`base.c:1664-1693`)

Puts the models of the texts of values (`Verif.Model.Nest`, `Verif.Model.Lexer`, `Verif.Model.Num`), of the parser and of the
interpreter together: `code` makes a text, `object` parses it as one expression and evaluates that with most built-in
operations switched off.

The interpreter model has numbers for texts. `nm` and `un` translate between the two: `un (nm t) = t` for every text.
-/

namespace Verif.Model.ReadBack
open Verif.Spec (Dict)
open Verif.Spec.ReadBack (V Names decimal)
open Verif.Model.Interp

/-! ## The text of a value -/

/-- The result of `snprintf(buf, 99, "%.10f", ...)` for a whole number, `base.c:1544`; such numbers are printed exactly. -/
def printed (n : Int) : Text := decimal n ++ 46 :: List.replicate 10 48

mutual
/-- The object at address `i` of the store is the value: Nil and the Booleans answer their names to `code`
(`world.c:691`, `715`, `base.c:114-117`, `649-655`), numbers `ctr_number_to_string` (`world.c:778`, `base.c:1524-1580`),
texts `ctr_string_to_code` (`world.c:827`); all keys of a list are texts (`collections.c:785-809`). Numbers have no unit. -/
def Stands (d : Dict) (W : Names) (σ : Spec.Nest.Store) (i : Nat) : V → Prop
  | .nil => σ i = .leaf W.none
  | .bool b => σ i = .leaf (if b then W.true else W.false)
  | .num n => ∃ c, Num.numberToString ⟨d.tho, d.dec⟩ (printed n) none = .ok c ∧ σ i = .leaf c
  | .text t => ∃ c, Lexer.toCode d t = .ok c ∧ σ i = .leaf c
  | .seq l => ∃ xs, σ i = .seq xs ∧ StandsAll d W σ xs l
  | .map es => ∃ ps, σ i = .map ps ∧ StandsPairs d W σ ps es
/-- The items of a sequence. -/
def StandsAll (d : Dict) (W : Names) (σ : Spec.Nest.Store) (xs : List Nat) : List V → Prop
  | [] => xs = []
  | v :: l => ∃ x xs', xs = x :: xs' ∧ Stands d W σ x v ∧ StandsAll d W σ xs' l
/-- The entries of a list. -/
def StandsPairs (d : Dict) (W : Names) (σ : Spec.Nest.Store) (ps : List (Nat × Text)) : List (List UInt8 × V) → Prop
  | [] => ps = []
  | (k, v) :: es => ∃ x c ps', ps = (x, c) :: ps' ∧ Lexer.toCode d k = .ok c ∧ Stands d W σ x v ∧ StandsPairs d W σ ps' es
end

/-- A text from a conversion; a conversion that stops the program or is undefined gives no text (neither happens for the
values of the theorems). -/
def textOr (o : Out Text) : Text :=
  match o with
  | .ok t => t
  | _ => []

/-- The objects of the interpreter as the conversion `code` sees them (`world.c:678`, `691`, `715`, `778`, `827`,
`collections.c:517-560`, `1011-1060`); `lm` is the prototype of lists. Other objects are not converted here. -/
def view (d : Dict) (un : Name → Text) (W : Names) (lm : Nat) (obj : Nat → Obj) : Spec.Nest.Store := fun i =>
  if i = nilO then .leaf W.none
  else if i = trueO then .leaf W.true
  else if i = falseO then .leaf W.false
  else
    match (obj i).val with
    | .num n => .leaf (textOr (Num.numberToString ⟨d.tho, d.dec⟩ (printed n) none))
    | .str k => .leaf (textOr (Lexer.toCode d (un k)))
    | .arr xs => .seq xs
    | .obj =>
      if (obj i).link = some lm then .map ((obj i).props.map fun p => (p.2, textOr (Lexer.toCode d (un p.1)))) else .leaf []
    | _ => .leaf []

/-! ## From the tree of the parser to the tree of the interpreter -/

/-- `atof` for the digits of a whole number, `base.c:895`; anything else counts as 0 (fractions are not modelled). -/
def natOf (t : Text) : Nat := t.foldl (fun a c => a * 10 + (c.toNat - 48)) 0

/-- `atof` with a sign, `base.c:895`. -/
def intOf : Text → Int
  | 45 :: t => - (natOf t : Int)
  | t => (natOf t : Int)

/-- The selector of a keyword message, `parser.c:117-170`: every part is followed by the parameter sign. -/
def selector (d : Dict) (ps : List Text) : Text := ps.flatMap (· ++ [d.param])

mutual
/-- The parser and the interpreter share one kind of tree (`citrine.h:236-258`); the two models have their own. -/
def lower (d : Dict) (nm : Text → Name) : Spec.Node → Interp.Node
  | .ref m n => .ref (m == 1) (nm n)
  | .num v => .num (intOf v)
  | .str v => .str (nm v)
  | .block ps b => .code (ps.map nm) (lowerAll d nm b)
  | .nested e => .nested (lower d nm e)
  | .assign r e =>
    match r with
    | .ref m n => .assign (if m = 1 then .own else if m = 2 then .loc else .var) (nm n) (lower d nm e)
    | _ => .eop
  | .msg r ms => .msg (lower d nm r) (lowerMsgs d nm ms)
  | .ret e => .ret (lower d nm e)
  | _ => .eop
/-- Statements and arguments. -/
def lowerAll (d : Dict) (nm : Text → Name) : List Spec.Node → List Interp.Node
  | [] => []
  | e :: es => lower d nm e :: lowerAll d nm es
/-- Messages. -/
def lowerMsgs (d : Dict) (nm : Text → Name) : List Spec.Node → List (Name × List Interp.Node)
  | [] => []
  | .una n :: ms => (nm n, []) :: lowerMsgs d nm ms
  | .bin o a :: ms => (nm o, [lower d nm a]) :: lowerMsgs d nm ms
  | .kw ps as :: ms => (nm (selector d ps), lowerAll d nm as) :: lowerMsgs d nm ms
  | _ :: ms => lowerMsgs d nm ms
end

/-! ## `object` -/

/-- The parsing part of `ctr_string_eval`, `base.c:1670-1676`: the text up to a zero byte is read as one expression; what
follows the expression is ignored. A text that is not parsed without an error gives `none`. -/
def readTree (d : Dict) (t : Text) : Option Spec.Node :=
  let p := t.takeWhile (· != 0)
  match Parser.expr d (4 * p.length + 8) 0 ⟨Lexer.load p, false⟩ with
  | .ok e s => if s.err then none else some e
  | _ => none

/-- `ctr_map_new`, `collections.c:758-762`. -/
def mapNew (obj : Nat → Obj) (fresh r : Nat) : PrimOut :=
  ⟨fun j => if j = fresh then { val := .obj, link := some r } else obj j, fresh + 1, fresh, none⟩

/-- `ctr_map_put`, `collections.c:785-809`, for keys that are texts: the key answers itself to `string`
(`ctr_object_myself`), an entry with that key is removed, the new entry is the first. The copies made of the key are not
counted as objects. -/
def mapPut (obj : Nat → Obj) (fresh r v : Nat) (k : Name) : PrimOut :=
  ⟨fun j => if j = r then { obj r with props := setp (obj r).props k v } else obj j, fresh, r, none⟩

/-- What the interpreter takes as given; `other` is everything it does not need here. -/
def env (d : Dict) (nm : Text → Name) (un : Name → Text) (other : Prim → (Nat → Obj) → Nat → Nat → List Nat → Res PrimOut) :
    Env where
  prim p obj fresh r args :=
    match p with
    | .mapNew => .ok (mapNew obj fresh r)
    | .mapPut =>
      match args with
      | v :: k :: _ =>
        match (obj k).val with
        | .str t => .ok (mapPut obj fresh r v t)
        | _ => other .mapPut obj fresh r args
      | _ => .ub .null
    | p => other p obj fresh r args
  parse k := (readTree d (un k)).map (lower d nm)

end Verif.Model.ReadBack
