import Verif.Model.Lexer
import Verif.Spec.Ast

/-!
# The parser (`parser.c`)

Works on the state of the lexer as the code does, with its one-token put back. A parser function that answers `NULL`
has set an error before and every caller passes the `NULL` on: this is the outcome `fail`. An error that is set
without giving up (`parser.c:119`, `parser.c:156`) is recorded in the flag `err`.

Simplifications common to this file: the source map and the texts of error messages are left out; allocation never
fails. Recursion is bounded by a number (`fuel`); running out of it is the outcome `more`, which theorem `C52` shows
not to occur for `parse`.
-/

namespace Verif.Model.Parser
open Verif.Spec (Dict Node)
open Verif.Model.Lexer (Tok LS)

/-- State of the parser: the lexer, and whether an error has been set (`CtrStdFlow`, `parser.c:35`). -/
structure PS where
  lx : LS
  err : Bool
  deriving DecidableEq

/-- Outcome of a parser function. -/
inductive PR (α : Type) where
  | ok (a : α) (s : PS)
  | fail
  | ub
  | exit
  | more

/-- Sequencing. -/
def PR.bind {α β : Type} (x : PR α) (f : α → PS → PR β) : PR β :=
  match x with
  | .ok a s => f a s
  | .fail => .fail
  | .ub => .ub
  | .exit => .exit
  | .more => .more

/-- `ctr_clex_tok` (`Verif.Model.Lexer.tok`). -/
def tok (d : Dict) (s : PS) : PR Tok :=
  match Lexer.tok d s.lx with
  | .ok (t, lx) => .ok t { s with lx := lx }
  | .ub => .ub
  | .exit => .exit

/-- `ctr_clex_putback`. -/
def back (s : PS) : PS := { s with lx := Lexer.putback s.lx }

/-- `ctr_clex_readstr` with escape sequences enabled. -/
def readstr (d : Dict) (s : PS) : PR Unit :=
  match Lexer.readstrS d false s.lx with
  | .ok lx => .ok () { s with lx := lx }
  | .ub => .ub
  | .exit => .exit

/-- Value of the current token, `ctr_clex_tok_value` and `ctr_clex_tok_value_length`. -/
def val (s : PS) : Text := s.lx.val

/-- Size of the buffer for a message, `parser.c:92`. -/
def msgMax : Nat := 255

/-- `msgpartlen`: length of the parts read so far, each followed by the parameter sign. -/
def partsLen (ps : List Text) : Nat := (ps.map (·.length + 1)).sum

/-- `parser.c:93`, `parser.c:94`: the number of characters of a message (`ctr_getutf8len`). -/
def chars (v : Text) (s : PS) : PR Nat :=
  match Txt.getutf8len v v.length with
  | .ok n => .ok n s
  | .ub => .ub
  | .exit => .exit

/-- `parser.c:374-385` (`ctr_cparse_ref`, second half): `>>` or the keyword for a new variable. -/
def refVar (d : Dict) (m : Nat) (s : PS) : PR Node :=
  if val s = [62, 62] ∨ val s = d.var then
    (tok d s).bind fun t s => if t = .ref then .ok (.ref 2 (val s)) s else .fail
  else .ok (.ref m (val s)) s

/-- `ctr_cparse_ref`, `parser.c:353-387`. `strncmp(K, tmp, len K) == 0 && vlen == len K` is equality, the keywords
being free of NUL. -/
def ref (d : Dict) (s : PS) : PR Node :=
  (tok d s).bind fun _ s =>
  if val s = d.my then
    (tok d s).bind fun t s => if t = .ref then refVar d 1 s else .fail
  else refVar d 0 s

/-- `ctr_cparse_string`, `parser.c:394-408`. -/
def string (d : Dict) (s : PS) : PR Node :=
  (tok d s).bind fun _ s => (readstr d s).bind fun _ s => .ok (.str (val s)) s

/-- `ctr_cparse_number`, `parser.c:415-428`. -/
def number (d : Dict) (s : PS) : PR Node :=
  (tok d s).bind fun _ s => .ok (.num (val s)) s

/-- Loop over the parameters of a block, `parser.c:293-313`; `t` is the current token. -/
def params (d : Dict) : Nat → List Text → Tok → PS → PR (List Text)
  | 0, _, _, _ => .more
  | n + 1, ps, t, s =>
    if t = .colon then
      (tok d s).bind fun _ s1 => (tok d s1).bind fun t s2 => params d n (ps ++ [val s1]) t s2
    else .ok ps s

/-- `parser.c:501-540`: what `ctr_cparse_expr` does after the receiver `r`, the next two tokens being known. -/
def ends (t : Tok) : Bool := t = .dot || t = .parClose || t = .chain || t = .fin

mutual

/-- `ctr_cparse_expr`, `parser.c:484-541`, with `ctr_cparse_assignment`, `parser.c:462-477`. -/
def expr (d : Dict) : Nat → Nat → PS → PR Node
  | 0, _, _ => .more
  | n + 1, mode, s =>
    (receiver d n s).bind fun r s =>
    (tok d s).bind fun t2 s => (tok d s).bind fun t3 s =>
    let s := back (back s)
    if mode = 1 ∧ t2 = .ref ∧ t3 = .colon then .ok r s
    else if t2 = .colon then .fail
    else if t2 = .blockClose then .fail
    else if t2 = .assign then
      match r with
      | .ref m v =>
        (tok d s).bind fun _ s => (expr d n 0 s).bind fun e s => .ok (.assign (.ref m v) e) s
      | _ => .fail
    else if ends t2 then .ok r s
    else
      (messages d n mode [] false s).bind fun ms s =>
      if ms = [] then (tok d s).bind fun _ s => .ok r (back s)
      else .ok (.msg r ms) s

/-- `ctr_cparse_receiver`, `parser.c:435-455`, with `ctr_cparse_popen`, `parser.c:230-247`, and `ctr_cparse_block`,
`parser.c:254-346`. -/
def receiver (d : Dict) : Nat → PS → PR Node
  | 0, _ => .more
  | n + 1, s =>
    (tok d s).bind fun t s =>
    let s := back s
    match t with
    | .number => number d s
    | .quote => string d s
    | .ref => ref d s
    | .blockOpen =>
      (tok d s).bind fun _ s => (tok d s).bind fun t s =>
      if t = .blockClose then .fail
      else (params d n [] t s).bind fun ps s =>
        (statements d n [] (back s)).bind fun b s => .ok (.block ps b) s
    | .parOpen =>
      (tok d s).bind fun _ s => (expr d n 0 s).bind fun e s => (tok d s).bind fun t s =>
      if t = .parClose then .ok (.nested e) s else .fail
    | _ => .fail

/-- Loop over the statements of a block, `parser.c:315-344`, with `ctr_cparse_ret`, `parser.c:548-559`. -/
def statements (d : Dict) : Nat → List Node → PS → PR (List Node)
  | 0, _, _ => .more
  | n + 1, acc, s =>
    (tok d s).bind fun t s =>
    if t = .blockClose then .ok acc s
    else
      let s := back s
      (if t = .ret then (tok d s).bind fun _ s => (expr d n 0 s).bind fun e s => .ok (.ret e) s
        else expr d n 0 s).bind fun e s =>
      (tok d s).bind fun t s =>
      if t = .dot then statements d n (acc ++ [e]) s else .fail

/-- `ctr_cparse_messages`, `parser.c:177-222`; `acc` are the messages read so far, `kw` tells whether the last one is
a keyword message. A single node of type -1 is the empty list. -/
def messages (d : Dict) : Nat → Nat → List Node → Bool → PS → PR (List Node)
  | 0, _, _, _, _ => .more
  | n + 1, mode, acc, kw, s =>
    (tok d s).bind fun t s =>
    if t = .ref ∨ (t = .chain ∧ kw = true) then
      (if t = .chain then (tok d s).bind fun t s => if t = .ref then .ok () s else .fail else .ok () s).bind fun _ s =>
      (message d n mode (back s)).bind fun m s =>
      match m with
      | none => if acc = [] then .ok [] s else (tok d s).bind fun _ s => .ok acc (back s)
      | some m => messages d n mode (acc ++ [m]) (match m with | .kw .. => true | _ => false) s
    else if acc = [] then .fail
    else .ok acc (back s)

/-- `ctr_cparse_message`, `parser.c:71-169`; `none` is a node of type -1. The copy of line 93 fits (the lexer's
buffer has 255 bytes as well); the store of line 116 writes at index `msgpartlen` of 255 bytes; the test after it
comes too late. -/
def message (d : Dict) : Nat → Nat → PS → PR (Option Node)
  | 0, _, _ => .more
  | n + 1, mode, s =>
    (tok d s).bind fun _ s =>
    let v := val s
    if v.length > msgMax then .fail
    else (chars v s).bind fun ulen s => (tok d s).bind fun la s =>
      let s := back s
      if mode = 2 ∧ ulen = 1 ∧ la ≠ .colon then .ok none (back s)
      else if ulen = 1 ∧ la ≠ .colon then
        (expr d n 2 s).bind fun a s => .ok (some (.bin v a)) s
      else (tok d s).bind fun la s =>
        let s := back s
        if la = .colon then
          if mode > 0 then .ok none (back s)
          else if v.length ≥ msgMax then .ub
          else (tok d s).bind fun _ s => keywords d n [v] [] s
        else .ok (some (.una v)) s

/-- Loop over the arguments of a keyword message, `parser.c:124-160`; `ps` are the parts read so far. A token that is
neither one of the four ends nor a reference is passed over. The store of line 152 writes at index
`msgpartlen + l` of 255 bytes. -/
def keywords (d : Dict) : Nat → List Text → List Node → PS → PR (Option Node)
  | 0, _, _, _ => .more
  | n + 1, ps, args, s =>
    (expr d n 1 s).bind fun a s =>
    (tok d s).bind fun t s =>
    if ends t then .ok (some (.kw ps (args ++ [a]))) (back s)
    else if t = .ref then
      if partsLen ps + (val s).length > msgMax then .fail
      else if partsLen ps + (val s).length ≥ msgMax then .ub
      else
        (tok d s).bind fun t s1 =>
        keywords d n (ps ++ [val s]) (args ++ [a]) { s1 with err := s1.err || decide (t ≠ .colon) }
    else keywords d n ps (args ++ [a]) s

end

/-- `ctr_cparse_program`, `parser.c:607-626`, with `ctr_cparse_statement`, `parser.c:579-599`, and `ctr_cparse_fin`,
`parser.c:566-572`. -/
def program (d : Dict) : Nat → List Node → PS → PR (List Node)
  | 0, _, _ => .more
  | n + 1, acc, s =>
    (tok d s).bind fun t s =>
    let s := back s
    if t = .fin then (tok d s).bind fun _ s => .ok acc s
    else
      (if t = .ret then (tok d s).bind fun _ s => (expr d n 0 s).bind fun e s => .ok (.ret e) s
        else expr d n 0 s).bind fun e s =>
      (tok d s).bind fun t s =>
      if t = .dot then program d n (acc ++ [e]) s else .fail

/-- `ctr_cparse_parse`, `parser.c:633-643`. The bound is large enough for every program. -/
def parse (d : Dict) (prg : Text) : PR (List Node) := program d (4 * prg.length + 8) [] ⟨Lexer.load prg, false⟩

end Verif.Model.Parser
