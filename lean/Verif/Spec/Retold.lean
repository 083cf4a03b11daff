import Verif.Spec.Program
import Verif.Spec.TransProg

/-!
# When a translation of words keeps what programs mean

The words of the language go to the corresponding words of the other language, and different names of the program go to different
names.
-/

namespace Verif.Spec.Retold
open Verif.Spec (Node)
open Verif.Spec.Program (Words V selector)
open Verif.Spec.Retell (Say trNode trNodes)

mutual
/-- The program uses no other names than `N`, no other messages without parameters and with a symbol than `M`, and no other messages with
parameters than `K`. -/
def uses (N M : List (List UInt8)) (K : List (List (List UInt8))) : Node → Bool
  | .ref _ n => decide (n ∈ N)
  | .num _ => true
  | .str _ => true
  | .block ps b => ps.all (decide <| · ∈ N) && usesAll N M K b
  | .nested e => uses N M K e
  | .assign r e => uses N M K r && uses N M K e
  | .msg r ms => uses N M K r && usesAll N M K ms
  | .ret e => uses N M K e
  | .una n => decide (n ∈ M)
  | .bin o a => decide (o ∈ M) && uses N M K a
  | .kw ps as => decide (ps ∈ K) && usesAll N M K as
/-- The same for lists. -/
def usesAll (N M : List (List UInt8)) (K : List (List (List UInt8))) : List Node → Bool
  | [] => true
  | e :: es => uses N M K e && usesAll N M K es
end

/-- The messages with a meaning, in both languages. -/
def messages (W W' : Words) : List (List UInt8 × List UInt8) :=
  [(W.plus, W'.plus), (W.minus, W'.minus), (W.times, W'.times), (W.star, W'.star), (W.less, W'.less), (W.greater, W'.greater),
   (W.atMost, W'.atMost), (W.atLeast, W'.atLeast), (W.equal, W'.equal), (W.unequal, W'.unequal), (W.modulo, W'.modulo),
   (W.absolute, W'.absolute), (W.ifTrue, W'.ifTrue), (W.ifFalse, W'.ifFalse), (W.otherwise, W'.otherwise), (W.stop, W'.stop),
   (W.next, W'.next), (W.not, W'.not), (W.and, W'.and), (W.or, W'.or), (W.start, W'.start), (W.apply, W'.apply),
   (W.applyAnd, W'.applyAnd), (W.whileTrue, W'.whileTrue)]

/-- The names with a meaning, in both languages. -/
def names (W W' : Words) : List (List UInt8 × List UInt8) :=
  [(W.me, W'.me), (W.my, W'.my), (W.task, W'.task), (W.yes, W'.yes), (W.no, W'.no)]

/-- The translation keeps names apart, and takes names and messages with a meaning (and no others) to those of the same meaning. -/
structure Faithful (T : Say) (W W' : Words) (N M : List (List UInt8)) (K : List (List (List UInt8))) : Prop where
  apart : ∀ a ∈ N, ∀ b ∈ N, T.word a = T.word b → a = b
  names : ∀ p ∈ names W W', p.1 ∈ N ∧ T.word p.1 = p.2
  others : W'.others = W.others.map T.word ∧ ∀ o ∈ W.others, o ∈ N
  words : ∀ m ∈ M, ∀ p ∈ messages W W', T.word m = p.2 ↔ m = p.1
  parts : ∀ ps ∈ K, ∀ p ∈ messages W W', selector W' (T.msg ps) = p.2 ↔ selector W ps = p.1

/-- The value in the other language: numbers and truth values are the same, a block is the translated block. -/
def retold (T : Say) : V → V
  | .num z => .num z
  | .bool b => .bool b
  | .code ps b => .code (ps.map T.word) (trNodes T b)
  | .other => .other

end Verif.Spec.Retold
