import Verif.Spec.Objects
import Verif.Spec.Retold

/-!
# When a translation of words and texts keeps what programs with objects mean

As in `Verif.Spec.Retold`. Texts are translated, too, and the names of methods are texts; so the texts of both programs have to
correspond.
-/

namespace Verif.Spec.RetoldObjects
open Verif.Spec (Node)
open Verif.Spec.Program (selector)
open Verif.Spec.Objects (Words V Frame Ob Sig)
open Verif.Spec.Retell (Say trNode trNodes)

mutual
/-- The program has no other texts than `L`. -/
def says (L : List (List UInt8)) : Node → Bool
  | .ref _ _ => true
  | .num _ => true
  | .str t => decide (t ∈ L)
  | .block _ b => saysAll L b
  | .nested e => says L e
  | .assign r e => says L r && says L e
  | .msg r ms => says L r && saysAll L ms
  | .ret e => says L e
  | .una _ => true
  | .bin _ a => says L a
  | .kw _ as => saysAll L as
/-- The same for lists. -/
def saysAll (L : List (List UInt8)) : List Node → Bool
  | [] => true
  | e :: es => says L e && saysAll L es
end

/-- The messages with a meaning, in both languages. -/
def messages (W W' : Words) : List (List UInt8 × List UInt8) :=
  Retold.messages W.toWords W'.toWords ++
  [(W.over, W'.over), (W.slash, W'.slash), (W.new, W'.new), (W.onDo, W'.onDo), (W.recursive, W'.recursive), (W.error, W'.error),
   (W.except, W'.except), (W.newWith, W'.newWith), (W.append, W'.append), (W.semicolon, W'.semicolon), (W.count, W'.count),
   (W.position, W'.position), (W.each, W'.each)]

/-- The names with a meaning, in both languages. -/
def names (W W' : Words) : List (List UInt8 × List UInt8) :=
  Retold.names W.toWords W'.toWords ++ [(W.object, W'.object), (W.sequence, W'.sequence), (W.nothing, W'.nothing)]

/-- The messages of the program (without parameters and with a symbol: `M`; with parameters: `K`), in both languages. -/
def Sent (T : Say) (W W' : Words) (M : List (List UInt8)) (K : List (List (List UInt8))) (sel sel' : List UInt8) : Prop :=
  (∃ m ∈ M, sel = m ∧ sel' = T.word m) ∨
  ∃ ps ∈ K, sel = selector W.toWords ps ∧ sel' = selector W'.toWords (T.msg ps)

/-- The translation keeps names apart, and takes names and messages with a meaning (and no others) to those of the same meaning. -/
structure Faithful (T : Say) (W W' : Words) (N M : List (List UInt8)) (K : List (List (List UInt8))) : Prop where
  apart : ∀ a ∈ N, ∀ b ∈ N, T.word a = T.word b → a = b
  names : ∀ p ∈ names W W', p.1 ∈ N ∧ T.word p.1 = p.2
  others : W'.others = W.others.map T.word ∧ ∀ o ∈ W.others, o ∈ N
  sent : ∀ sel sel', Sent T W W' M K sel sel' → ∀ p ∈ messages W W', sel' = p.2 ↔ sel = p.1

/-- Texts of the two programs that correspond: the texts in the program and their translations, and what is put together from such
texts. A text is the name of a message if and only if the corresponding text is the name of the translated message. Texts are not
compared, or equal texts correspond to equal texts. -/
structure Texts (T : Say) (W W' : Words) (L M : List (List UInt8)) (K : List (List (List UInt8)))
    (R : List UInt8 → List UInt8 → Prop) : Prop where
  quoted : ∀ t ∈ L, R t (T.text t)
  joined : ∀ t t' u u', R t t' → R u u' → R (t ++ u) (t' ++ u')
  method : ∀ sel sel', Sent T W W' M K sel sel' → ∀ k k', R k k' → (sel' = k' ↔ sel = k)
  equal : (∀ sel sel', Sent T W W' M K sel sel' → sel ≠ W.equal) ∨
    ∀ t t' u u', R t t' → R u u' → (0 ∈ t ↔ 0 ∈ t') ∧ (t = u ↔ t' = u')

/-- The text put together from texts of the program, and the one put together from their translations. -/
def Made (T : Say) (L : List (List UInt8)) (t t' : List UInt8) : Prop :=
  ∃ ts : List (List UInt8), (∀ x ∈ ts, x ∈ L) ∧ t = ts.flatten ∧ t' = (ts.map T.text).flatten

/-- What corresponds to an optional thing. -/
def Opt (r : α → β → Prop) : Option α → Option β → Prop
  | none, none => True
  | some a, some b => r a b
  | _, _ => False

/-- Lists that correspond element by element. -/
def Two (r : α → β → Prop) : List α → List β → Prop
  | [], [] => True
  | a :: l, b :: l' => r a b ∧ Two r l l'
  | _, _ => False

/-- Values that correspond. -/
def Like (R : List UInt8 → List UInt8 → Prop) : V → V → Prop
  | .num a, .num b => a = b
  | .bool a, .bool b => a = b
  | .text t, .text t' => R t t'
  | .nothing, .nothing => True
  | .ref i, .ref j => i = j
  | .root, .root => True
  | .list, .list => True
  | .other, .other => True
  | _, _ => False

/-- Variables that correspond. -/
def Pair (T : Say) (N : List (List UInt8)) (R : List UInt8 → List UInt8 → Prop) (f f' : Frame) : Prop :=
  ∀ k ∈ N, Opt (Like R) (f k) (f' (T.word k))

/-- Things that correspond: the translated block, an object with corresponding variables and the same methods, a sequence of
corresponding values. -/
def LikeOb (T : Say) (W W' : Words) (N M : List (List UInt8)) (K : List (List (List UInt8))) (R : List UInt8 → List UInt8 → Prop) :
    Ob → Ob → Prop
  | .block ps b h m, .block ps' b' h' m' => ps' = ps.map T.word ∧ b' = trNodes T b ∧ h' = h ∧ m' = m
  | .obj p own ms, .obj p' own' ms' => p' = p ∧ Pair T N R own own' ∧ ∀ sel sel', Sent T W W' M K sel sel' → ms' sel' = ms sel
  | .seq l, .seq l' => Two (Like R) l l'
  | _, _ => False

/-- Results that correspond: both programs end regularly, or both with an error, with corresponding texts. -/
def LikeSig (R : List UInt8 → List UInt8 → Prop) : Sig → Sig → Prop
  | .brk, .brk => True
  | .cont, .cont => True
  | .err t, .err t' => Opt R t t'
  | _, _ => False

/-- The same, with results. -/
def LikeRes (r : α → β → Prop) (R : List UInt8 → List UInt8 → Prop) : Except Sig α → Except Sig β → Prop
  | .ok a, .ok b => r a b
  | .error g, .error g' => LikeSig R g g'
  | _, _ => False

end Verif.Spec.RetoldObjects
